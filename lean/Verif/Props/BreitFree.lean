import Verif.Props.Breit
/-!
C61 — the integrals int2e_breit_r1p2 and int2e_breit_r2p2: Cartesian, spherical and spinor output.
-/
namespace Verif.Props
open Verif Verif.Model Verif.Prog Verif.Lemmas Verif.Spec MeasureTheory Verif.Model.Breit

/-- the partial derivative in direction `a` -/
noncomputable def pd (a : Fin 3) (f : Pt → ℝ) : Pt → ℝ := fun r => deriv (fun x => f (Function.update r a x)) (r a)
/-- multiplication with the coordinate `a` -/
def xm (a : Fin 3) (f : Pt → ℝ) : Pt → ℝ := fun r => r a * f r

/-- `∬ [∇f · (-∇₁V)] g (r₁ · ∇₂k) h`, after partial integration: the derivative of the density of electron 1 -/
noncomputable def r1p2Int (V : Pt → Pt → ℝ) (f g h k : Pt → ℝ) : ℝ :=
  ∑ a : Fin 3, ∑ b : Fin 3, (repulsion V (fun r => pd a (pd a f) r * xm b g r) (fun r => h r * pd b k r) +
    repulsion V (fun r => pd a f r * pd a (xm b g) r) (fun r => h r * pd b k r))

/-- `∬ [∇f · (-∇₁V)] g (r₂ · ∇₂k) h`, after partial integration -/
noncomputable def r2p2Int (V : Pt → Pt → ℝ) (f g h k : Pt → ℝ) : ℝ :=
  ∑ a : Fin 3, ∑ b : Fin 3, (repulsion V (fun r => pd a (pd a f) r * g r) (fun r => h r * xm b (pd b k) r) +
    repulsion V (fun r => pd a f r * pd a g r) (fun r => h r * xm b (pd b k) r))

def defR1P2 : Def2e := { inter := .gauge1, bra1 := [dot sigma nabla], ket2 := [dot sigma nabla] }
def defR2P2 : Def2e := { inter := .gauge2, bra1 := [dot sigma nabla], ket2 := [dot sigma nabla] }
def spR1P2 : Def2e := { defR1P2 with num := -1, imag1 := true, imag2 := true, bra1 := [.sf (.cst (-1) 0) * dot sigma nabla] }
def spR2P2 : Def2e := { defR2P2 with num := -1, imag1 := true, imag2 := true, bra1 := [.sf (.cst (-1) 0) * dot sigma nabla] }

set_option maxRecDepth 100000 in
theorem r1p2_matches : matches2e int2e_breit_r1p2 defR1P2 = true := by decide +kernel
set_option maxRecDepth 100000 in
theorem r2p2_matches : matches2e int2e_breit_r2p2 defR2P2 = true := by decide +kernel
set_option maxRecDepth 100000 in
theorem r1p2_matches_sp : matches2e { int2e_breit_r1p2 with num := -1 } spR1P2 = true ∧ wrapOK spinorR1P2 spR1P2 = true := by decide +kernel
set_option maxRecDepth 100000 in
theorem r2p2_matches_sp : matches2e { int2e_breit_r2p2 with num := -1 } spR2P2 = true ∧ wrapOK spinorR2P2 spR2P2 = true := by decide +kernel

def ix3 : List (Fin 3) := [0, 1, 2]
def r1p2List (c : Int) : Op2 := ix3.flatMap fun b => ix3.flatMap fun a =>
  [(⟨c, 0, [], [(.d, a), (.d, a)], [(.r0, b)]⟩, ⟨1, 0, [], [], [(.d, b)]⟩), (⟨c, 0, [], [(.d, a)], [(.d, a), (.r0, b)]⟩, ⟨1, 0, [], [], [(.d, b)]⟩)]
def r2p2List (c : Int) : Op2 := ix3.flatMap fun a => (ix3.map fun b =>
  (⟨c, 0, [], [(.d, a), (.d, a)], []⟩, ⟨1, 0, [], [], [(.r0, b), (.d, b)]⟩)) ++
    ix3.map fun b => (⟨c, 0, [], [(.d, a)], [(.d, a)]⟩, ⟨1, 0, [], [], [(.r0, b), (.d, b)]⟩)

theorem r1p2_out : defR1P2.out = [r1p2List 1] := by decide +kernel
theorem r2p2_out : defR2P2.out = [r2p2List 1] := by decide +kernel
theorem r1p2_mat : ∀ σ τ σ' τ' : Bool, matrix2 (spR1P2.ops.getD 0 []) σ τ σ' τ' = if σ = τ ∧ σ' = τ' then r1p2List (-1) else [] := by decide +kernel
theorem r2p2_mat : ∀ σ τ σ' τ' : Bool, matrix2 (spR2P2.ops.getD 0 []) σ τ σ' τ' = if σ = τ ∧ σ' = τ' then r2p2List (-1) else [] := by decide +kernel

theorem act_nil (O A : Pt) (f : Pt → ℝ) : Word.act O A [] f = f := rfl
theorem act_d (O A : Pt) (a : Fin 3) (w : Word) (f : Pt → ℝ) : Word.act O A ((.d, a) :: w) f = pd a (Word.act O A w f) := rfl
theorem act_r0 (O A : Pt) (a : Fin 3) (w : Word) (f : Pt → ℝ) : Word.act O A ((.r0, a) :: w) f = xm a (Word.act O A w f) := rfl

theorem r1p2_val (c : Int) (V : Pt → Pt → ℝ) (O A B C D : Pt) (f g h k : Pt → ℝ) :
    Op2.val V O A B C D f g h k (r1p2List c) = ((c * r1p2Int V f g h k : ℝ) : ℂ) := by
  unfold r1p2List ix3 Op2.val r1p2Int
  simp only [List.flatMap_cons, List.flatMap_nil, List.append_nil, List.cons_append, List.nil_append, List.map_cons, List.map_nil,
    List.sum_cons, List.sum_nil, Op2.valT, Term.coef, act_nil, act_d, act_r0, Fin.sum_univ_three, List.prod_nil]
  push_cast
  ring

theorem r2p2_val (c : Int) (V : Pt → Pt → ℝ) (O A B C D : Pt) (f g h k : Pt → ℝ) :
    Op2.val V O A B C D f g h k (r2p2List c) = ((c * r2p2Int V f g h k : ℝ) : ℂ) := by
  unfold r2p2List ix3 Op2.val r2p2Int
  simp only [List.flatMap_cons, List.flatMap_nil, List.append_nil, List.cons_append, List.nil_append, List.map_cons, List.map_nil,
    List.sum_cons, List.sum_nil, Op2.valT, Term.coef, act_nil, act_d, act_r0, Fin.sum_univ_three, List.prod_nil]
  push_cast
  ring

/-- int2e_breit_r2p2 and int2e_breit_r1p2 -/
def breitFree (second : Bool) : Gen2e := if second then int2e_breit_r2p2 else int2e_breit_r1p2
/-- what they are -/
noncomputable def freeInt (second : Bool) : (V : Pt → Pt → ℝ) → (f g h k : Pt → ℝ) → ℝ := if second then r2p2Int else r1p2Int
/-- their spinor wrappers -/
def spinorFree (second : Bool) : Auto.SpWrap := if second then spinorR2P2 else spinorR1P2

def defFree (second : Bool) : Def2e := if second then defR2P2 else defR1P2

theorem free_matches (b : Bool) : matches2e (breitFree b) (defFree b) = true := by
  cases b
  · exact r1p2_matches
  · exact r2p2_matches

theorem free_out (b : Bool) (hc : 0 < (defFree b).out.length) (V : Pt → Pt → ℝ) (O A B C D : Pt) (f g h k : Pt → ℝ) :
    Op2.val V O A B C D f g h k (defFree b).out[0] = (freeInt b V f g h k : ℂ) := by
  cases b
  · have : (defFree false).out[0] = r1p2List 1 := by
      have e : (defFree false).out = [r1p2List 1] := r1p2_out
      simp only [e, List.getElem_cons_zero]
    rw [this, r1p2_val]; simp [freeInt]
  · have : (defFree true).out[0] = r2p2List 1 := by
      have e : (defFree true).out = [r2p2List 1] := r2p2_out
      simp only [e, List.getElem_cons_zero]
    rw [this, r2p2_val]; simp [freeInt]

theorem free_len (b : Bool) : 0 < (defFree b).out.length := by cases b <;> decide +kernel
theorem free_fac (b : Bool) : ((defFree b).num : ℂ) / ((defFree b).den : ℂ) = 1 := by cases b <;> simp [defFree, defR1P2, defR2P2]

/-- **C61** int2e_breit_r1p2_cart and int2e_breit_r2p2_cart: the contraction of the integrals of the quartets of primitives that are not screened out -/
theorem C61_spin_free (b : Bool) {L : MathLib ℝ} {s : Call2 ℝ} {R : Rys2 ℝ} {O : Nat → ℝ} {mi mj mk ml : Nat → ℝ} (A : CartMem4 ((breitFree b).int O) s)
    (hL : L.exp = Real.exp) (hi : MaxCoeff s.si mi) (hj : MaxCoeff s.sj mj) (hk : MaxCoeff s.sk mk) (hl : MaxCoeff s.sl ml)
    (hp : PosExp s) (hR : Rys2OK R (s.env ((breitFree b).int O)).nrys_roots) (h15 : LOK s) :
    ∃ has h', CartEnds4 A R realK L has h' ∧
      ∀ ic jc kc lc i j k l, ic < s.si.nctr → jc < s.sj.nctr → kc < s.sk.nctr → lc < s.sl.nctr →
        i < ncart s.si.l → j < ncart s.sj.l → k < ncart s.sk.l → l < ncart s.sl.l →
        ∃ v : ℝ, A.elem h' 0 ic i jc j kc k lc l = .val v ∧
          (v : ℂ) = ((spNorm s.si.l * spNorm s.sj.l * spNorm s.sk.l * spNorm s.sl.l : ℝ) : ℂ) *
            contract4C s.si.nprim s.sj.nprim s.sk.nprim s.sl.nprim s.si.c s.sj.c s.sk.c s.sl.c (fun ip jp kp lp =>
              open Classical in if Kept4X L ((breitFree b).int O) s mi mj mk ml ip jp kp lp then
                ((freeInt b (interaction s.omega)
                  (gto (s.si.a ip) (centre s.si) (powers s.si.l i)) (gto (s.sj.a jp) (centre s.sj) (powers s.sj.l j))
                  (gto (s.sk.a kp) (centre s.sk) (powers s.sk.l k)) (gto (s.sl.a lp) (centre s.sl) (powers s.sl.l l)) : ℝ) : ℂ)
              else 0) ic jc kc lc := by
  obtain ⟨has, h', e, hv⟩ := gen2_repulsion (free_matches b) (R := R) A hL hi hj hk hl hp hR h15
  refine ⟨has, h', e, fun ic jc kc lc i j k l a1 a2 a3 a4 a5 a6 a7 a8 => ?_⟩
  obtain ⟨v, e1, e2⟩ := hv 0 ic jc kc lc i j k l (free_len b) a1 a2 a3 a4 a5 a6 a7 a8
  refine ⟨v, e1, e2.trans ?_⟩
  rw [free_fac, one_mul]
  simp only [free_out b (free_len b)]

/-- **C61**, spherical output, nothing screened: exactly the integral over the four spherical functions. -/
theorem C61_spin_free_spherical (b : Bool) {L : MathLib ℝ} {s : Call2 ℝ} {R : Rys2 ℝ} {O : Nat → ℝ} (B : SphMem4 ((breitFree b).int O) s)
    (hL : L.exp = Real.exp) (hkept : AllKeptX L ((breitFree b).int O) s)
    (hp : PosExp s) (hR : Rys2OK R (s.env ((breitFree b).int O)).nrys_roots) (h15 : LOK s) :
    ∃ has h', SphEnds4 B R realK L has h' ∧
      ∀ ic jc kc lc i j k l, ic < s.si.nctr → jc < s.sj.nctr → kc < s.sk.nctr → lc < s.sl.nctr →
        i < s.si.l*2+1 → j < s.sj.l*2+1 → k < s.sk.l*2+1 → l < s.sl.l*2+1 →
        ∃ v : ℝ, B.elem h' 0 ic i jc j kc k lc l = .val v ∧
          v = freeInt b (interaction s.omega) (sgto s.si ic i) (sgto s.sj jc j) (sgto s.sk kc k) (sgto s.sl lc l) := by
  obtain ⟨has, h', e, hv⟩ := gen2_spherical (free_matches b) (R := R) B hL hkept hp hR h15
  refine ⟨has, h', e, fun ic jc kc lc i j k l a1 a2 a3 a4 a5 a6 a7 a8 => ?_⟩
  obtain ⟨v, e1, e2⟩ := hv 0 ic jc kc lc i j k l (free_len b) a1 a2 a3 a4 a5 a6 a7 a8
  refine ⟨v, e1, ?_⟩
  rw [free_fac, one_mul, free_out b (free_len b)] at e2
  exact_mod_cast e2

/-- the operators of the spinor integrals -/
def spFree (second : Bool) : Def2e := if second then spR2P2 else spR1P2

theorem free_mat (b : Bool) (hc : 0 < (spFree b).ops.length) (σ τ σ' τ' : Bool) (V : Pt → Pt → ℝ) (O A B C D : Pt) (f g h k : Pt → ℝ) :
    Op2.val V O A B C D f g h k (matrix2 (spFree b).ops[0] σ τ σ' τ') =
      if σ = τ ∧ σ' = τ' then -(freeInt b V f g h k : ℂ) else 0 := by
  have hd : (spFree b).ops[0] = (spFree b).ops.getD 0 [] := by
    rw [List.getD_eq_getElem?_getD, List.getElem?_eq_getElem hc]; rfl
  rw [hd]
  cases b
  · have := r1p2_mat σ τ σ' τ'
    unfold spFree
    simp only [Bool.false_eq_true, if_false]
    rw [this]
    split
    · rw [r1p2_val]; simp [freeInt]
    · rfl
  · have := r2p2_mat σ τ σ' τ'
    unfold spFree
    simp only [if_true]
    rw [this]
    split
    · rw [r2p2_val]; simp [freeInt]
    · rfl

theorem free_wrap (b : Bool) : matches2e { breitFree b with num := -1 } (spFree b) = true ∧ wrapOK (spinorFree b) (spFree b) = true ∧
    (spinorFree b).nT = 1 := by
  cases b
  · exact ⟨r1p2_matches_sp.1, r1p2_matches_sp.2, rfl⟩
  · exact ⟨r2p2_matches_sp.1, r2p2_matches_sp.2, rfl⟩

/-- **C61**, spinor output, nothing screened: **minus** the integral that the Cartesian and spherical functions return, over two-component
functions; `σ` is the spin of both functions of the first electron, `σ'` of the second. -/
theorem C61_spin_free_spinor (b : Bool) {L : MathLib ℝ} {s : Call2 ℝ} {R : Rys2 ℝ} {O : Nat → ℝ} {kap : Nat → Int}
    (B : SpMem4 (((spinorFree b).gen (breitFree b)).int O) s (spinorFree b).nT (spinorFree b).e2 kap) (hL : L.exp = Real.exp)
    (hkept : AllKeptX L (((spinorFree b).gen (breitFree b)).int O) s) (hp : PosExp s)
    (hR : Rys2OK R (s.env (((spinorFree b).gen (breitFree b)).int O)).nrys_roots) (hl : ∀ t, t < 4 → Call2.ls s t < 13) :
    ∃ has h', SpEnds4 B (spinorFree b).k1 (spinorFree b).k2 R realK L has h' ∧
      ∀ ic jc kc lc i j k l, ic < s.si.nctr → jc < s.sj.nctr → kc < s.sk.nctr → lc < s.sl.nctr →
        i < lenSpinorC2S (kap 0) s.si.l → j < lenSpinorC2S (kap 1) s.sj.l → k < lenSpinorC2S (kap 2) s.sk.l →
        l < lenSpinorC2S (kap 3) s.sl.l →
        ∃ z : Cx ℝ, B.Elem h' 0 ic i jc j kc k lc l z ∧
          z.toC = - ∑ c ∈ Finset.range (ncart s.sk.l), ∑ d ∈ Finset.range (ncart s.sl.l), ∑ σ' : Bool,
            ∑ a ∈ Finset.range (ncart s.si.l), ∑ b' ∈ Finset.range (ncart s.sj.l), ∑ σ : Bool,
              star ((spNorm s.si.l : ℂ) * (cjCoef (kap 0) s.si.l i σ a).toC) * ((spNorm s.sj.l : ℂ) * (cjCoef (kap 1) s.sj.l j σ b').toC) *
              (star ((spNorm s.sk.l : ℂ) * (cjCoef (kap 2) s.sk.l k σ' c).toC) *
                ((spNorm s.sl.l : ℂ) * (cjCoef (kap 3) s.sl.l l σ' d).toC)) *
              ((freeInt b (interaction s.omega) (cfun s.si ic a) (cfun s.sj jc b') (cfun s.sk kc c) (cfun s.sl lc d) : ℝ) : ℂ) := by
  have hk := free_wrap b
  obtain ⟨has, h', e, hlen, hv⟩ := spinor2_of (w := spinorFree b) (G := { breitFree b with num := -1 }) (D := spFree b) hk.2.1 hk.1 B hL hkept hp hR hl
  refine ⟨has, h', e, fun ic jc kc lc i j k l a1 a2 a3 a4 a5 a6 a7 a8 => ?_⟩
  obtain ⟨z, e1, e2⟩ := hv 0 ic jc kc lc i j k l (by rw [← hlen, hk.2.2]; exact Nat.one_pos) a1 a2 a3 a4 a5 a6 a7 a8
  refine ⟨z, e1, e2.trans ?_⟩
  have hf : ((spFree b).spinNum : ℂ) / ((spFree b).den : ℂ) = 1 := by
    have h1 : (spFree b).spinNum = 1 ∧ (spFree b).den = 1 := by cases b <;> decide
    rw [h1.1, h1.2]; simp
  rw [hf, one_mul]
  simp only [← Finset.sum_neg_distrib]
  refine Finset.sum_congr rfl fun c _ => Finset.sum_congr rfl fun d _ => Finset.sum_congr rfl fun σ' _ => ?_
  have inner : ∀ τ', (∑ a ∈ Finset.range (ncart s.si.l), ∑ b' ∈ Finset.range (ncart s.sj.l), ∑ σ : Bool, ∑ τ : Bool,
      star ((spNorm s.si.l : ℂ) * (cjCoef (kap 0) s.si.l i σ a).toC) * ((spNorm s.sj.l : ℂ) * (cjCoef (kap 1) s.sj.l j τ b').toC) *
      (star ((spNorm s.sk.l : ℂ) * (cjCoef (kap 2) s.sk.l k σ' c).toC) * ((spNorm s.sl.l : ℂ) * (cjCoef (kap 3) s.sl.l l τ' d).toC)) *
      Op2.val (interaction s.omega) (fun c => O c) (centre s.si) (centre s.sj) (centre s.sk) (centre s.sl)
        (cfun s.si ic a) (cfun s.sj jc b') (cfun s.sk kc c) (cfun s.sl lc d) (matrix2 (spFree b).ops[0] σ τ σ' τ')) =
      if τ' = σ' then ∑ a ∈ Finset.range (ncart s.si.l), ∑ b' ∈ Finset.range (ncart s.sj.l), ∑ σ : Bool,
        -(star ((spNorm s.si.l : ℂ) * (cjCoef (kap 0) s.si.l i σ a).toC) * ((spNorm s.sj.l : ℂ) * (cjCoef (kap 1) s.sj.l j σ b').toC) *
        (star ((spNorm s.sk.l : ℂ) * (cjCoef (kap 2) s.sk.l k σ' c).toC) * ((spNorm s.sl.l : ℂ) * (cjCoef (kap 3) s.sl.l l σ' d).toC)) *
        ((freeInt b (interaction s.omega) (cfun s.si ic a) (cfun s.sj jc b') (cfun s.sk kc c) (cfun s.sl lc d) : ℝ) : ℂ)) else 0 := by
    intro τ'
    simp only [free_mat]
    by_cases ht : τ' = σ'
    · subst ht
      simp
    · have ht' : ¬ σ' = τ' := fun x => ht x.symm
      simp [ht, ht']
  simp only [inner, Finset.sum_ite_eq', Finset.mem_univ, if_true]

/-! ### The hypotheses can be met -/
section
open OvlpDemo SphDemo EriDemo SpinorDemo Oper2Demo SpinorEriDemo SpinorOper2Demo

/-- the short-range integral with spinor output, of the second contraction of the fourth p function, the last d function, the second s function
and the first p function with j = 1/2 -/
example (b : Bool) : ∃ R has h', SpEnds4 (spMemX (((spinorFree b).gen (breitFree b)).int fun _ => 0) (-1/2) (spinorFree b).nT (spinorFree b).e2)
      (spinorFree b).k1 (spinorFree b).k2 R realK lib has h' ∧
    ∃ z : Cx ℝ, (spMemX (((spinorFree b).gen (breitFree b)).int fun _ => 0) (-1/2) (spinorFree b).nT (spinorFree b).e2).Elem h' 0 1 3 0 5 1 1 0 0 z := by
  obtain ⟨R, hR⟩ := exists_rys2
  obtain ⟨has, h', h1, h2⟩ := C61_spin_free_spinor b (L := lib) (R := R)
    (spMemX (((spinorFree b).gen (breitFree b)).int fun _ => 0) (-1/2) (spinorFree b).nT (spinorFree b).e2) rfl (allKeptX _ _ _) (posExp _) (hR _) (ls_lt _)
  obtain ⟨z, hz, _⟩ := h2 1 0 1 0 3 5 1 0 (by show 1 < 2; omega) (by show 0 < 2; omega) (by show 1 < 2; omega)
    (by show 0 < 2; omega) (by show 3 < lenSpinorC2S 0 1; decide) (by show 5 < lenSpinorC2S (-3) 2; decide)
    (by show 1 < lenSpinorC2S (-1) 0; decide) (by show 0 < lenSpinorC2S 1 1; decide)
  exact ⟨R, has, h', h1, z, hz⟩

end

end Verif.Props
