import Verif.Props.SpinorEri
import Verif.Props.Oper2
import Verif.Lemmas.SpinorFn2
import Verif.Lemmas.Oper3Match
import Verif.Model.AutoSp2e

/-!
C51 — spinor output of the generated two-electron integrals: integrals of the operators they are named after over two-component
functions.
-/
namespace Verif.Props
open Verif Verif.Model Verif.Prog Verif.Lemmas Verif.Spec MeasureTheory

/-- the factor does not matter for what the program computes -/
theorem matches2_refactor {G : Gen2e} {D : Def2e} (h : matches2e G D = true) (n : Int) (d : Nat) (hd : d ≠ 0) :
    matches2e { G with num := n, den := d } { D with num := n, den := d } = true := by
  unfold matches2e at h ⊢
  dsimp only
  cases hs : runWords ![G.ng.i, G.ng.j, G.ng.k, G.ng.l] (2^G.gbits + 1) G.prog with
  | none => rw [hs] at h; cases h
  | some ws =>
    rw [hs] at h
    dsimp only at h ⊢
    rw [Bool.and_eq_true, Bool.and_eq_true, Bool.and_eq_true, decide_eq_true_eq] at h ⊢
    obtain ⟨⟨⟨⟨h1, _, _, _, h5, h6, h7⟩, h8⟩, h9⟩, h10⟩ := h
    exact ⟨⟨⟨⟨h1, rfl, rfl, hd, h5, h6, h7⟩, h8⟩, h9⟩, h10⟩

/-- **C51** every integral of the catalogue has a spinor variant -/
theorem C51_spinor_catalogue : Auto.spinor2e.map (·.name) = defs2e.map (·.1) := by decide +kernel

/-- the wrappers select the output functions and the factor that belong to the operators -/
def wrapOK (w : Auto.SpWrap) (D : Def2e) : Bool :=
  decide (w.k1.si = D.spin1) && decide (w.k1.ph = D.imag1) && decide (w.k2.si = D.spin2) && decide (w.k2.ph = D.imag2) &&
    decide (w.e1 = if D.spin1 then 4 else 1) && decide (w.e2 = if D.spin2 then 4 else 1) && decide (w.nT = D.ops.length) &&
    decide (0 < D.ops.length) && decide (w.num = D.spinNum) && decide (w.den = D.den) && decide (w.den ≠ 0)

theorem spinor2_kinds : (((Auto.spinor2e.map fun w => (w.name, w)).zip defs2e).all fun x => wrapOK x.1.2 x.2.2) = true := by decide +kernel

theorem wrapOK_unfold {w : Auto.SpWrap} {D : Def2e} (h : wrapOK w D = true) : w.k1.si = D.spin1 ∧ w.k1.ph = D.imag1 ∧
    w.k2.si = D.spin2 ∧ w.k2.ph = D.imag2 ∧ w.e1 = SpKind.comps w.k1 ∧ w.e2 = SpKind.comps w.k2 ∧ w.nT = D.ops.length ∧
    0 < D.ops.length ∧ w.num = D.spinNum ∧ w.den = D.den ∧ w.den ≠ 0 := by
  unfold wrapOK at h
  simp only [Bool.and_eq_true, decide_eq_true_eq] at h
  obtain ⟨⟨⟨⟨⟨⟨⟨⟨⟨⟨h1, h2⟩, h3⟩, h4⟩, h5⟩, h6⟩, h7⟩, h8⟩, h9⟩, h10⟩, h11⟩ := h
  exact ⟨h1, h2, h3, h4, by unfold SpKind.comps; rw [h5, h1], by unfold SpKind.comps; rw [h6, h3], h7, h8, h9, h10, h11⟩

theorem wrap2_of {w : Auto.SpWrap} {D : Def2e} (hS : w ∈ Auto.spinor2e) (hD : (w.name, D) ∈ defs2e) : wrapOK w D = true := by
  have hn : ((Auto.spinor2e.map fun w => (w.name, w)).map (·.1)) = defs2e.map (·.1) := by
    rw [List.map_map]; exact C51_spinor_catalogue
  have h := List.all_eq_true.1 spinor2_kinds ((w.name, w), (w.name, D)) (zip_of_name hn names_nodup2 (List.mem_map.2 ⟨w, hS, rfl⟩) hD)
  exact h

/-- C49_two_electron with the number of components given -/
theorem two_electron_e2 {X : Int2e ℝ} {s : Call2 ℝ} {nT e2 : Nat} {kap : Nat → Int} {k1 k2 : SpKind} {R : Rys2 ℝ} {K : Consts ℝ}
    {L : MathLib ℝ} {keep : Nat → Nat → Nat → Nat → Bool} {w : Nat → Nat → Nat → Nat → Nat → ℝ} (A : CartMem4 X s)
    (B : SpMem4 X s nT e2 kap) (he : e2 = SpKind.comps k2) (hn : X.nComp = SpKind.comps k1 * SpKind.comps k2 * nT)
    (hK : EvalOK2 R K L X s keep w) (hnT : 1 ≤ nT) (hl : ∀ t, t < 4 → Call2.ls s t < 13) :
    ∃ ra ha rb hb, CartEnds4 A R K L ra ha ∧ SpEnds4 B k1 k2 R K L rb hb ∧
      ∃ x : Nat → Nat → Nat → Nat → Nat → Nat → Nat → Nat → Nat → ℝ,
        (∀ n ic jc kc lc a b c d, n < X.nComp → ic < s.si.nctr → jc < s.sj.nctr → kc < s.sk.nctr → lc < s.sl.nctr →
          a < ncart s.si.l → b < ncart s.sj.l → c < ncart s.sk.l → d < ncart s.sl.l →
          A.elem ha n ic a jc b kc c lc d = .val (x n ic a jc b kc c lc d)) ∧
        (∀ n ic jc kc lc i j k l, n < nT → ic < s.si.nctr → jc < s.sj.nctr → kc < s.sk.nctr → lc < s.sl.nctr →
          i < lenSpinorC2S (kap 0) s.si.l → j < lenSpinorC2S (kap 1) s.sj.l → k < lenSpinorC2S (kap 2) s.sk.l →
          l < lenSpinorC2S (kap 3) s.sl.l →
          B.Elem hb n ic i jc j kc k lc l
            (spinor2 k2.si k2.ph (kap 2) (kap 3) s.sk.l s.sl.l (fun c2 c d =>
              spinor2 k1.si k1.ph (kap 0) (kap 1) s.si.l s.sj.l (fun c1 a b =>
                Cx.ofR (x ((n * SpKind.comps k2 + c2) * SpKind.comps k1 + c1) ic a jc b kc c lc d)) i j) k l)) := by
  subst he
  exact C49_two_electron A B hn hK hnT hl

/-- the spinor output of an integral that matches its definition -/
theorem spinor2_of {w : Auto.SpWrap} {G : Gen2e} {D : Def2e} (hw : wrapOK w D = true) (hm0 : matches2e G D = true)
    {L : MathLib ℝ} {s : Call2 ℝ} {R : Rys2 ℝ} {O : Nat → ℝ} {kap : Nat → Int}
    (B : SpMem4 ((w.gen G).int O) s w.nT w.e2 kap) (hL : L.exp = Real.exp) (hkept : AllKeptX L ((w.gen G).int O) s)
    (hp : PosExp s) (hR : Rys2OK R (s.env ((w.gen G).int O)).nrys_roots) (hl : ∀ t, t < 4 → Call2.ls s t < 13) :
    ∃ has h', SpEnds4 B w.k1 w.k2 R realK L has h' ∧ w.nT = D.ops.length ∧
      ∀ n ic jc kc lc i j k l (hn : n < D.ops.length), ic < s.si.nctr → jc < s.sj.nctr → kc < s.sk.nctr → lc < s.sl.nctr →
        i < lenSpinorC2S (kap 0) s.si.l → j < lenSpinorC2S (kap 1) s.sj.l → k < lenSpinorC2S (kap 2) s.sk.l →
        l < lenSpinorC2S (kap 3) s.sl.l →
        ∃ z : Cx ℝ, B.Elem h' n ic i jc j kc k lc l z ∧
          z.toC = ((D.spinNum : ℂ) / (D.den : ℂ)) *
            ∑ c ∈ Finset.range (ncart s.sk.l), ∑ d ∈ Finset.range (ncart s.sl.l), ∑ σ' : Bool, ∑ τ' : Bool,
            ∑ a ∈ Finset.range (ncart s.si.l), ∑ b ∈ Finset.range (ncart s.sj.l), ∑ σ : Bool, ∑ τ : Bool,
              star ((spNorm s.si.l : ℂ) * (cjCoef (kap 0) s.si.l i σ a).toC) * ((spNorm s.sj.l : ℂ) * (cjCoef (kap 1) s.sj.l j τ b).toC) *
              (star ((spNorm s.sk.l : ℂ) * (cjCoef (kap 2) s.sk.l k σ' c).toC) *
                ((spNorm s.sl.l : ℂ) * (cjCoef (kap 3) s.sl.l l τ' d).toC)) *
              Op2.val (interaction s.omega) (fun c => O c) (centre s.si) (centre s.sj) (centre s.sk) (centre s.sl)
                (cfun s.si ic a) (cfun s.sj jc b) (cfun s.sk kc c) (cfun s.sl lc d) (matrix2 D.ops[n] σ τ σ' τ') := by
  obtain ⟨k1, k2, k3, k4, k5, k6, k7, k8, k9, k10, k11⟩ := wrapOK_unfold hw
  have hm := matches2_refactor hm0 w.num w.den k11
  obtain ⟨ws, hOK, _, _, hnc, _⟩ := matches2_unfold hm
  let A := blankMem4 ((w.gen G).int O) s B.hs.nctr_pos
  have hlen : ((w.gen G).int O).nComp = D.out.length := hnc
  have hn0 : ((w.gen G).int O).nComp = SpKind.comps w.k1 * SpKind.comps w.k2 * w.nT := by
    rw [hlen, out2_length, k7]; unfold SpKind.comps; rw [k1, k3]
  obtain ⟨ra, ha, rb, hb, eA, eB, x, vA, vB⟩ := two_electron_e2 (k1 := w.k1) (k2 := w.k2) A B k6 hn0
    (gen2_eval hOK (L := L) (O := O) hp hR) (by omega) hl
  obtain ⟨rc, hc, eC, vC⟩ := gen2_repulsion_exact hm (R := R) A hL hkept hp hR (fun t ht => le_trans (le_of_lt (hl t ht)) (by omega))
  have hAC : ha = hc := by
    have e : some (ra, ha) = some (rc, hc) := eA.symm.trans eC
    simp only [Option.some.injEq, Prod.mk.injEq] at e
    exact e.2
  refine ⟨rb, hb, eB, k7, fun n ic jc kc lc i j k l hn a2 a3 a4 a5 a6 a7 a8 a9 =>
    ⟨_, vB n ic jc kc lc i j k l (by omega) a2 a3 a4 a5 a6 a7 a8 a9, ?_⟩⟩
  have hn' : n < D.comps.length := by unfold Def2e.ops at hn; rwa [List.length_map] at hn
  unfold SpKind.comps
  rw [k1, k2, k3, k4]
  rw [two_spin D (interaction s.omega) (fun c => O c) (centre s.si) (centre s.sj) (centre s.sk) (centre s.sl) (cfun s.si ic) (cfun s.sj jc)
    (cfun s.sk kc) (cfun s.sl lc) (kap 0) (kap 1) (kap 2) (kap 3) s.si.l s.sj.l s.sk.l s.sl.l n hn'
    (fun m a b c d => x m ic a jc b kc c lc d)
    (((D.spinNum : ℂ) / (D.den : ℂ)) * ((spNorm s.si.l * spNorm s.sj.l * spNorm s.sk.l * spNorm s.sl.l : ℝ) : ℂ))
    (fun m a b c d hm' b1 b2 b3 b4 => by
      have c1 := vA m ic jc kc lc a b c d (by rw [hlen]; exact hm') a2 a3 a4 a5 b1 b2 b3 b4
      obtain ⟨v, c2, c3⟩ := vC m ic jc kc lc a b c d hm' a2 a3 a4 a5 b1 b2 b3 b4
      rw [← hAC] at c2
      rw [Cell.val.inj (c1.symm.trans c2), ← k9, ← k10]
      exact c3) i j k l]
  rw [mul_assoc]
  refine congrArg₂ (· * ·) rfl ?_
  simp only [Finset.mul_sum]
  refine Finset.sum_congr rfl fun c _ => Finset.sum_congr rfl fun d _ => Finset.sum_congr rfl fun σ' _ => Finset.sum_congr rfl fun τ' _ =>
    Finset.sum_congr rfl fun a _ => Finset.sum_congr rfl fun b _ => Finset.sum_congr rfl fun σ _ => Finset.sum_congr rfl fun τ _ => ?_
  simp only [star_mul, Complex.star_def, Complex.conj_ofReal]
  push_cast
  ring

/-- **C51**, spinor output, nothing screened: every wrapper int2e_*_spinor returns the integrals over two-component functions of the
operators in the definition; `σ`, `τ` are the spins of the functions of the first electron, `σ'`, `τ'` of the second. -/
theorem C51_spinor {w : Auto.SpWrap} {G : Gen2e} {D : Def2e} (hS : w ∈ Auto.spinor2e) (hG : (w.name, G) ∈ Auto2e.all2e)
    (hD : (w.name, D) ∈ defs2e) {L : MathLib ℝ} {s : Call2 ℝ} {R : Rys2 ℝ} {O : Nat → ℝ} {kap : Nat → Int}
    (B : SpMem4 ((w.gen G).int O) s w.nT w.e2 kap) (hL : L.exp = Real.exp) (hkept : AllKeptX L ((w.gen G).int O) s)
    (hp : PosExp s) (hR : Rys2OK R (s.env ((w.gen G).int O)).nrys_roots) (hl : ∀ t, t < 4 → Call2.ls s t < 13) :
    ∃ has h', SpEnds4 B w.k1 w.k2 R realK L has h' ∧ w.nT = D.ops.length ∧
      ∀ n ic jc kc lc i j k l (hn : n < D.ops.length), ic < s.si.nctr → jc < s.sj.nctr → kc < s.sk.nctr → lc < s.sl.nctr →
        i < lenSpinorC2S (kap 0) s.si.l → j < lenSpinorC2S (kap 1) s.sj.l → k < lenSpinorC2S (kap 2) s.sk.l →
        l < lenSpinorC2S (kap 3) s.sl.l →
        ∃ z : Cx ℝ, B.Elem h' n ic i jc j kc k lc l z ∧
          z.toC = ((D.spinNum : ℂ) / (D.den : ℂ)) *
            ∑ c ∈ Finset.range (ncart s.sk.l), ∑ d ∈ Finset.range (ncart s.sl.l), ∑ σ' : Bool, ∑ τ' : Bool,
            ∑ a ∈ Finset.range (ncart s.si.l), ∑ b ∈ Finset.range (ncart s.sj.l), ∑ σ : Bool, ∑ τ : Bool,
              star ((spNorm s.si.l : ℂ) * (cjCoef (kap 0) s.si.l i σ a).toC) * ((spNorm s.sj.l : ℂ) * (cjCoef (kap 1) s.sj.l j τ b).toC) *
              (star ((spNorm s.sk.l : ℂ) * (cjCoef (kap 2) s.sk.l k σ' c).toC) *
                ((spNorm s.sl.l : ℂ) * (cjCoef (kap 3) s.sl.l l τ' d).toC)) *
              Op2.val (interaction s.omega) (fun c => O c) (centre s.si) (centre s.sj) (centre s.sk) (centre s.sl)
                (cfun s.si ic a) (cfun s.sj jc b) (cfun s.sk kc c) (cfun s.sl lc d) (matrix2 D.ops[n] σ τ σ' τ') :=
  spinor2_of (wrap2_of hS hD) (matches2_of hG hD) B hL hkept hp hR hl

/-- the terms of the matrices in spin space of an integral -/
def spinTerms (D : Def2e) : List (Term × Term) :=
  D.ops.flatMap fun qs => [false, true].flatMap fun σ => [false, true].flatMap fun τ => [false, true].flatMap fun σ' =>
    [false, true].flatMap fun τ' => matrix2 qs σ τ σ' τ'

theorem mem_spinTerms {D : Def2e} {qs : List (Quat × Quat)} (hq : qs ∈ D.ops) {σ τ σ' τ' : Bool} {t : Term × Term}
    (ht : t ∈ matrix2 qs σ τ σ' τ') : t ∈ spinTerms D := by
  have hb : ∀ b : Bool, b ∈ [false, true] := by decide
  unfold spinTerms
  exact List.mem_flatMap.2 ⟨qs, hq, List.mem_flatMap.2 ⟨σ, hb σ, List.mem_flatMap.2 ⟨τ, hb τ, List.mem_flatMap.2 ⟨σ', hb σ',
    List.mem_flatMap.2 ⟨τ', hb τ', ht⟩⟩⟩⟩⟩

theorem spin_geo (x : String × Def2e) (hx : x ∈ defs2e) :
    (x.1 ∈ Auto2e.shortcutIJ → ((spinTerms x.2).all fun t => !decide (t.1.geo = [])) = true) ∧
    (x.1 ∈ Auto2e.shortcutKL → ((spinTerms x.2).all fun t => !decide (t.2.geo = [])) = true) := by
  have h1 : ((defs2e.filter fun x => decide (x.1 ∈ Auto2e.shortcutIJ)).all fun x =>
    (spinTerms x.2).all fun t => !decide (t.1.geo = [])) = true := by decide +kernel
  have h2 : ((defs2e.filter fun x => decide (x.1 ∈ Auto2e.shortcutKL)).all fun x =>
    (spinTerms x.2).all fun t => !decide (t.2.geo = [])) = true := by decide +kernel
  exact ⟨fun hs => List.all_eq_true.1 h1 x (List.mem_filter.2 ⟨hx, by simpa using hs⟩),
    fun hs => List.all_eq_true.1 h2 x (List.mem_filter.2 ⟨hx, by simpa using hs⟩)⟩

/-- **C51**, spinor output, the wrappers that return zeros when the first two (last two) shells are the same shell: the integral they
skip is zero. -/
theorem C51_spinor_same_shell {name : String} {D : Def2e} (hD : (name, D) ∈ defs2e) {qs : List (Quat × Quat)} (hq : qs ∈ D.ops)
    (V : Pt → Pt → ℝ) (O A B C : Pt) (f g h k : Pt → ℝ) (σ τ σ' τ' : Bool) :
    (name ∈ Auto2e.shortcutIJ → Op2.val V O A A B C f g h k (matrix2 qs σ τ σ' τ') = 0) ∧
    (name ∈ Auto2e.shortcutKL → Op2.val V O B C A A f g h k (matrix2 qs σ τ σ' τ') = 0) := by
  refine ⟨fun hs => ?_, fun hs => ?_⟩
  · have h1 := (spin_geo _ hD).1 hs
    unfold Op2.val
    refine List.sum_eq_zero (fun x hx => ?_)
    obtain ⟨t, ht, rfl⟩ := List.mem_map.1 hx
    unfold Op2.valT
    rw [same_centre_prod (List.all_eq_true.1 h1 t (mem_spinTerms hq ht)), zero_mul, zero_mul, Complex.ofReal_zero, mul_zero]
  · have h1 := (spin_geo _ hD).2 hs
    unfold Op2.val
    refine List.sum_eq_zero (fun x hx => ?_)
    obtain ⟨t, ht, rfl⟩ := List.mem_map.1 hx
    unfold Op2.valT
    rw [same_centre_prod (List.all_eq_true.1 h1 t (mem_spinTerms hq ht)), mul_zero, zero_mul, Complex.ofReal_zero, mul_zero]

/-! ### The hypotheses can be met -/
namespace SpinorOper2Demo
open OvlpDemo SphDemo EriDemo SpinorDemo Oper2Demo SpinorEriDemo

/-- memory for any integral with spinor output over p with both j, d with j = 5/2, s, and p with j = 1/2 -/
noncomputable def spMemX (X : Int2e ℝ) (o : ℝ) (nT e2 : Nat) : SpMem4 X (call4 o) nT e2 kaps where
  fpd := 1
  buf := 0
  size := cacheSize2eSp X (call4 o) e2 0 (-3)
  empty := ⟨4, 0⟩
  fl := ⟨1, 0⟩
  loc := ⟨2, 0⟩
  counts := ⟨3, 0⟩
  out := ⟨5, 7⟩
  dims := none
  nd := fun t => Call2.nsp (call4 o) kaps t * Call2.nctrs (call4 o) t
  h := memJ
  tab := ⟨⟨9, 0⟩, ⟨10, 0⟩⟩
  hs := ⟨Or.inr (Or.inr rfl), by show ∀ t, t < 4 → 0 < four (lenSpinorC2S 0 1) (lenSpinorC2S (-3) 2) (lenSpinorC2S (-1) 0) (lenSpinorC2S 1 1) t; decide,
    fun t ht => EriDemo.ctr_pos o t ht, fun t a b => absurd a (by omega), fun t _ => le_refl _⟩
  M := ⟨by omega, fun k _ => memJ_ne _, fun k _ => by simp [memJ], by simp [memJ], fun k _ => by simp [memJ],
    fun k _ => by simp [memJ], fun k _ => by simp [memJ], by decide, by decide, by decide, by decide, by decide⟩
  hsize := le_refl _
  O := { h_dims := fun t _ => rfl
         h_dims2 := fun d hd => nomatch hd
         h_dbuf := fun d hd => nomatch hd
         h_out := fun m _ => memJ_ne _
         h_obuf := by decide }
  T := ⟨tabJ, by decide, by decide, by decide, by decide⟩

/-- int2e_ssp1ssp2_spinor -/
def wrapG : Auto.SpWrap := { name := "int2e_ssp1ssp2", k1 := ⟨true, true⟩, k2 := ⟨true, true⟩, e1 := 4, e2 := 4, nT := 1 }

/-- `(i, σ·p j | σ₁·σ₂ / r₁₂ | k, σ·p l)`: the factor is 1 -/
example : EriDefs.ssp1ssp2.spinNum = 1 ∧ EriDefs.ssp1ssp2.num = -1 ∧ EriDefs.ssp1ssp2.den = 1 := by decide

/-- the short-range Gaunt integral of the second contraction of the fourth p function, the last d function, the second s function and the
first p function with j = 1/2 -/
example : ∃ R has h', SpEnds4 (spMemX ((wrapG.gen Auto2e.int2e_ssp1ssp2).int fun _ => 0) (-1/2) 1 4) ⟨true, true⟩ ⟨true, true⟩ R realK lib has h' ∧
    ∃ z : Cx ℝ, (spMemX ((wrapG.gen Auto2e.int2e_ssp1ssp2).int fun _ => 0) (-1/2) 1 4).Elem h' 0 1 3 0 5 1 1 0 0 z := by
  obtain ⟨R, hR⟩ := exists_rys2
  obtain ⟨has, h', h1, hlen, h2⟩ := C51_spinor (w := wrapG) (G := Auto2e.int2e_ssp1ssp2) (D := EriDefs.ssp1ssp2)
    (by unfold Auto.spinor2e wrapG; simp) (by unfold Auto2e.all2e wrapG; simp) (by unfold defs2e wrapG; simp) (L := lib) (R := R)
    (spMemX ((wrapG.gen Auto2e.int2e_ssp1ssp2).int fun _ => 0) (-1/2) 1 4) rfl (allKeptX _ _ _) (posExp _) (hR _) (ls_lt _)
  obtain ⟨z, hz, _⟩ := h2 0 1 0 1 0 3 5 1 0 (by rw [← hlen]; decide) (by show 1 < 2; omega) (by show 0 < 2; omega) (by show 1 < 2; omega)
    (by show 0 < 2; omega) (by show 3 < lenSpinorC2S 0 1; decide) (by show 5 < lenSpinorC2S (-3) 2; decide)
    (by show 1 < lenSpinorC2S (-1) 0; decide) (by show 0 < lenSpinorC2S 1 1; decide)
  exact ⟨R, has, h', h1, z, hz⟩

end SpinorOper2Demo

end Verif.Props
