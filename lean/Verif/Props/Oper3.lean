import Verif.Lemmas.Oper3Drv
import Verif.Lemmas.Oper3Match
import Verif.Props.Oper2

/-!
C52 — the generated two-electron integrals over three (and two) functions are the repulsion integrals of the functions the operators
they are named after have acted on.
-/
namespace Verif.Props
open Verif Verif.Model Verif.Prog Verif.Lemmas Verif.Spec MeasureTheory Polynomial

theorem matches3_of {name : String} {G : Gen2e} {D : Def2e} (hG : (name, G) ∈ Auto3c2e.all3c) (hD : (name, D) ∈ defs3c) :
    matches2e G D = true ∧ G.ng.l = 0 := by
  have := all_match3 _ (zip_of_name all_names3 names_nodup3 hG hD)
  rw [Bool.and_eq_true] at this
  refine ⟨this.1, ?_⟩
  have h2 := this.2
  unfold onThree at h2
  rw [Bool.and_eq_true, decide_eq_true_eq] at h2
  exact h2.1

/-- the constant function 1 -/
theorem gto_one (A : Pt) : gto 0 A (fun _ => 0) = fun _ => 1 := by
  funext r
  unfold gto
  simp

theorem cgto_one (A : Pt) : cgto 1 (fun _ => 0) (fun _ => 1) A 0 (fun _ => 0) = fun _ => 1 := by
  funext r
  unfold cgto
  rw [Finset.sum_range_one, gto_one, one_mul]

/-- the operator of component `comp` between three primitive functions of a call -/
noncomputable def primVal3 (s : Call3 ℝ) (O : Nat → ℝ) (P : Op2) (i j k ip jp kp : Nat) : ℂ :=
  Op2.val3 (interaction s.omega) (fun c => O c) (centre s.si) (centre s.sj) (centre s.sk)
    (gto (s.si.a ip) (centre s.si) (powers s.si.l i)) (gto (s.sj.a jp) (centre s.sj) (powers s.sj.l j))
    (gto (s.sk.a kp) (centre s.sk) (powers s.sk.l k)) P

/-- the primitive integral behind the value computed -/
theorem gen_prim3 {G : Gen2e} {ws} {D : Def2e} {L : MathLib ℝ} {s : Call3 ℝ} {ip jp kp : Nat} {O : Nat → ℝ}
    {comp i j k : Nat} (hp : PosExp3 s) (hip : ip < s.si.nprim) (hjp : jp < s.sj.nprim) (hkp : kp < s.sk.nprim)
    (hm : sameQ (progSum2 ws (G.flat.comps.getD comp [])) (opRe2 (D.out.getD comp [])) = true)
    (hm' : zeroQ (opIm2 (D.out.getD comp [])) = true) (hc : comp < G.nComp)
    (h1 : i < ncart s.si.l) (h3 : k < ncart s.sk.l)
    (pc : ∀ c, c < 3 → pairVal L (s.pairArgs (G.int O)) ip jp c = (s.si.a ip * s.si.r c + s.sj.a jp * s.sj.r c)/(s.si.a ip + s.sj.a jp)) :
    primVal3 s O (D.out.getD comp []) i j k ip jp kp =
      ((Real.exp (-(s.si.a ip * s.sj.a jp/(s.si.a ip + s.sj.a jp)) * ∑ k, (centre s.si k - centre s.sj k)^2) *
        ((fun M => genW (s.g3r (G.int O) L ip jp kp)
        { a := ![s.si.a ip, s.sj.a jp, s.sk.a kp, 0], R := ![s.si.r, s.sj.r, s.sk.r, s.sk.r], O := O } ws
        (G.flat.comps.getD (M % G.nComp) []) (fun c => i4 (s.env (G.int O)) c (M / G.nComp))
        (fun c => j4 (s.env (G.int O)) c (M / G.nComp)) (fun c => k4 (s.env (G.int O)) c (M / G.nComp))
        (fun c => l4 (s.env (G.int O)) c (M / G.nComp))) (pos4c (ncar (Call3.ls s)) i j k 0 * G.nComp + comp) *
          (2 / Real.sqrt Real.pi * Real.pi^3)) : ℝ) : ℂ) := by
  dsimp only
  rw [(digit hc).1, (digit hc).2]
  have hd := fun c => pos3_digits (X := G.int O) (j := j) h1 h3 c
  simp only [(hd _).1, (hd _).2.1, (hd _).2.2.1, (hd _).2.2.2]
  unfold genW
  have hne : (2 / Real.sqrt Real.pi * Real.pi^3) ≠ 0 := by positivity
  rw [div_mul_cancel₀ _ hne, sameQ_val hm]
  have hk := hp.k kp hkp
  let S : PairOf := { a := s.si.a ip, b := s.sj.a jp, A := centre s.si, B := centre s.sj, O := fun c => O c,
                      n := powers s.si.l i, m := powers s.sj.l j }
  let T : PairOf := { a := s.sk.a kp, b := 0, A := centre s.sk, B := centre s.sk, O := fun c => O c,
                      n := powers s.sk.l k, m := fun _ => 0 }
  have hv := op_val2 S T (hp.ij ip jp hip hjp) (by show 0 < s.sk.a kp + 0; rw [add_zero]; exact hk) rfl s.omega (D.out.getD comp [])
  rw [zeroQ_val hm', mul_zero, Complex.ofReal_zero, mul_zero, add_zero] at hv
  have hT : T.pre = 1 := by
    show Real.exp (-(s.sk.a kp * 0/(s.sk.a kp + 0)) * ∑ k, (centre s.sk k - centre s.sk k)^2) = 1
    simp
  have hone : gto T.b T.B T.m = fun _ => 1 := gto_one _
  rw [hone] at hv
  refine hv.trans ?_
  rw [hT, mul_one]
  congr 1
  have hcen : S.cen = fun k : Fin 3 => (s.g3r (G.int O) L ip jp kp).rij k := by
    funext k
    show _ = pairVal L (s.pairArgs (G.int O)) ip jp k
    rw [pc k k.isLt]
    rfl
  have hcen' : T.cen = fun k : Fin 3 => (s.g3r (G.int O) L ip jp kp).rkl k := by
    funext k
    show (s.sk.a kp * centre s.sk k + 0 * centre s.sk k)/(s.sk.a kp + 0) = centre s.sk k
    rw [zero_mul, add_zero, add_zero, mul_div_cancel_left₀ _ hk.ne']
  rw [hcen, hcen']
  rfl

theorem contract3_ofReal (ni nj nk : ℕ) (ci cj ck : ℕ → ℝ) (f : ℕ → ℕ → ℕ → ℝ) (ic jc kc : ℕ) :
    ((contract3 ni nj nk ci cj ck f ic jc kc : ℝ) : ℂ) =
      contract3C ni nj nk ci cj ck (fun ip jp kp => (f ip jp kp : ℂ)) ic jc kc := by
  unfold contract3 contract3C
  push_cast
  rfl

/-- **C52** Every integral of the catalogue `Auto3c2e.all3c` (the three-centre repulsion integrals of src/autocode), any shells with
positive exponents and angular momenta up to ANG_MAX, any interaction (Coulomb, long range, short range), any contents of memory:
component `comp` of the element for three functions is the factor of the definition times the contraction, over all primitive triples
that survive the screening, of the repulsion integrals of the functions the operators have acted on.  The root finder is assumed to
return the roots and weights of Rys quadrature. -/
theorem C52_three_centre {name : String} {G : Gen2e} {D : Def2e} (hG : (name, G) ∈ Auto3c2e.all3c) (hD : (name, D) ∈ defs3c)
    {L : MathLib ℝ} {s : Call3 ℝ} {R : Rys2 ℝ} {O : Nat → ℝ} {mi mj : Nat → ℝ} (A : CartMem3 (G.int O) s)
    (hL : L.exp = Real.exp) (hi : MaxCoeff s.si mi) (hj : MaxCoeff s.sj mj)
    (hp : PosExp3 s) (hR : Rys2OK R (s.env (G.int O)).nrys_roots) (h15 : LOK3 s) :
    ∃ has h', CartEnds3 A R realK L has h' ∧
      ∀ comp ic jc kc i j k (hc : comp < D.out.length), ic < s.si.nctr → jc < s.sj.nctr → kc < s.sk.nctr →
        i < ncart s.si.l → j < ncart s.sj.l → k < ncart s.sk.l →
        ∃ v : ℝ, A.elem h' comp ic i jc j kc k = .val v ∧
          (v : ℂ) = ((D.num : ℂ) / (D.den : ℂ)) * ((spNorm s.si.l * spNorm s.sj.l * spNorm s.sk.l : ℝ) : ℂ) *
            contract3C s.si.nprim s.sj.nprim s.sk.nprim s.si.c s.sj.c s.sk.c (fun ip jp kp =>
              open Classical in if Kept3X L (G.int O) s mi mj ip jp kp then
                Op2.val3 (interaction s.omega) (fun c => O c) (centre s.si) (centre s.sj) (centre s.sk)
                  (gto (s.si.a ip) (centre s.si) (powers s.si.l i)) (gto (s.sj.a jp) (centre s.sj) (powers s.sj.l j))
                  (gto (s.sk.a kp) (centre s.sk) (powers s.sk.l k)) D.out[comp]
              else 0) ic jc kc := by
  obtain ⟨hmt, hl0⟩ := matches3_of hG hD
  obtain ⟨ws, hOK, hnum, hden, hnc, hcomp⟩ := matches2_unfold hmt
  obtain ⟨has, h', hr, hv, _⟩ := drv3c2e_cart A.M A.hsize A.hs A.O (gen3_eval hOK hl0 (L := L) (O := O) hp hR)
    (Nat.pos_of_ne_zero hOK.pos) h15
  refine ⟨has, h', hr, fun comp ic jc kc i j k hc a2 a3 a4 a6 a7 a8 => ?_⟩
  have hc' : comp < G.nComp := by omega
  refine ⟨_, hv comp ic jc kc i j k hc' a2 a3 a4 a6 a7 a8, ?_⟩
  have hget : D.out[comp] = D.out.getD comp [] := by
    rw [List.getD_eq_getElem?_getD, List.getElem?_eq_getElem hc]; rfl
  rw [loopVal3_gen (X := G.int O) (Z := fun ip jp kp => (primVal3 s O (D.out.getD comp []) i j k ip jp kp).re) hL hi hj hp (by
    intro ip jp kp b1 b2 b3 _ pc
    rw [gen_prim3 (G := G) (ws := ws) (L := L) hp b1 b2 b3 (hcomp comp hc').1 (hcomp comp hc').2 hc' a6 a8 pc, Complex.ofReal_re]
    rfl)]
  have hcom : ((G.int O).common : ℝ) = (D.num : ℝ) / (D.den : ℝ) := by rw [← hnum, ← hden]; rfl
  rw [hcom, Complex.ofReal_mul, Complex.ofReal_mul, contract3_ofReal]
  refine congrArg₂ (· * ·) (by push_cast; ring) ?_
  unfold contract3C
  refine Finset.sum_congr rfl fun kp b3 => Finset.sum_congr rfl fun jp b2 => Finset.sum_congr rfl fun ip b1 => ?_
  rw [Finset.mem_range] at b1 b2 b3
  congr 1
  beta_reduce
  by_cases hkp : Kept3X L (G.int O) s mi mj ip jp kp
  · rw [if_pos hkp, if_pos hkp, hget]
    have pc := ((pair3X (X := G.int O) hL hi hj b1 b2 (hp.ij ip jp b1 b2)).2.1 hkp.pair).2
    have := gen_prim3 (G := G) (ws := ws) (L := L) (j := j) hp b1 b2 b3 (hcomp comp hc').1 (hcomp comp hc').2 hc' a6 a8 pc
    rw [this, Complex.ofReal_re, ← this]
    rfl
  · rw [if_neg hkp, if_neg hkp, Complex.ofReal_zero]

/-- no primitive triple of the call is screened -/
def AllKept3X (L : MathLib ℝ) (X : Int2e ℝ) (s : Call3 ℝ) : Prop :=
  ∃ mi mj, MaxCoeff s.si mi ∧ MaxCoeff s.sj mj ∧
    ∀ ip jp kp, ip < s.si.nprim → jp < s.sj.nprim → kp < s.sk.nprim → Kept3X L X s mi mj ip jp kp

theorem op_val3_cgto {O A B C : Pt} {ni nj nk : ℕ} {ai ci aj cj ak ck : ℕ → ℝ} {n m p : Fin 3 → ℕ} {ic jc kc : ℕ}
    (omega : ℝ) (P : Op2) (h : ∀ ip jp, ip < ni → jp < nj → 0 < ai ip + aj jp) (h' : ∀ kp, kp < nk → 0 < ak kp) :
    Op2.val3 (interaction omega) O A B C (cgto ni ai ci A ic n) (cgto nj aj cj B jc m) (cgto nk ak ck C kc p) P =
      contract3C ni nj nk ci cj ck (fun ip jp kp =>
        Op2.val3 (interaction omega) O A B C (gto (ai ip) A n) (gto (aj jp) B m) (gto (ak kp) C p) P) ic jc kc := by
  have := op_val2_cgto (O := O) (A := A) (B := B) (C := C) (D := C) (ni := ni) (nj := nj) (nk := nk) (nl := 1) (ai := ai) (ci := ci)
    (aj := aj) (cj := cj) (ak := ak) (ck := ck) (al := fun _ => 0) (cl := fun _ => 1) (n := n) (m := m) (p := p) (q := fun _ => 0)
    (ic := ic) (jc := jc) (kc := kc) (lc := 0) omega P h (fun kp lp b _ => by rw [add_zero]; exact h' kp b)
  rw [cgto_one] at this
  refine this.trans ?_
  unfold contract4C contract3C
  rw [Finset.sum_range_one]
  refine Finset.sum_congr rfl fun kp _ => Finset.sum_congr rfl fun jp _ => Finset.sum_congr rfl fun ip _ => ?_
  rw [gto_one, one_mul]
  rfl

/-- **C52**, nothing screened: exactly the integral over the three contracted functions. -/
theorem C52_three_centre_exact {name : String} {G : Gen2e} {D : Def2e} (hG : (name, G) ∈ Auto3c2e.all3c) (hD : (name, D) ∈ defs3c)
    {L : MathLib ℝ} {s : Call3 ℝ} {R : Rys2 ℝ} {O : Nat → ℝ} (A : CartMem3 (G.int O) s)
    (hL : L.exp = Real.exp) (hkept : AllKept3X L (G.int O) s)
    (hp : PosExp3 s) (hR : Rys2OK R (s.env (G.int O)).nrys_roots) (h15 : LOK3 s) :
    ∃ has h', CartEnds3 A R realK L has h' ∧
      ∀ comp ic jc kc i j k (hc : comp < D.out.length), ic < s.si.nctr → jc < s.sj.nctr → kc < s.sk.nctr →
        i < ncart s.si.l → j < ncart s.sj.l → k < ncart s.sk.l →
        ∃ v : ℝ, A.elem h' comp ic i jc j kc k = .val v ∧
          (v : ℂ) = ((D.num : ℂ) / (D.den : ℂ)) * ((spNorm s.si.l * spNorm s.sj.l * spNorm s.sk.l : ℝ) : ℂ) *
            Op2.val3 (interaction s.omega) (fun c => O c) (centre s.si) (centre s.sj) (centre s.sk)
              (cfun s.si ic i) (cfun s.sj jc j) (cfun s.sk kc k) D.out[comp] := by
  obtain ⟨mi, mj, hi, hj, hkp⟩ := hkept
  obtain ⟨has, h', hr, hv⟩ := C52_three_centre hG hD (O := O) A hL hi hj hp hR h15
  refine ⟨has, h', hr, fun comp ic jc kc i j k hc a2 a3 a4 a6 a7 a8 => ?_⟩
  obtain ⟨v, e1, e2⟩ := hv comp ic jc kc i j k hc a2 a3 a4 a6 a7 a8
  refine ⟨v, e1, e2.trans (congrArg₂ (· * ·) rfl ?_)⟩
  unfold cfun
  rw [op_val3_cgto _ _ hp.ij hp.k]
  unfold contract3C
  refine Finset.sum_congr rfl fun kp b2 => Finset.sum_congr rfl fun jp b3 => Finset.sum_congr rfl fun ip b4 => ?_
  rw [Finset.mem_range] at b2 b3 b4
  dsimp only
  rw [if_pos (hkp ip jp kp b4 b3 b2)]

/-! ### Spherical functions -/

/-- a spherical function with operators on it -/
theorem act_sgto {O : Pt} (t : PShell ℝ) (ic i : ℕ) (v : Word) (r : Pt) : Word.act O (centre t) v (sgto t ic i) r =
    ∑ a ∈ Finset.range (ncart t.l), spNorm t.l * c2sCoef t.l i a * Word.act O (centre t) v (cfun t ic a) r := by
  have hc : ∀ (ic a : ℕ), cfun t ic a = fun r => ∑ ip ∈ Finset.range t.nprim, t.c (t.nprim*ic+ip) *
      gP (t.a ip) (centre t) (fun k => (X - C (centre t k))^powers t.l a k) r := by
    intro ic a
    funext r
    unfold cfun cgto
    simp_rw [gto_gP]
  have hs : sgto t ic i = fun r => ∑ x ∈ Finset.range (ncart t.l) ×ˢ Finset.range t.nprim,
      (spNorm t.l * c2sCoef t.l i x.1 * t.c (t.nprim*ic+x.2)) *
      gP (t.a x.2) (centre t) (fun k => (X - C (centre t k))^powers t.l x.1 k) r := by
    funext r
    rw [Finset.sum_product]
    refine Finset.sum_congr rfl fun a _ => ?_
    refine (congrArg₂ (· * ·) rfl (congrFun (hc ic a) r)).trans ?_
    rw [Finset.mul_sum]
    refine Finset.sum_congr rfl fun b _ => ?_
    ring
  rw [hs, act_sum]
  dsimp only
  rw [Finset.sum_product]
  refine Finset.sum_congr rfl fun a _ => ?_
  rw [hc, act_sum, Finset.mul_sum]
  refine Finset.sum_congr rfl fun b _ => ?_
  ring

/-- the constant function 1, as a shell at a given centre -/
def unitAt (r : Nat → ℝ) : PShell ℝ := { nprim := 1, nctr := 1, l := 0, a := fun _ => 0, c := fun _ => 1, r := r }

theorem cfun_unitAt (r : Nat → ℝ) : cfun (unitAt r) 0 0 = fun _ => 1 := by
  have h : powers 0 0 = fun _ => 0 := by
    funext k
    exact Nat.le_zero.1 (pw_le (by rw [ncart_zero]; exact Nat.one_pos))
  have := cgto_one (centre (unitAt r))
  rw [← h] at this
  exact this

theorem op_val3_sgto {s : Call3 ℝ} (hp : PosExp3 s) (O : Pt) (ic jc kc i j k : ℕ) (omega : ℝ) (P : Op2) :
    Op2.val3 (interaction omega) O (centre s.si) (centre s.sj) (centre s.sk)
        (sgto s.si ic i) (sgto s.sj jc j) (sgto s.sk kc k) P =
      ∑ a ∈ Finset.range (ncart s.si.l), ∑ b ∈ Finset.range (ncart s.sj.l), ∑ c ∈ Finset.range (ncart s.sk.l),
        ((c2sCoef s.si.l i a * c2sCoef s.sj.l j b * c2sCoef s.sk.l k c : ℝ) : ℂ) *
          (((spNorm s.si.l * spNorm s.sj.l * spNorm s.sk.l : ℝ) : ℂ) *
          Op2.val3 (interaction omega) O (centre s.si) (centre s.sj) (centre s.sk)
            (cfun s.si ic a) (cfun s.sj jc b) (cfun s.sk kc c) P) := by
  let q : Call2 ℝ := { si := s.si, sj := s.sj, sk := s.sk, sl := unitAt s.sk.r, envCut := s.envCut, omega := s.omega }
  have hq : PosExp q := ⟨hp.ij, fun kp _ h _ => by show 0 < s.sk.a kp + 0; rw [add_zero]; exact hp.k kp h⟩
  have hI := fun a b c (x : Term × Term) => integrable_act_cfun hq O ic jc kc 0 a b c 0 x.1.bra x.1.ket x.2.bra x.2.ket omega
  have hu : cfun q.sl 0 0 = fun _ => 1 := cfun_unitAt _
  rw [hu] at hI
  have ht : ∀ x : Term × Term, Op2.valT (interaction omega) O (centre s.si) (centre s.sj) (centre s.sk) (centre s.sk)
        (sgto s.si ic i) (sgto s.sj jc j) (sgto s.sk kc k) (fun _ => 1) x =
      ∑ a ∈ Finset.range (ncart s.si.l), ∑ b ∈ Finset.range (ncart s.sj.l), ∑ c ∈ Finset.range (ncart s.sk.l),
        ((c2sCoef s.si.l i a * c2sCoef s.sj.l j b * c2sCoef s.sk.l k c : ℝ) : ℂ) *
          (((spNorm s.si.l * spNorm s.sj.l * spNorm s.sk.l : ℝ) : ℂ) *
          Op2.valT (interaction omega) O (centre s.si) (centre s.sj) (centre s.sk) (centre s.sk)
            (cfun s.si ic a) (cfun s.sj jc b) (cfun s.sk kc c) (fun _ => 1) x) := by
    intro x
    unfold Op2.valT
    have hk : ∀ r, Word.act O (centre s.sk) x.2.bra (sgto s.sk kc k) r * Word.act O (centre s.sk) x.2.ket (fun _ => 1) r =
        ∑ c ∈ Finset.range (ncart s.sk.l), (spNorm s.sk.l * c2sCoef s.sk.l k c) *
          (Word.act O (centre s.sk) x.2.bra (cfun s.sk kc c) r * Word.act O (centre s.sk) x.2.ket (fun _ => 1) r) := by
      intro r
      rw [act_sgto, Finset.sum_mul]
      refine Finset.sum_congr rfl fun c _ => ?_
      ring
    simp_rw [act_sgto_mul, hk]
    rw [(repulsion_sum (V := interaction omega) _ _ _ _ (fun a ha b hb => hI a.1 a.2 b x)).2]
    rw [Finset.sum_product]
    push_cast
    rw [Finset.mul_sum, Finset.mul_sum]
    refine Finset.sum_congr rfl fun a _ => ?_
    rw [Finset.mul_sum, Finset.mul_sum]
    refine Finset.sum_congr rfl fun b _ => ?_
    rw [Finset.mul_sum, Finset.mul_sum]
    refine Finset.sum_congr rfl fun c _ => ?_
    ring
  unfold Op2.val3
  induction P with
  | nil => simp [Op2.val]
  | cons x P ih =>
    have h1 : ∀ f g h k, Op2.val (interaction omega) O (centre s.si) (centre s.sj) (centre s.sk) (centre s.sk) f g h k (x :: P) =
        Op2.valT (interaction omega) O (centre s.si) (centre s.sj) (centre s.sk) (centre s.sk) f g h k x +
        Op2.val (interaction omega) O (centre s.si) (centre s.sj) (centre s.sk) (centre s.sk) f g h k P := by
      intro f g h k; simp [Op2.val]
    simp_rw [h1]
    rw [ih, ht]
    simp_rw [mul_add, Finset.sum_add_distrib]

/-- **C52**, spherical output, nothing screened: exactly the integral over the three spherical functions. -/
theorem C52_three_centre_spherical {name : String} {G : Gen2e} {D : Def2e} (hG : (name, G) ∈ Auto3c2e.all3c) (hD : (name, D) ∈ defs3c)
    {L : MathLib ℝ} {s : Call3 ℝ} {R : Rys2 ℝ} {O : Nat → ℝ} (B : SphMem3 (G.int O) s)
    (hL : L.exp = Real.exp) (hkept : AllKept3X L (G.int O) s)
    (hp : PosExp3 s) (hR : Rys2OK R (s.env (G.int O)).nrys_roots) (h15 : LOK3 s) :
    ∃ has h', SphEnds3 B R realK L has h' ∧
      ∀ comp ic jc kc i j k (hc : comp < D.out.length), ic < s.si.nctr → jc < s.sj.nctr → kc < s.sk.nctr →
        i < s.si.l*2+1 → j < s.sj.l*2+1 → k < s.sk.l*2+1 →
        ∃ v : ℝ, B.elem h' comp ic i jc j kc k = .val v ∧
          (v : ℂ) = ((D.num : ℂ) / (D.den : ℂ)) *
            Op2.val3 (interaction s.omega) (fun c => O c) (centre s.si) (centre s.sj) (centre s.sk)
              (sgto s.si ic i) (sgto s.sj jc j) (sgto s.sk kc k) D.out[comp] := by
  let A := blankMem3 (G.int O) s B.hs.nctr_pos
  obtain ⟨hmt, hl0⟩ := matches3_of hG hD
  obtain ⟨ws, hOK, _, _, hnc, _⟩ := matches2_unfold hmt
  obtain ⟨ra, ha, rb, hb, eA, eB, x, vA, vB⟩ := C19_three_centre A B (gen3_eval hOK hl0 (L := L) (O := O) hp hR)
    (Nat.pos_of_ne_zero hOK.pos) h15
  obtain ⟨rc, hc, eC, vC⟩ := C52_three_centre_exact hG hD (R := R) A hL hkept hp hR h15
  have hAC : ha = hc := by
    have e : some (ra, ha) = some (rc, hc) := eA.symm.trans eC
    simp only [Option.some.injEq, Prod.mk.injEq] at e
    exact e.2
  refine ⟨rb, hb, eB, fun comp ic jc kc i j k a1 a2 a3 a4 a6 a7 a8 => ?_⟩
  have a1' : comp < G.nComp := by omega
  refine ⟨_, vB comp ic jc kc i j k a1' a2 a3 a4 a6 a7 a8, ?_⟩
  rw [op_val3_sgto hp]
  push_cast
  rw [Finset.mul_sum]
  refine Finset.sum_congr rfl fun a b1 => ?_
  rw [Finset.mul_sum]
  refine Finset.sum_congr rfl fun b b2 => ?_
  rw [Finset.mul_sum]
  refine Finset.sum_congr rfl fun c b3 => ?_
  rw [Finset.mem_range] at b1 b2 b3
  have c1 := vA comp ic jc kc a b c a1' a2 a3 a4 b1 b2 b3
  obtain ⟨v, c2, c3⟩ := vC comp ic jc kc a b c a1 a2 a3 a4 b1 b2 b3
  rw [← hAC] at c2
  rw [Cell.val.inj (c1.symm.trans c2), c3]
  push_cast
  ring

/-! ### The catalogue -/

/-- **C52** Every generated integral has a definition: the catalogues have the same names, each once.  No definition has an operator
on a function that is not there. -/
theorem C52_catalogue : Auto3c2e.all3c.map (·.1) = defs3c.map (·.1) ∧ (defs3c.map (·.1)).Nodup ∧
    Auto2c2e.all2c.map (·.1) = defs2c.map (·.1) ∧ (defs2c.map (·.1)).Nodup ∧
    (∀ x ∈ defs3c, ∀ P ∈ x.2.out, ∀ t ∈ P, t.2.ket = [] ∧ t.2.geo = []) ∧
    (∀ x ∈ defs2c, ∀ P ∈ x.2.out, ∀ t ∈ P, t.1.ket = [] ∧ t.1.geo = [] ∧ t.2.ket = [] ∧ t.2.geo = []) :=
  ⟨all_names3, names_nodup3, all_names2c, names_nodup2c, by decide +kernel, by decide +kernel⟩

theorem defs_geo_ij3 (x : String × Def2e) (hx : x ∈ defs3c) (hs : x.1 ∈ Auto3c2e.shortcutIJ) :
    (x.2.out.all fun P => P.all fun t => !decide (t.1.geo = [])) = true := by
  have h : ((defs3c.filter fun x => decide (x.1 ∈ Auto3c2e.shortcutIJ)).all fun x =>
    x.2.out.all fun P => P.all fun t => !decide (t.1.geo = [])) = true := by decide +kernel
  exact List.all_eq_true.1 h x (List.mem_filter.2 ⟨hx, by simpa using hs⟩)

/-- **C52**, the wrapper that returns zeros when the first two shells are the same shell: the integral it skips is zero. -/
theorem C52_same_shell {name : String} {D : Def2e} (hD : (name, D) ∈ defs3c) (hs : name ∈ Auto3c2e.shortcutIJ)
    (V : Pt → Pt → ℝ) (O A B : Pt) (f g h : Pt → ℝ) {P : Op2} (hP : P ∈ D.out) : Op2.val3 V O A A B f g h P = 0 := by
  have h1 := List.all_eq_true.1 (defs_geo_ij3 _ hD hs) _ hP
  unfold Op2.val3 Op2.val
  refine List.sum_eq_zero (fun x hx => ?_)
  obtain ⟨t, ht, rfl⟩ := List.mem_map.1 hx
  unfold Op2.valT
  rw [same_centre_prod (List.all_eq_true.1 h1 t ht), zero_mul, zero_mul, Complex.ofReal_zero, mul_zero]

end Verif.Props
