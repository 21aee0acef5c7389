import Verif.Lemmas.Oper2cDrv
import Verif.Props.Oper3

/-!
C52 — the generated two-electron integrals over two functions.
-/
namespace Verif.Props
open Verif Verif.Model Verif.Prog Verif.Lemmas Verif.Spec MeasureTheory Polynomial

theorem matches2c_of {name : String} {G : Gen2e} {D : Def2e} (hG : (name, G) ∈ Auto2c2e.all2c) (hD : (name, D) ∈ defs2c) :
    matches2e G D = true ∧ G.ng.j = 0 ∧ G.ng.l = 0 := by
  have := all_match2c _ (zip_of_name all_names2c names_nodup2c hG hD)
  rw [Bool.and_eq_true] at this
  refine ⟨this.1, ?_⟩
  have h2 := this.2
  unfold onTwo at h2
  rw [Bool.and_eq_true, decide_eq_true_eq] at h2
  exact h2.1

/-- the operator of component `comp` between two primitive functions of a call -/
noncomputable def primVal2c (s : Call2c ℝ) (O : Nat → ℝ) (P : Op2) (i k ip kp : Nat) : ℂ :=
  Op2.val2 (interaction s.omega) (fun c => O c) (centre s.si) (centre s.sk)
    (gto (s.si.a ip) (centre s.si) (powers s.si.l i)) (gto (s.sk.a kp) (centre s.sk) (powers s.sk.l k)) P

/-- the primitive integral behind the value computed -/
theorem gen_prim2c {G : Gen2e} {ws} {D : Def2e} {s : Call2c ℝ} {ip kp : Nat} {O : Nat → ℝ}
    {comp i k : Nat} (hp : PosExp2c s) (hip : ip < s.si.nprim) (hkp : kp < s.sk.nprim)
    (hm : sameQ (progSum2 ws (G.flat.comps.getD comp [])) (opRe2 (D.out.getD comp [])) = true)
    (hm' : zeroQ (opIm2 (D.out.getD comp [])) = true) (hc : comp < G.nComp) (h1 : i < ncart s.si.l) :
    primVal2c s O (D.out.getD comp []) i k ip kp =
      ((gen2cW G ws O s ip kp (pos4c (ncar (Call2c.ls s)) i k 0 0 * G.nComp + comp) * (2 / Real.sqrt Real.pi * Real.pi^3) : ℝ) : ℂ) := by
  unfold gen2cW
  rw [(digit hc).1, (digit hc).2, (pos2c_digits h1).1, (pos2c_digits h1).2]
  unfold genW
  have hne : (2 / Real.sqrt Real.pi * Real.pi^3) ≠ 0 := by positivity
  rw [div_mul_cancel₀ _ hne, sameQ_val hm]
  have hi := hp.i ip hip
  have hk := hp.k kp hkp
  let S : PairOf := { a := s.si.a ip, b := 0, A := centre s.si, B := centre s.si, O := fun c => O c,
                      n := powers s.si.l i, m := fun _ => 0 }
  let T : PairOf := { a := s.sk.a kp, b := 0, A := centre s.sk, B := centre s.sk, O := fun c => O c,
                      n := powers s.sk.l k, m := fun _ => 0 }
  have hv := op_val2 S T (by show 0 < s.si.a ip + 0; rw [add_zero]; exact hi) (by show 0 < s.sk.a kp + 0; rw [add_zero]; exact hk) rfl
    s.omega (D.out.getD comp [])
  rw [zeroQ_val hm', mul_zero, Complex.ofReal_zero, mul_zero, add_zero] at hv
  have hT : T.pre = 1 := by
    show Real.exp (-(s.sk.a kp * 0/(s.sk.a kp + 0)) * ∑ k, (centre s.sk k - centre s.sk k)^2) = 1
    simp
  have hS : S.pre = 1 := by
    show Real.exp (-(s.si.a ip * 0/(s.si.a ip + 0)) * ∑ k, (centre s.si k - centre s.si k)^2) = 1
    simp
  have hone : gto T.b T.B T.m = fun _ => 1 := gto_one _
  have hone' : gto S.b S.B S.m = fun _ => 1 := gto_one _
  rw [hone, hone'] at hv
  refine hv.trans ?_
  rw [hT, hS, one_mul, one_mul]
  congr 1
  have hcen : S.cen = fun k : Fin 3 => (s.g2 ip kp).rij k := by
    funext k
    show (s.si.a ip * centre s.si k + 0 * centre s.si k)/(s.si.a ip + 0) = centre s.si k
    rw [zero_mul, add_zero, add_zero, mul_div_cancel_left₀ _ hi.ne']
  have hcen' : T.cen = fun k : Fin 3 => (s.g2 ip kp).rkl k := by
    funext k
    show (s.sk.a kp * centre s.sk k + 0 * centre s.sk k)/(s.sk.a kp + 0) = centre s.sk k
    rw [zero_mul, add_zero, add_zero, mul_div_cancel_left₀ _ hk.ne']
  rw [hcen, hcen']
  rfl

theorem contract2_ofReal' (ni nk : ℕ) (ci ck : ℕ → ℝ) (f : ℕ → ℕ → ℝ) (ic kc : ℕ) :
    ((contract2 ni nk ci ck f ic kc : ℝ) : ℂ) = contract2C ni nk ci ck (fun ip kp => (f ip kp : ℂ)) ic kc := by
  unfold contract2 contract2C
  push_cast
  rfl

/-- **C52** Every integral of the catalogue `Auto2c2e.all2c` (the two-centre repulsion integrals of src/autocode), any shells with
positive exponents and angular momenta up to ANG_MAX, any interaction (Coulomb, long range, short range), any contents of memory:
component `comp` of the element for two functions is the factor of the definition times the contraction, over all primitive pairs
that survive the screening (only short-range integrals are screened), of the repulsion integrals of the functions the operators have
acted on.  The root finder is assumed to return the roots and weights of Rys quadrature. -/
theorem C52_two_centre {name : String} {G : Gen2e} {D : Def2e} (hG : (name, G) ∈ Auto2c2e.all2c) (hD : (name, D) ∈ defs2c)
    {s : Call2c ℝ} {R : Rys2 ℝ} {O : Nat → ℝ} (A : CartMem2c (G.int2c O) s)
    (hp : PosExp2c s) (hR : Rys2OK R (s.env (G.int2c O)).nrys_roots) (h15 : LOK2c s) :
    ∃ has h', CartEnds2c A R realK has h' ∧
      ∀ comp ic kc i k (hc : comp < D.out.length), ic < s.si.nctr → kc < s.sk.nctr → i < ncart s.si.l → k < ncart s.sk.l →
        ∃ v : ℝ, A.elem h' comp ic i kc k = .val v ∧
          (v : ℂ) = ((D.num : ℂ) / (D.den : ℂ)) * ((spNorm s.si.l * spNorm s.sk.l : ℝ) : ℂ) *
            contract2C s.si.nprim s.sk.nprim s.si.c s.sk.c (fun ip kp =>
              open Classical in if Kept2c s ip kp then
                Op2.val2 (interaction s.omega) (fun c => O c) (centre s.si) (centre s.sk)
                  (gto (s.si.a ip) (centre s.si) (powers s.si.l i)) (gto (s.sk.a kp) (centre s.sk) (powers s.sk.l k)) D.out[comp]
              else 0) ic kc := by
  obtain ⟨hmt, hj0, hl0⟩ := matches2c_of hG hD
  obtain ⟨ws, hOK, hnum, hden, hnc, hcomp⟩ := matches2_unfold hmt
  obtain ⟨has, h', hr, hv, _⟩ := drv2c2e_cart A.M A.hsize A.hs A.O A.hd2 (gen2c_eval hOK hj0 hl0 (O := O) hp hR)
    (Nat.pos_of_ne_zero hOK.pos) h15
  refine ⟨has, h', hr, fun comp ic kc i k hc a2 a4 a6 a8 => ?_⟩
  have hc' : comp < G.nComp := by omega
  refine ⟨_, hv comp ic kc i k hc' a2 a4 a6 a8, ?_⟩
  have hget : D.out[comp] = D.out.getD comp [] := by
    rw [List.getD_eq_getElem?_getD, List.getElem?_eq_getElem hc]; rfl
  have hprim := fun ip kp b1 b3 =>
    gen_prim2c (G := G) (ws := ws) (O := O) (i := i) (k := k) (ip := ip) (kp := kp) hp b1 b3 (hcomp comp hc').1 (hcomp comp hc').2 hc' a6
  rw [loopVal2c_gen (X := G.int2c O) (Z := fun ip kp => (primVal2c s O (D.out.getD comp []) i k ip kp).re) (by
    intro ip kp b1 b3
    rw [hprim ip kp b1 b3, Complex.ofReal_re]
    rfl)]
  have hcom : ((G.int2c O).common : ℝ) = (D.num : ℝ) / (D.den : ℝ) := by rw [← hnum, ← hden]; rfl
  rw [hcom, Complex.ofReal_mul, Complex.ofReal_mul, contract2_ofReal']
  refine congrArg₂ (· * ·) (by push_cast; ring) ?_
  unfold contract2C
  refine Finset.sum_congr rfl fun kp b3 => Finset.sum_congr rfl fun ip b1 => ?_
  rw [Finset.mem_range] at b1 b3
  congr 1
  beta_reduce
  by_cases hkp : Kept2c s ip kp
  · rw [if_pos hkp, if_pos hkp, hget]
    have := hprim ip kp b1 b3
    rw [this, Complex.ofReal_re, ← this]
    rfl
  · rw [if_neg hkp, if_neg hkp, Complex.ofReal_zero]

theorem op_val2_cgto2 {O A C : Pt} {ni nk : ℕ} {ai ci ak ck : ℕ → ℝ} {n p : Fin 3 → ℕ} {ic kc : ℕ}
    (omega : ℝ) (P : Op2) (h : ∀ ip, ip < ni → 0 < ai ip) (h' : ∀ kp, kp < nk → 0 < ak kp) :
    Op2.val2 (interaction omega) O A C (cgto ni ai ci A ic n) (cgto nk ak ck C kc p) P =
      contract2C ni nk ci ck (fun ip kp =>
        Op2.val2 (interaction omega) O A C (gto (ai ip) A n) (gto (ak kp) C p) P) ic kc := by
  have := op_val3_cgto (O := O) (A := A) (B := A) (C := C) (ni := ni) (nj := 1) (nk := nk) (ai := ai) (ci := ci)
    (aj := fun _ => 0) (cj := fun _ => 1) (ak := ak) (ck := ck) (n := n) (m := fun _ => 0) (p := p)
    (ic := ic) (jc := 0) (kc := kc) omega P (fun ip _ b _ => by rw [add_zero]; exact h ip b) h'
  rw [cgto_one] at this
  refine this.trans ?_
  unfold contract3C contract2C
  refine Finset.sum_congr rfl fun kp _ => ?_
  rw [Finset.sum_range_one]
  refine Finset.sum_congr rfl fun ip _ => ?_
  rw [gto_one, mul_one]
  rfl

/-- **C52**, nothing screened: exactly the integral over the two contracted functions. -/
theorem C52_two_centre_exact {name : String} {G : Gen2e} {D : Def2e} (hG : (name, G) ∈ Auto2c2e.all2c) (hD : (name, D) ∈ defs2c)
    {s : Call2c ℝ} {R : Rys2 ℝ} {O : Nat → ℝ} (A : CartMem2c (G.int2c O) s) (hkept : AllKept2c s)
    (hp : PosExp2c s) (hR : Rys2OK R (s.env (G.int2c O)).nrys_roots) (h15 : LOK2c s) :
    ∃ has h', CartEnds2c A R realK has h' ∧
      ∀ comp ic kc i k (hc : comp < D.out.length), ic < s.si.nctr → kc < s.sk.nctr → i < ncart s.si.l → k < ncart s.sk.l →
        ∃ v : ℝ, A.elem h' comp ic i kc k = .val v ∧
          (v : ℂ) = ((D.num : ℂ) / (D.den : ℂ)) * ((spNorm s.si.l * spNorm s.sk.l : ℝ) : ℂ) *
            Op2.val2 (interaction s.omega) (fun c => O c) (centre s.si) (centre s.sk)
              (cfun s.si ic i) (cfun s.sk kc k) D.out[comp] := by
  obtain ⟨has, h', hr, hv⟩ := C52_two_centre hG hD (O := O) A hp hR h15
  refine ⟨has, h', hr, fun comp ic kc i k hc a2 a4 a6 a8 => ?_⟩
  obtain ⟨v, e1, e2⟩ := hv comp ic kc i k hc a2 a4 a6 a8
  refine ⟨v, e1, e2.trans (congrArg₂ (· * ·) rfl ?_)⟩
  unfold cfun
  rw [op_val2_cgto2 _ _ hp.i hp.k]
  unfold contract2C
  refine Finset.sum_congr rfl fun kp b2 => Finset.sum_congr rfl fun ip b4 => ?_
  rw [Finset.mem_range] at b2 b4
  dsimp only
  rw [if_pos (hkept ip kp b4 b2)]

/-! ### Spherical functions -/

theorem op_val2_sgto2 {s : Call2c ℝ} (hp : PosExp2c s) (O : Pt) (ic kc i k : ℕ) (omega : ℝ) (P : Op2) :
    Op2.val2 (interaction omega) O (centre s.si) (centre s.sk) (sgto s.si ic i) (sgto s.sk kc k) P =
      ∑ a ∈ Finset.range (ncart s.si.l), ∑ c ∈ Finset.range (ncart s.sk.l),
        ((c2sCoef s.si.l i a * c2sCoef s.sk.l k c : ℝ) : ℂ) *
          (((spNorm s.si.l * spNorm s.sk.l : ℝ) : ℂ) *
          Op2.val2 (interaction omega) O (centre s.si) (centre s.sk) (cfun s.si ic a) (cfun s.sk kc c) P) := by
  let q : Call2 ℝ := { si := s.si, sj := unitAt s.si.r, sk := s.sk, sl := unitAt s.sk.r, envCut := s.envCut, omega := s.omega }
  have hq : PosExp q := ⟨fun ip _ h _ => by show 0 < s.si.a ip + 0; rw [add_zero]; exact hp.i ip h,
    fun kp _ h _ => by show 0 < s.sk.a kp + 0; rw [add_zero]; exact hp.k kp h⟩
  have hI := fun a c (x : Term × Term) => integrable_act_cfun hq O ic 0 kc 0 a 0 c 0 x.1.bra x.1.ket x.2.bra x.2.ket omega
  have hu : cfun q.sl 0 0 = fun _ => 1 := cfun_unitAt _
  have hu' : cfun q.sj 0 0 = fun _ => 1 := cfun_unitAt _
  rw [hu, hu'] at hI
  have hk : ∀ (t : PShell ℝ) (tc j : ℕ) (b k : Word) (r : Pt),
      Word.act O (centre t) b (sgto t tc j) r * Word.act O (centre t) k (fun _ => 1) r =
      ∑ c ∈ Finset.range (ncart t.l), (spNorm t.l * c2sCoef t.l j c) *
        (Word.act O (centre t) b (cfun t tc c) r * Word.act O (centre t) k (fun _ => 1) r) := by
    intro t tc j b k r
    rw [act_sgto, Finset.sum_mul]
    refine Finset.sum_congr rfl fun c _ => ?_
    ring
  have ht : ∀ x : Term × Term, Op2.valT (interaction omega) O (centre s.si) (centre s.si) (centre s.sk) (centre s.sk)
        (sgto s.si ic i) (fun _ => 1) (sgto s.sk kc k) (fun _ => 1) x =
      ∑ a ∈ Finset.range (ncart s.si.l), ∑ c ∈ Finset.range (ncart s.sk.l),
        ((c2sCoef s.si.l i a * c2sCoef s.sk.l k c : ℝ) : ℂ) *
          (((spNorm s.si.l * spNorm s.sk.l : ℝ) : ℂ) *
          Op2.valT (interaction omega) O (centre s.si) (centre s.si) (centre s.sk) (centre s.sk)
            (cfun s.si ic a) (fun _ => 1) (cfun s.sk kc c) (fun _ => 1) x) := by
    intro x
    unfold Op2.valT
    simp_rw [hk]
    rw [(repulsion_sum (V := interaction omega) _ _ _ _ (fun a ha b hb => hI a b x)).2]
    push_cast
    rw [Finset.mul_sum, Finset.mul_sum]
    refine Finset.sum_congr rfl fun a _ => ?_
    rw [Finset.mul_sum, Finset.mul_sum]
    refine Finset.sum_congr rfl fun c _ => ?_
    ring
  unfold Op2.val2
  induction P with
  | nil => simp [Op2.val]
  | cons x P ih =>
    have h1 : ∀ f g h k, Op2.val (interaction omega) O (centre s.si) (centre s.si) (centre s.sk) (centre s.sk) f g h k (x :: P) =
        Op2.valT (interaction omega) O (centre s.si) (centre s.si) (centre s.sk) (centre s.sk) f g h k x +
        Op2.val (interaction omega) O (centre s.si) (centre s.si) (centre s.sk) (centre s.sk) f g h k P := by
      intro f g h k; simp [Op2.val]
    simp_rw [h1]
    rw [ih, ht]
    simp_rw [mul_add, Finset.sum_add_distrib]

/-- **C52**, spherical output, nothing screened: exactly the integral over the two spherical functions. -/
theorem C52_two_centre_spherical {name : String} {G : Gen2e} {D : Def2e} (hG : (name, G) ∈ Auto2c2e.all2c) (hD : (name, D) ∈ defs2c)
    {s : Call2c ℝ} {R : Rys2 ℝ} {O : Nat → ℝ} (B : SphMem2c (G.int2c O) s) (hkept : AllKept2c s)
    (hp : PosExp2c s) (hR : Rys2OK R (s.env (G.int2c O)).nrys_roots) (h15 : LOK2c s) :
    ∃ has h', SphEnds2c B R realK has h' ∧
      ∀ comp ic kc i k (hc : comp < D.out.length), ic < s.si.nctr → kc < s.sk.nctr → i < s.si.l*2+1 → k < s.sk.l*2+1 →
        ∃ v : ℝ, B.elem h' comp ic i kc k = .val v ∧
          (v : ℂ) = ((D.num : ℂ) / (D.den : ℂ)) *
            Op2.val2 (interaction s.omega) (fun c => O c) (centre s.si) (centre s.sk) (sgto s.si ic i) (sgto s.sk kc k) D.out[comp] := by
  let A := blankMem2c (G.int2c O) s B.hs.nctr_pos
  obtain ⟨hmt, hj0, hl0⟩ := matches2c_of hG hD
  obtain ⟨ws, hOK, _, _, hnc, _⟩ := matches2_unfold hmt
  obtain ⟨ra, ha, rb, hb, eA, eB, x, vA, vB⟩ := C19_two_centre A B (gen2c_eval hOK hj0 hl0 (O := O) hp hR)
    (Nat.pos_of_ne_zero hOK.pos) h15
  obtain ⟨rc, hc, eC, vC⟩ := C52_two_centre_exact hG hD (R := R) A hkept hp hR h15
  have hAC : ha = hc := by
    have e : some (ra, ha) = some (rc, hc) := eA.symm.trans eC
    simp only [Option.some.injEq, Prod.mk.injEq] at e
    exact e.2
  refine ⟨rb, hb, eB, fun comp ic kc i k a1 a2 a4 a6 a8 => ?_⟩
  have a1' : comp < G.nComp := by omega
  refine ⟨_, vB comp ic kc i k a1' a2 a4 a6 a8, ?_⟩
  rw [op_val2_sgto2 hp]
  push_cast
  rw [Finset.mul_sum]
  refine Finset.sum_congr rfl fun a b1 => ?_
  rw [Finset.mul_sum]
  refine Finset.sum_congr rfl fun c b3 => ?_
  rw [Finset.mem_range] at b1 b3
  have c1 := vA comp ic kc a c a1' a2 a4 b1 b3
  obtain ⟨v, c2, c3⟩ := vC comp ic kc a c a1 a2 a4 b1 b3
  rw [← hAC] at c2
  rw [Cell.val.inj (c1.symm.trans c2), c3]
  push_cast
  ring

/-! ### Concrete calls -/
namespace Oper3Demo
open EriDemo OvlpDemo Eri3Demo Eri2cDemo

theorem allKept3X (G : Gen2e) (O : Nat → ℝ) (o : ℝ) : AllKept3X lib (G.int O) (call3 o) := by
  refine ⟨fun _ => 1, fun _ => 1, one_max 1, one_max 2, fun ip jp kp _ _ _ => ?_⟩
  have hb := base_nonpos
  have hl := log_shift (o := o) (a := 1+1) (by norm_num)
  have h1 : estIJ3X lib (call3 o) G.ng (fun _ => 1) (fun _ => 1) ip jp ≤ 0 := by
    unfold estIJ3X est pairEstimate logBound prodExponent rr2 lib call3
    simp only [sub_zero, mul_zero, add_zero, Real.sqrt_zero, Real.log_one]
    have hn : (0:ℝ) ≤ ((1 + G.ng.i + (2 + G.ng.j) : ℕ) : ℝ) := Nat.cast_nonneg _
    have := mul_nonneg hn hl
    split_ifs <;> simp only [zero_add, Real.log_one, mul_zero] at * <;> linarith
  have hc : cutoff3c2e (call3 o).envCut = 60 := if_pos rfl
  have hk : ((call3 o).env (G.int O)).lk_ceil = 0 := rfl
  have h3 : 60 ≤ (call3 o).cutoff (G.int O) lib := by
    have hl' : (0:ℝ) ≤ lib.log ((lib.sqrt (rr2 (call3 o).si.r (call3 o).sj.r) + o*o/(o*o + (1+1))*8 + 1)/
        (lib.sqrt (rr2 (call3 o).si.r (call3 o).sj.r) + 1)) := by
      unfold rr2 lib call3
      simp only [sub_zero, mul_zero, add_zero, Real.sqrt_zero, zero_add, div_one] at *
      exact hl
    unfold Call3.cutoff
    dsimp only
    rw [hc, hk]
    split
    · rw [if_neg (by omega)]
      split
      · have : (0:ℝ) ≤ ((Call3.env (G.int O) (call3 o)).li_ceil + (Call3.env (G.int O) (call3 o)).lj_ceil : ℕ) := Nat.cast_nonneg _
        have h := mul_nonneg this hl'
        refine le_trans ?_ (add_le_add_right h 60)
        rw [add_zero]
      · exact le_refl _
    · exact le_refl _
  have hs : srExp3 (call3 o) ip jp kp = 0 := by
    unfold srExp3 call3 centre
    simp
  have hx : (G.int O : Int2e ℝ).ng = G.ng := rfl
  refine ⟨by rw [hc, hx]; linarith, by rw [hx]; linarith, fun _ => ⟨by rw [hs]; norm_num, by rw [hs, hx]; linarith⟩⟩

/-- int3c2e_ip2: `(i j | ∂_y k)` with the short-range interaction, for p_y (second contraction), d_xz and the fifth f function -/
example : ∃ R has h', CartEnds3 (blankMem3 (Auto3c2e.int3c2e_ip2.int fun _ => 0) (call3 (-1/2)) (ctr_pos3 _)) R realK lib has h' ∧
    (blankMem3 (Auto3c2e.int3c2e_ip2.int fun _ => 0) (call3 (-1/2)) (ctr_pos3 _)).elem h' 1 1 1 0 2 1 4 =
      .val (spNorm 1 * spNorm 2 * spNorm 3 *
      repulsion (interaction (-1/2)) (fun r => cfun (call3 (-1/2)).si 1 1 r * cfun (call3 (-1/2)).sj 0 2 r)
        (fun r => Word.act (fun _ => 0) (fun _ => 0) [(.d, 1)] (cfun (call3 (-1/2)).sk 1 4) r)) := by
  obtain ⟨R, hR⟩ := exists_rys2
  have hG : ("int3c2e_ip2", Auto3c2e.int3c2e_ip2) ∈ Auto3c2e.all3c := by
    unfold Auto3c2e.all3c; simp
  have hD : ("int3c2e_ip2", EriDefs.ip2) ∈ defs3c := by
    unfold defs3c; simp
  have hlen : EriDefs.ip2.out.length = 3 := by decide +kernel
  obtain ⟨has, h', h1, h2⟩ := C52_three_centre_exact hG hD (L := lib) (R := R) (O := fun _ => 0)
    (blankMem3 (Auto3c2e.int3c2e_ip2.int fun _ => 0) (call3 (-1/2)) (ctr_pos3 _)) rfl (allKept3X _ _ _) (posExp3 _) (hR _) (lok3 _)
  refine ⟨R, has, h', h1, ?_⟩
  obtain ⟨v, e1, e2⟩ := h2 1 1 0 1 1 2 4 (by rw [hlen]; decide) (by show 1 < 2; omega) (by show 0 < 2; omega) (by show 1 < 2; omega)
    (by show 1 < ncart 1; decide) (by show 2 < ncart 2; decide) (by show 4 < ncart 3; decide)
  refine e1.trans (congrArg Cell.val (Complex.ofReal_injective (e2.trans ?_)))
  have ho : EriDefs.ip2.out[1]'(by rw [hlen]; decide) = [(⟨1, 0, [], [], []⟩, ⟨1, 0, [], [(.d, 1)], []⟩)] := by
    have : EriDefs.ip2.out.getD 1 [] = [(⟨1, 0, [], [], []⟩, ⟨1, 0, [], [(.d, 1)], []⟩)] := by decide +kernel
    rw [List.getD_eq_getElem?_getD, List.getElem?_eq_getElem (by rw [hlen]; decide)] at this
    exact this
  rw [ho]
  unfold Op2.val3 Op2.val Op2.valT Term.coef
  simp only [List.map_cons, List.map_nil, List.sum_cons, List.sum_nil, List.prod_nil]
  show (((1 : Int) : ℂ) / ((1 : Nat) : ℂ)) * ((spNorm 1 * spNorm 2 * spNorm 3 : ℝ) : ℂ) * _ = _
  have hact : ∀ r, Word.act (fun c => 0) (centre (call3 (-1/2)).sk) [] (fun _ => 1) r = 1 := fun _ => rfl
  simp only [hact, mul_one]
  push_cast
  simp only [mul_zero, add_zero, one_mul, div_one]
  rfl

/-- the components of int3c2e_ig1 for two functions at the same centre -/
example (V : Pt → Pt → ℝ) (O A B : Pt) (f g h : Pt → ℝ) : EriDefs.ig1.out.length = 3 ∧
    ∀ P ∈ EriDefs.ig1.out, Op2.val3 V O A A B f g h P = 0 :=
  ⟨by decide +kernel, fun _ hP => C52_same_shell (name := "int3c2e_ig1") (by unfold defs3c; simp)
    (by unfold Auto3c2e.shortcutIJ; simp) V O A B f g h hP⟩

/-- int2c2e_ip1: `(∂_y i | k)` with the short-range interaction, for p_y (second contraction) and the fifth f function -/
example : ∃ R has h', CartEnds2c (blankMem2c (Auto2c2e.int2c2e_ip1.int2c fun _ => 0) (call2c (-1/2)) (ctr_pos2c _)) R realK has h' ∧
    (blankMem2c (Auto2c2e.int2c2e_ip1.int2c fun _ => 0) (call2c (-1/2)) (ctr_pos2c _)).elem h' 1 1 1 1 4 =
      .val (spNorm 1 * spNorm 3 *
      repulsion (interaction (-1/2)) (fun r => Word.act (fun _ => 0) (fun _ => 0) [(.d, 1)] (cfun (call2c (-1/2)).si 1 1) r)
        (cfun (call2c (-1/2)).sk 1 4)) := by
  obtain ⟨R, hR⟩ := exists_rys2
  have hG : ("int2c2e_ip1", Auto2c2e.int2c2e_ip1) ∈ Auto2c2e.all2c := by
    unfold Auto2c2e.all2c; simp
  have hD : ("int2c2e_ip1", EriDefs.ip1) ∈ defs2c := by
    unfold defs2c; simp
  have hlen : EriDefs.ip1.out.length = 3 := by decide +kernel
  obtain ⟨has, h', h1, h2⟩ := C52_two_centre_exact hG hD (R := R) (O := fun _ => 0)
    (blankMem2c (Auto2c2e.int2c2e_ip1.int2c fun _ => 0) (call2c (-1/2)) (ctr_pos2c _)) (allKept2c _) (posExp2c _) (hR _) (lok2c _)
  refine ⟨R, has, h', h1, ?_⟩
  obtain ⟨v, e1, e2⟩ := h2 1 1 1 1 4 (by rw [hlen]; decide) (by show 1 < 2; omega) (by show 1 < 2; omega)
    (by show 1 < ncart 1; decide) (by show 4 < ncart 3; decide)
  refine e1.trans (congrArg Cell.val (Complex.ofReal_injective (e2.trans ?_)))
  have ho : EriDefs.ip1.out[1]'(by rw [hlen]; decide) = [(⟨1, 0, [], [(.d, 1)], []⟩, ⟨1, 0, [], [], []⟩)] := by
    have : EriDefs.ip1.out.getD 1 [] = [(⟨1, 0, [], [(.d, 1)], []⟩, ⟨1, 0, [], [], []⟩)] := by decide +kernel
    rw [List.getD_eq_getElem?_getD, List.getElem?_eq_getElem (by rw [hlen]; decide)] at this
    exact this
  rw [ho]
  unfold Op2.val2 Op2.val Op2.valT Term.coef
  simp only [List.map_cons, List.map_nil, List.sum_cons, List.sum_nil, List.prod_nil]
  show (((1 : Int) : ℂ) / ((1 : Nat) : ℂ)) * ((spNorm 1 * spNorm 3 : ℝ) : ℂ) * _ = _
  have hact : ∀ (A r : Pt), Word.act (fun c => 0) A [] (fun _ => 1) r = 1 := fun _ _ => rfl
  simp only [hact, mul_one]
  push_cast
  simp only [mul_zero, add_zero, one_mul, div_one]
  rfl
end Oper3Demo

end Verif.Props
