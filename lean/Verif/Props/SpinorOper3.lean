import Verif.Props.SpinorEri3
import Verif.Props.Oper2c
import Verif.Props.SpinorOper2

/-!
C52 — spinor output of the generated three-centre integrals: integrals of the operators they are named after over two-component
functions of the first two shells and a real spherical function of the third.
-/
namespace Verif.Props
open Verif Verif.Model Verif.Prog Verif.Lemmas Verif.Spec MeasureTheory

/-- **C52** every integral of the catalogue has a spinor variant -/
theorem C52_spinor_catalogue : Auto.spinor3c.map (·.name) = defs3c.map (·.1) := by decide +kernel

theorem spinor3_kinds : (((Auto.spinor3c.map fun w => (w.name, w)).zip defs3c).all fun x =>
    wrapOK x.1.2 x.2.2 && !x.2.2.spin2 && !x.2.2.imag2 && decide (x.2.2.spinNum = x.2.2.num)) = true := by decide +kernel

theorem wrap3_of {w : Auto.SpWrap} {D : Def2e} (hS : w ∈ Auto.spinor3c) (hD : (w.name, D) ∈ defs3c) :
    wrapOK w D = true ∧ D.spin2 = false ∧ D.imag2 = false ∧ D.spinNum = D.num := by
  have hn : ((Auto.spinor3c.map fun w => (w.name, w)).map (·.1)) = defs3c.map (·.1) := by
    rw [List.map_map]; exact C52_spinor_catalogue
  have h := List.all_eq_true.1 spinor3_kinds ((w.name, w), (w.name, D)) (zip_of_name hn names_nodup3 (List.mem_map.2 ⟨w, hS, rfl⟩) hD)
  simp only [Bool.and_eq_true, Bool.not_eq_true', decide_eq_true_eq] at h
  exact ⟨h.1.1.1, h.1.1.2, h.1.2, h.2⟩

/-- The transformation with the tables of the first electron gives the matrix of the operator between the spin functions. -/
theorem one_spin (D : Def2e) (h2 : D.spin2 = false) (h2' : D.imag2 = false) (V : Pt → Pt → ℝ) (O A B C : Pt) (f g h : Nat → Pt → ℝ)
    (k1 k2 : Int) (l1 l2 l3 : Nat) (cf : Nat → ℝ)
    (T : Nat) (hT : T < D.comps.length) (x : Nat → Nat → Nat → Nat → ℝ) (w : ℂ)
    (hx : ∀ m a b c (hm : m < D.out.length), a < ncart l1 → b < ncart l2 → c < ncart l3 →
      (x m a b c : ℂ) = w * Op2.val3 V O A B C (f a) (g b) (h c) D.out[m]) (i j : Nat) :
    (spinor2 D.spin1 D.imag1 k1 k2 l1 l2 (fun c1 a b =>
        Cx.ofR (∑ c ∈ Finset.range (ncart l3), cf c * x (T * (if D.spin1 then 4 else 1) + c1) a b c)) i j).toC =
      w * ∑ a ∈ Finset.range (ncart l1), ∑ b ∈ Finset.range (ncart l2), ∑ c ∈ Finset.range (ncart l3), ∑ σ : Bool, ∑ τ : Bool,
        star (cjCoef k1 l1 i σ a : Cx ℝ).toC * (cjCoef k2 l2 j τ b : Cx ℝ).toC * (cf c : ℂ) *
          Op2.val3 V O A B C (f a) (g b) (h c)
            (matrix2 (D.ops[T]'(by unfold Def2e.ops; rw [List.length_map]; exact hT)) σ τ false false) := by
  have hlen : 0 < (spinParts D.spin2 D.imag2).length := by rw [spinParts_length, h2]; decide
  obtain ⟨b0, hb0⟩ : ∃ b0, (spinParts D.spin2 D.imag2)[0] = b0 := ⟨_, rfl⟩
  rw [toC_spinor2, Finset.mul_sum]
  refine Finset.sum_congr rfl fun a ha => ?_
  rw [Finset.mul_sum]
  refine Finset.sum_congr rfl fun b hb => ?_
  rw [Finset.mem_range] at ha hb
  have step : ∀ σ τ : Bool, (if D.imag1 then Complex.I else 1) * (spinMat D.spin1 (fun c1 => Cx.ofR (∑ c ∈ Finset.range (ncart l3),
        cf c * x (T * (if D.spin1 then 4 else 1) + c1) a b c)) σ τ).toC = ∑ c ∈ Finset.range (ncart l3), (cf c : ℂ) * (w *
      Op2.val3 V O A B C (f a) (g b) (h c) (matrix2 (D.ops[T]'(by unfold Def2e.ops; rw [List.length_map]; exact hT)) σ τ false false)) := by
    intro σ τ
    have hΦ : LinOp fun u => ∑ c ∈ Finset.range (ncart l3), (cf c : ℂ) * (w * (D.comps[T].map fun q =>
        Op2.val V O A B C C (f a) (g b) (h c) (fun _ => 1) ((u q.1).times (b0 q.2))).sum) :=
      LinOp.sum _ fun c => ((lin_left V O A B C C (f a) (g b) (h c) (fun _ => 1) D.comps[T] b0).smul w).smul _
    rw [spinMat_parts hΦ D.spin1 D.imag1 _ (by
        intro c1 h1
        rw [toC_ofR]
        push_cast
        refine Finset.sum_congr rfl fun c hc => ?_
        rw [Finset.mem_range] at hc
        obtain ⟨hm, e⟩ := out2_getElem D hT hlen h1
        have e0 : (T * (if D.spin2 then 4 else 1) + 0) * (if D.spin1 then 4 else 1) + c1 = T * (if D.spin1 then 4 else 1) + c1 := by
          rw [h2]; simp
        simp only [e0, hb0] at hm e
        rw [hx _ a b c hm ha hb hc, e]
        unfold Op2.val3
        rw [val_flatMap]) σ τ]
    refine Finset.sum_congr rfl fun c _ => congrArg₂ (· * ·) rfl (congrArg₂ (· * ·) rfl ?_)
    unfold Op2.val3 matrix2
    rw [val_flatMap]
    simp only [Def2e.ops, List.getElem_map, List.map_map]
    refine congrArg List.sum (List.map_congr_left fun q _ => ?_)
    dsimp only [Function.comp]
    have l := (lin_right V O A B C C (f a) (g b) (h c) (fun _ => 1) [q] (fun p => (if D.spin1 then p else .sf p.one).entry σ τ)).cst 1 0
      (fun p => p.one)
    simp only [List.map_cons, List.map_nil, List.sum_cons, List.sum_nil, add_zero, Int.cast_one, Int.cast_zero, mul_zero, one_mul] at l
    have e1 : b0 q.2 = Op.mul (.cst 1 0) q.2.one := by
      have g : ∀ (sp im : Bool) (h : 0 < (spinParts sp im).length), sp = false → im = false →
          (spinParts sp im)[0] = fun q => Op.mul (.cst 1 0) q.one := by
        intro sp im h e e'
        subst e e'
        rfl
      rw [← hb0, g _ _ hlen h2 h2']
    have e2 : (if D.spin2 = true then q.2 else Quat.sf q.2.one).entry false false = q.2.one := by
      rw [h2]
      simp [Quat.entry, Quat.sf]
    rw [e1, e2]
    exact l
  simp only [step, Finset.mul_sum, Finset.sum_mul]
  have swap : ∀ F : Bool → Bool → Nat → ℂ, (∑ σ : Bool, ∑ τ : Bool, ∑ c ∈ Finset.range (ncart l3), F σ τ c) =
      ∑ c ∈ Finset.range (ncart l3), ∑ σ : Bool, ∑ τ : Bool, F σ τ c := by
    intro F
    rw [Finset.sum_comm]
    simp only [Fintype.sum_bool, Finset.sum_add_distrib]
    ring
  rw [swap]
  refine Finset.sum_congr rfl fun c _ => Finset.sum_congr rfl fun σ _ => Finset.sum_congr rfl fun τ _ => ?_
  ring

/-- **C52**, spinor output, nothing screened: every wrapper int3c2e_*_spinor returns the integrals over two-component functions of the
first two shells and a real spherical function of the third of the operators in the definition. -/
theorem C52_spinor {w : Auto.SpWrap} {G : Gen2e} {D : Def2e} (hS : w ∈ Auto.spinor3c) (hG : (w.name, G) ∈ Auto3c2e.all3c)
    (hD : (w.name, D) ∈ defs3c) {L : MathLib ℝ} {s : Call3 ℝ} {R : Rys2 ℝ} {O : Nat → ℝ} {ki kj : Int}
    (B : SpMem3 ((w.gen G).int O) s w.nT ki kj) (hL : L.exp = Real.exp) (hkept : AllKept3X L ((w.gen G).int O) s)
    (hp : PosExp3 s) (hR : Rys2OK R (s.env ((w.gen G).int O)).nrys_roots) (hl : LOKsp3 s) :
    ∃ has h', SpEnds3 B w.k1 R realK L has h' ∧ w.nT = D.ops.length ∧
      ∀ n ic jc kc i j k (hn : n < D.ops.length), ic < s.si.nctr → jc < s.sj.nctr → kc < s.sk.nctr →
        i < lenSpinorC2S ki s.si.l → j < lenSpinorC2S kj s.sj.l → k < s.sk.l*2+1 →
        ∃ z : Cx ℝ, B.Elem h' n ic i jc j kc k z ∧
          z.toC = ((D.num : ℂ) / (D.den : ℂ)) *
            ∑ a ∈ Finset.range (ncart s.si.l), ∑ b ∈ Finset.range (ncart s.sj.l), ∑ c ∈ Finset.range (ncart s.sk.l),
            ∑ σ : Bool, ∑ τ : Bool,
              star ((spNorm s.si.l : ℂ) * (cjCoef ki s.si.l i σ a).toC) * ((spNorm s.sj.l : ℂ) * (cjCoef kj s.sj.l j τ b).toC) *
              ((spNorm s.sk.l * c2sCoef s.sk.l k c : ℝ) : ℂ) *
              Op2.val3 (interaction s.omega) (fun c => O c) (centre s.si) (centre s.sj) (centre s.sk)
                (cfun s.si ic a) (cfun s.sj jc b) (cfun s.sk kc c) (matrix2 D.ops[n] σ τ false false) := by
  obtain ⟨hw, s2, i2, hsn⟩ := wrap3_of hS hD
  obtain ⟨k1, k2, k3, k4, k5, k6, k7, k8, k9, k10, k11⟩ := wrapOK_unfold hw
  obtain ⟨hmt, hl0⟩ := matches3_of hG hD
  obtain ⟨ws, hOK, hnum, hden, hnc, _⟩ := matches2_unfold hmt
  have hgen : w.gen G = G := by
    unfold Auto.SpWrap.gen
    rw [k9, hsn, ← hnum, k10, ← hden]
  generalize w.gen G = G' at B hkept hR hgen ⊢
  subst hgen
  let A := blankMem3 (G'.int O) s B.hs.nctr_pos
  have hlen : (G'.int O).nComp = D.out.length := hnc
  have hn0 : (G'.int O).nComp = SpKind.comps w.k1 * w.nT := by
    rw [hlen, out2_length, k7, s2]; unfold SpKind.comps; rw [k1]; simp
  obtain ⟨ra, ha, rb, hb, eA, eB, x, vA, vB⟩ := C49_three_centre (kd := w.k1) A B hn0
    (gen3_eval hOK hl0 (L := L) (O := O) hp hR) (by omega) hl
  obtain ⟨rc, hc, eC, vC⟩ := C52_three_centre_exact hG hD (R := R) A hL hkept hp hR hl.all
  have hAC : ha = hc := by
    have e : some (ra, ha) = some (rc, hc) := eA.symm.trans eC
    simp only [Option.some.injEq, Prod.mk.injEq] at e
    exact e.2
  refine ⟨rb, hb, eB, k7, fun n ic jc kc i j k hn a2 a3 a4 a6 a7 a8 =>
    ⟨_, vB n ic jc kc i j k (by omega) a2 a3 a4 a6 a7 a8, ?_⟩⟩
  have hn' : n < D.comps.length := by unfold Def2e.ops at hn; rwa [List.length_map] at hn
  unfold SpKind.comps
  rw [k1, k2]
  rw [one_spin D s2 i2 (interaction s.omega) (fun c => O c) (centre s.si) (centre s.sj) (centre s.sk) (cfun s.si ic) (cfun s.sj jc)
    (cfun s.sk kc) ki kj s.si.l s.sj.l s.sk.l (fun c => c2sCoef s.sk.l k c) n hn' (fun m a b c => x m ic a jc b kc c)
    (((D.num : ℂ) / (D.den : ℂ)) * ((spNorm s.si.l * spNorm s.sj.l * spNorm s.sk.l : ℝ) : ℂ))
    (fun m a b c hm' b1 b2 b3 => by
      have c1 := vA m ic jc kc a b c (by rw [hlen]; exact hm') a2 a3 a4 b1 b2 b3
      obtain ⟨v, c2, c3⟩ := vC m ic jc kc a b c hm' a2 a3 a4 b1 b2 b3
      rw [← hAC] at c2
      rw [Cell.val.inj (c1.symm.trans c2)]
      exact c3) i j]
  rw [mul_assoc]
  refine congrArg₂ (· * ·) rfl ?_
  simp only [Finset.mul_sum]
  refine Finset.sum_congr rfl fun a _ => Finset.sum_congr rfl fun b _ => Finset.sum_congr rfl fun c _ => Finset.sum_congr rfl fun σ _ =>
    Finset.sum_congr rfl fun τ _ => ?_
  simp only [star_mul, Complex.star_def, Complex.conj_ofReal]
  push_cast
  ring

/-- **C52**, spinor output, the wrappers that return zeros when the first two shells are the same shell: the integral they skip is
zero. -/
theorem C52_spinor_same_shell {name : String} {D : Def2e} (hD : (name, D) ∈ defs3c) (hs : name ∈ Auto3c2e.shortcutIJ)
    {qs : List (Quat × Quat)} (hq : qs ∈ D.ops) (V : Pt → Pt → ℝ) (O A B : Pt) (f g h : Pt → ℝ) (σ τ σ' τ' : Bool) :
    Op2.val3 V O A A B f g h (matrix2 qs σ τ σ' τ') = 0 := by
  have h1 : ((defs3c.filter fun x => decide (x.1 ∈ Auto3c2e.shortcutIJ)).all fun x =>
    (spinTerms x.2).all fun t => !decide (t.1.geo = [])) = true := by decide +kernel
  have h2 := List.all_eq_true.1 h1 (name, D) (List.mem_filter.2 ⟨hD, by simpa using hs⟩)
  unfold Op2.val3 Op2.val
  refine List.sum_eq_zero (fun x hx => ?_)
  obtain ⟨t, ht, rfl⟩ := List.mem_map.1 hx
  unfold Op2.valT
  rw [same_centre_prod (List.all_eq_true.1 h2 t (mem_spinTerms hq ht)), zero_mul, zero_mul, Complex.ofReal_zero, mul_zero]

/-! ### The hypotheses can be met -/
namespace SpinorOper3Demo
open OvlpDemo SphDemo EriDemo Eri3Demo SpinorDemo SpinorEriDemo SpinorEri3Demo Oper3Demo

/-- memory for any integral over p with both j, d with j = 5/2 and real f functions -/
noncomputable def spMem3X (X : Int2e ℝ) (o : ℝ) (nT : Nat) : SpMem3 X (call3 o) nT 0 (-3) where
  fpd := 1
  buf := 0
  size := cacheSize3c2eSp X (call3 o)
  empty := ⟨4, 0⟩
  fl := ⟨1, 0⟩
  loc := ⟨2, 0⟩
  counts := ⟨3, 0⟩
  out := ⟨5, 7⟩
  dims := none
  nd := fun t => Call3.nsp (call3 o) 0 (-3) t * Call3.nctrs (call3 o) t
  h := memJS
  tab := ⟨⟨9, 0⟩, ⟨10, 0⟩⟩
  sph := ⟨11, 0⟩
  hs := ⟨Or.inr (Or.inl rfl), by show ∀ t, t < 4 → 0 < four (lenSpinorC2S 0 1) (lenSpinorC2S (-3) 2) 7 1 t; decide,
    fun t ht => ctr_pos3 o t ht, fun t a b => by
      obtain rfl : t = 3 := by omega
      exact ⟨rfl, rfl, rfl⟩, fun t _ => le_refl _⟩
  M := ⟨by omega, fun k _ => memJS_ne _ (by show 0 ≠ 11; omega), fun k _ => by simp [memJS], by simp [memJS],
    fun k _ => by simp [memJS], fun k _ => by simp [memJS], fun k _ => by simp [memJS],
    by decide, by decide, by decide, by decide, by decide⟩
  hsize := le_refl _
  O := { h_dims := fun t _ => rfl
         h_dims2 := fun d hd => nomatch hd
         h_dbuf := fun d hd => nomatch hd
         h_out := fun m _ => memJS_ne _ (by show 5 ≠ 11; omega)
         h_obuf := by decide }
  T := ⟨⟨tabJS, by decide, by decide, by decide, by decide⟩, tabS, by decide, by decide⟩

/-- int3c2e_ipspsp1_spinor -/
def wrapI : Auto.SpWrap := { name := "int3c2e_ipspsp1", k1 := ⟨true, false⟩, e1 := 4, e2 := 1, nT := 3 }

/-- the y component of `(∇ σ·p i, σ·p j | k)` with the short-range interaction, for the second contraction of the fourth p function, the
last d function and the fifth f function -/
example : ∃ R has h', SpEnds3 (spMem3X ((wrapI.gen Auto3c2e.int3c2e_ipspsp1).int fun _ => 0) (-1/2) 3) ⟨true, false⟩ R realK lib has h' ∧
    ∃ z : Cx ℝ, (spMem3X ((wrapI.gen Auto3c2e.int3c2e_ipspsp1).int fun _ => 0) (-1/2) 3).Elem h' 1 1 3 0 5 1 4 z := by
  obtain ⟨R, hR⟩ := exists_rys2
  obtain ⟨has, h', h1, hlen, h2⟩ := C52_spinor (w := wrapI) (G := Auto3c2e.int3c2e_ipspsp1) (D := EriDefs.ipspsp1)
    (by unfold Auto.spinor3c wrapI; simp) (by unfold Auto3c2e.all3c wrapI; simp) (by unfold defs3c wrapI; simp) (L := lib) (R := R)
    (spMem3X ((wrapI.gen Auto3c2e.int3c2e_ipspsp1).int fun _ => 0) (-1/2) 3) rfl (allKept3X _ _ _) (posExp3 _) (hR _) (ls3 _)
  obtain ⟨z, hz, _⟩ := h2 1 1 0 1 3 5 4 (by rw [← hlen]; decide) (by show 1 < 2; omega) (by show 0 < 2; omega) (by show 1 < 2; omega)
    (by show 3 < lenSpinorC2S 0 1; decide) (by show 5 < lenSpinorC2S (-3) 2; decide) (by show 4 < 7; omega)
  exact ⟨R, has, h', h1, z, hz⟩

end SpinorOper3Demo

end Verif.Props
