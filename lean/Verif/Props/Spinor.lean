import Verif.Lemmas.DrvSp1e
import Verif.Lemmas.SpinorFn
import Verif.Model.AutoSp1e
import Verif.Props.SphDrv

/-!
C49 — spinor integrals are the Cartesian integrals transformed by the tables.
C14, C18, C21, C43 for spinor output of one-electron integrals.
-/
namespace Verif.Props
open Verif Verif.Model Verif.Prog Verif.Lemmas Verif.Spec MeasureTheory

section
variable {α : Type} [Field α] [LinearOrder α]

/-- Where and with what memory a one-electron integral with spinor output is called; `nT` tensor components, `ki`, `kj` the kappa of the
shells, `tab` where the transformation tables are stored.  The cache has at least the queried size. -/
structure SpMem (X : Int1e α) (s : Call α) (nT : Nat) (ki kj : Int) where
  fpd : Nat
  buf : Nat
  size : Nat
  fl : Ptr
  loc : Ptr
  counts : Ptr
  out : Ptr
  dims : Option Ptr
  nd : Nat → Nat
  h : Heap α
  tab : JTab
  hs : Sizes 2 (two (lenSpinorC2S ki s.si.l) (lenSpinorC2S kj s.sj.l)) (two s.si.nctr s.sj.nctr) nd
  M : CallMem h fpd buf size fl loc counts
  hsize : cacheSize1e X s ≤ size
  O : OutArgZ 2 h nd (fun t => two (lenSpinorC2S ki s.si.l) (lenSpinorC2S kj s.sj.l) t * two s.si.nctr s.sj.nctr t) nT out dims
    buf fl loc counts
  T : TabArg h tab buf out

/-- elements of the block -/
def SpMem.In {X : Int1e α} {s : Call α} {nT : Nat} {ki kj : Int} (A : SpMem X s nT ki kj) (m : Nat) : Prop :=
  InBlock A.nd (fun t => two (lenSpinorC2S ki s.si.l) (lenSpinorC2S kj s.sj.l) t * two s.si.nctr s.sj.nctr t) nT m

/-- the output array holds the complex number `z` for component `n`, function `i` of contraction `ic`, function `j` of contraction `jc` -/
def SpMem.Elem {X : Int1e α} {s : Call α} {nT : Nat} {ki kj : Int} (A : SpMem X s nT ki kj) (h' : Heap α) (n ic i jc j : Nat)
    (z : Cx α) : Prop :=
  HoldsC h' A.out (outAt A.nd n (ic*lenSpinorC2S ki s.si.l+i) (jc*lenSpinorC2S kj s.sj.l+j) 0 0) z

/-- the call with output function `kd` returns `has` and ends with memory `h'` -/
def SpEnds {X : Int1e α} {s : Call α} {nT : Nat} {ki kj : Int} (A : SpMem X s nT ki kj) (kd : SpKind) (e1 : Nat) (K : Consts α)
    (L : MathLib α) (has : Bool) (h' : Heap α) : Prop :=
  run (drv1eSp K L X s e1 nT kd A.tab ki kj A.fpd A.out A.dims A.buf 0 A.fl A.loc A.counts) A.h = some (has, h')

/-- **C49**, one-electron integrals: for every integral whose integrand evaluates correctly, the spinor integrals are the Cartesian
integrals (of the scalar, or of the four components of an operator with spin) transformed with the tables of both shells. -/
theorem C49_one_electron {K : Consts α} {L : MathLib α} {X : Int1e α} {s : Call α} {w : Nat → Nat → Nat → α} {nT : Nat} {ki kj : Int}
    {kd : SpKind} (A : CartMem X s) (B : SpMem X s nT ki kj) (hn : X.nComp = (if kd.si then 4 else 1) * nT) (hK : EvalOK K L X s w)
    (hnT : 1 ≤ nT) (hli : s.si.l < 13) (hlj : s.sj.l < 13) :
    ∃ ra ha rb hb, CartEnds A K L ra ha ∧ SpEnds B kd (if kd.si then 4 else 1) K L rb hb ∧
      ∃ x : Nat → Nat → Nat → Nat → Nat → α,
        (∀ n ic jc a b, n < X.nComp → ic < s.si.nctr → jc < s.sj.nctr → a < ncart s.si.l → b < ncart s.sj.l →
          A.elem ha n ic a jc b = .val (x n ic a jc b)) ∧
        (∀ n ic jc i j, n < nT → ic < s.si.nctr → jc < s.sj.nctr → i < lenSpinorC2S ki s.si.l → j < lenSpinorC2S kj s.sj.l →
          B.Elem hb n ic i jc j (spinor2 kd.si kd.ph ki kj s.si.l s.sj.l
            (fun c a b => Cx.ofR (x (n * (if kd.si then 4 else 1) + c) ic a jc b)) i j)) := by
  have hnc : 1 ≤ X.nComp := by
    rw [hn]
    refine Nat.mul_pos ?_ hnT
    split <;> omega
  obtain ⟨ra, ha, r1, v1, _⟩ := drv1e_cart A.M A.hsize A.hs A.O hK hnc (by omega) (by omega)
  obtain ⟨rb, hb, r2, v2, _⟩ := drv1eSp_run (kd := kd) B.M B.hsize B.hs B.O B.T hn hK hnT hli hlj
  refine ⟨ra, ha, rb, hb, r1, r2, fun n ic a jc b => loopVal K L X s w n ic jc (b*ncart s.si.l+a), ?_, ?_⟩
  · intro n ic jc a b h1 h2 h3 h4 h5
    exact v1 n ic jc a b h1 h2 h3 h4 h5
  · intro n ic jc i j h1 h2 h3 h4 h5
    exact v2 n ic jc i j h1 h2 h3 h4 h5

/-- **C14**, spinor one-electron integrals: with a cache of (at least) the queried size the call completes without undefined behaviour,
whatever the cache and the output array contain. -/
theorem C14_spinor {K : Consts α} {L : MathLib α} {X : Int1e α} {s : Call α} {w : Nat → Nat → Nat → α} {nT : Nat} {ki kj : Int}
    {kd : SpKind} (B : SpMem X s nT ki kj) (hn : X.nComp = (if kd.si then 4 else 1) * nT) (hK : EvalOK K L X s w) (hnT : 1 ≤ nT)
    (hli : s.si.l < 13) (hlj : s.sj.l < 13) : ∃ has h', SpEnds B kd (if kd.si then 4 else 1) K L has h' := by
  obtain ⟨rb, hb, r2, _⟩ := drv1eSp_run (kd := kd) B.M B.hsize B.hs B.O B.T hn hK hnT hli hlj
  exact ⟨rb, hb, r2⟩

/-- **C18**, one-electron calls with spinor output: when 0 is returned the block is zero; in any case every element of the block is
overwritten, no double outside the block and the cache changes, and the new contents do not depend on the contents of memory. -/
theorem C18_one_electron_spinor {K : Consts α} {L : MathLib α} {X : Int1e α} {s : Call α} {w : Nat → Nat → Nat → α} {nT : Nat}
    {ki kj : Int} {kd : SpKind} (B : SpMem X s nT ki kj) (hn : X.nComp = (if kd.si then 4 else 1) * nT) (hK : EvalOK K L X s w)
    (hnT : 1 ≤ nT) (hli : s.si.l < 13) (hlj : s.sj.l < 13) :
    ∃ v : Nat → α, ∀ B' : SpMem X s nT ki kj, B'.nd = B.nd →
      ∃ has h', SpEnds B' kd (if kd.si then 4 else 1) K L has h' ∧
        (∀ m, B.In (m/2) → h'.D (B'.out + m) = .val (v m)) ∧
        (has = false → ∀ m, B.In (m/2) → v m = 0) ∧
        (∀ q, q.buf ≠ B'.buf → (∀ m, B.In (m/2) → q ≠ B'.out + m) → h'.D q = B'.h.D q) := by
  obtain ⟨r0, h0, _, v0, _⟩ := drv1eSp_run (kd := kd) B.M B.hsize B.hs B.O B.T hn hK hnT hli hlj
  refine ⟨fun m => match h0.D (B.out + m) with | .val x => x | _ => 0, fun B' hn' => ?_⟩
  obtain ⟨r1, h1, e1, v1, z1, f1, _⟩ := drv1eSp_run (kd := kd) B'.M B'.hsize B'.hs B'.O B'.T hn hK hnT hli hlj
  rw [hn'] at v1 z1 f1
  have hv : ∀ m, B.In (m/2) → h1.D (B'.out + m) = .val (match h0.D (B.out + m) with | .val x => x | _ => 0) := by
    intro m hm
    obtain ⟨n, ic, jc, kc, lc, i, j, k, x, a1, a2, a3, a4, a5, a6, a7, a8, a9, e⟩ := inBlock_digits B.hs.nf_pos hm
    have hk : kc * two (lenSpinorC2S ki s.si.l) (lenSpinorC2S kj s.sj.l) 2 + k = 0 := by
      simp only [two] at a4 a8
      simp at a4 a8
      simp [a4, a8]
    have hx : lc * two (lenSpinorC2S ki s.si.l) (lenSpinorC2S kj s.sj.l) 3 + x = 0 := by
      simp only [two] at a5 a9
      simp at a5 a9
      simp [a5, a9]
    rw [hk, hx] at e
    have b1 := v1 n ic jc i j a1 a2 a3 a6 a7
    have b0 := v0 n ic jc i j a1 a2 a3 a6 a7
    have e' : m/2 = outAt B.nd n (ic * lenSpinorC2S ki s.si.l + i) (jc * lenSpinorC2S kj s.sj.l + j) 0 0 := e
    unfold HoldsC at b0 b1
    rw [← e'] at b0 b1
    rcases Nat.mod_two_eq_zero_or_one m with h2 | h2
    · rw [show m = 2*(m/2) by omega, b0.1, b1.1]
    · rw [show m = 2*(m/2)+1 by omega, b0.2, b1.2]
  refine ⟨r1, h1, e1, hv, fun hf m hm => ?_, f1⟩
  exact Cell.val.inj ((hv m hm).symm.trans (z1 hf m hm))

theorem null_tables {kappa : Int} {l : Nat} (hl : 13 ≤ l) (tab : JTab) : tab.at kappa l = none := by
  have h : (if kappa < 0 then cjGt else cjLt).getD l none = none := by
    by_cases h16 : l < 16
    · have : ∀ l, l < 16 → 13 ≤ l → cjGt.getD l none = none ∧ cjLt.getD l none = none := by decide
      obtain ⟨h1, h2⟩ := this l h16 hl
      split
      · exact h1
      · exact h2
    · split <;> exact List.getD_eq_default _ _ (by show 16 ≤ l; omega)
  unfold JTab.at
  rw [h]
  rfl

/-- **C49**, the limit of the tables: for shells with `l ≥ 13` (the other output functions work up to 15) the pointers to the
coefficients are null and the transformation of a block dereferences them. -/
theorem C49_high_l (k : SpKind) (tab : JTab) (fpd li lj : Nat) (ki kj : Int) (n buf c : Nat) (gctr : Ptr) (h : Heap α)
    (hl : 13 ≤ li ∨ 13 ≤ lj) : run (spTrans1e k tab fpd li lj ki kj n buf c gctr) h = none := by
  obtain ⟨si, ph⟩ := k
  have hf : ∀ (kappa : Int) (l : Nat) (f : JTab → Prog α Unit) (h : Heap α), 13 ≤ l → run (tab.with kappa l f) h = none := by
    intro kappa l f h hl
    unfold JTab.with
    rw [null_tables hl]
    rfl
  unfold spTrans1e
  dsimp only
  rw [run_bind]
  rcases hl with hl | hl
  · have : ∀ R I g n nk, run (SpKind.bra ⟨si, ph⟩ tab R I g n nk ki li : Prog α Unit) h = none := by
      intro R I g n nk
      cases si
      · exact hf _ _ _ _ hl
      · exact hf _ _ _ _ hl
    rw [this]
    rfl
  · have : ∀ h R I a b nb, run (SpKind.ket ⟨si, ph⟩ tab R I a b nb kj lj : Prog α Unit) h = none := by
      intro h R I a b nb
      cases ph
      · exact hf _ _ _ _ hl
      · show run (iketSp tab R I a b nb kj lj) h = none
        unfold iketSp
        rw [run_bind]
        rw [show run (ketSp tab I R a b nb kj lj) h = none from hf _ _ _ _ hl]
        rfl
    cases run (SpKind.bra ⟨si, ph⟩ tab _ _ gctr n (lenCart lj) ki li : Prog α Unit) h with
    | none => rfl
    | some r =>
      show run (_ >>= _) _ = none
      rw [run_bind, this]
      rfl
end

/-- spin component `s` of a function of a spinor basis -/
noncomputable def jgto (t : PShell ℝ) (kappa : Int) (ic i : Nat) (s : Bool) : (Fin 3 → ℝ) → ℂ := fun r =>
  ∑ a ∈ Finset.range (ncart t.l), (spNorm t.l : ℂ) * (cjCoef kappa t.l i s a).toC *
    (cgto t.nprim t.a t.c (centre t) ic (powers t.l a) r : ℂ)

theorem integral_jgto {si sj : PShell ℝ} (hpos : ∀ ip jp, ip < si.nprim → jp < sj.nprim → 0 < si.a ip + sj.a jp)
    (ki kj : Int) (ic jc i j : Nat) : (∫ r, ∑ s : Bool, star (jgto si ki ic i s r) * jgto sj kj jc j s r) =
      ∑ a ∈ Finset.range (ncart si.l), ∑ b ∈ Finset.range (ncart sj.l), ∑ s : Bool,
        star (cjCoef ki si.l i s a : Cx ℝ).toC * (cjCoef kj sj.l j s b : Cx ℝ).toC *
        ((spNorm si.l * spNorm sj.l * braket (cgto si.nprim si.a si.c (centre si) ic (powers si.l a))
          (cgto sj.nprim sj.a sj.c (centre sj) jc (powers sj.l b)) : ℝ) : ℂ) := by
  have hint : ∀ a b, Integrable fun r => ((cgto si.nprim si.a si.c (centre si) ic (powers si.l a) r *
      cgto sj.nprim sj.a sj.c (centre sj) jc (powers sj.l b) r : ℝ) : ℂ) := fun a b => (integrable_cgto hpos ic jc _ _).ofReal
  have e1 : ∀ r, ∑ s : Bool, star (jgto si ki ic i s r) * jgto sj kj jc j s r =
      ∑ a ∈ Finset.range (ncart si.l), ∑ b ∈ Finset.range (ncart sj.l), ∑ s : Bool,
        (star (cjCoef ki si.l i s a : Cx ℝ).toC * (cjCoef kj sj.l j s b : Cx ℝ).toC * ((spNorm si.l * spNorm sj.l : ℝ) : ℂ)) *
        ((cgto si.nprim si.a si.c (centre si) ic (powers si.l a) r *
          cgto sj.nprim sj.a sj.c (centre sj) jc (powers sj.l b) r : ℝ) : ℂ) := by
    intro r
    unfold jgto
    simp only [star_sum, Finset.sum_mul_sum]
    rw [Finset.sum_comm]
    refine Finset.sum_congr rfl fun a _ => ?_
    rw [Finset.sum_comm]
    refine Finset.sum_congr rfl fun b _ => Finset.sum_congr rfl fun s _ => ?_
    simp only [star_mul, Complex.star_def, Complex.conj_ofReal]
    push_cast
    ring
  simp only [e1]
  rw [integral_finset_sum _ (fun a _ => integrable_finset_sum _ fun b _ => integrable_finset_sum _ fun s _ => (hint a b).const_mul _)]
  refine Finset.sum_congr rfl fun a _ => ?_
  rw [integral_finset_sum _ (fun b _ => integrable_finset_sum _ fun s _ => (hint a b).const_mul _)]
  refine Finset.sum_congr rfl fun b _ => ?_
  rw [integral_finset_sum _ (fun s _ => (hint a b).const_mul _)]
  refine Finset.sum_congr rfl fun s _ => ?_
  rw [integral_const_mul, integral_complex_ofReal]
  unfold braket
  push_cast
  ring

/-- **C49** int1e_ovlp_spinor, no primitive pair screened: exactly the overlap of the two-component functions. -/
theorem C49_overlap {L : MathLib ℝ} {s : Call ℝ} {mi mj : Nat → ℝ} {ki kj : Int} (B : SpMem ovlpInt s 1 ki kj) (hL : L.exp = Real.exp)
    (hi : MaxCoeff s.si mi) (hj : MaxCoeff s.sj mj)
    (hpos : ∀ ip jp, ip < s.si.nprim → jp < s.sj.nprim → 0 < s.si.a ip + s.sj.a jp)
    (hkept : ∀ ip jp, ip < s.si.nprim → jp < s.sj.nprim → Kept L s mi mj (s.si.l + s.sj.l) ip jp)
    (hli : s.si.l < 13) (hlj : s.sj.l < 13) :
    ∃ has h', SpEnds B ⟨false, false⟩ 1 realK L has h' ∧
      ∀ ic jc i j, ic < s.si.nctr → jc < s.sj.nctr → i < lenSpinorC2S ki s.si.l → j < lenSpinorC2S kj s.sj.l →
        ∃ z : Cx ℝ, B.Elem h' 0 ic i jc j z ∧
          z.toC = ∫ r, ∑ σ : Bool, star (jgto s.si ki ic i σ r) * jgto s.sj kj jc j σ r := by
  have n1 : 0 < s.si.nctr := B.hs.nctr_pos 0 (by omega)
  have n2 : 0 < s.sj.nctr := B.hs.nctr_pos 1 (by omega)
  let A := blankMem ovlpInt s n1 n2
  obtain ⟨ra, ha, rb, hb, eA, eB, x, vA, vB⟩ := C49_one_electron (kd := ⟨false, false⟩) A B rfl (ovlp_eval (L := L) hpos) (le_refl 1) hli hlj
  obtain ⟨rc, hc, eC, vC⟩ := C21_overlap_exact hL hi hj hpos hkept (by omega) (by omega) A.hs A.M A.hsize A.O
  have hAC : ha = hc := by
    have e : some (ra, ha) = some (rc, hc) := eA.symm.trans eC
    simp only [Option.some.injEq, Prod.mk.injEq] at e
    exact e.2
  refine ⟨rb, hb, eB, fun ic jc i j h1 h2 h3 h4 => ⟨_, vB 0 ic jc i j Nat.zero_lt_one h1 h2 h3 h4, ?_⟩⟩
  rw [integral_jgto hpos, toC_spinor2]
  refine Finset.sum_congr rfl fun a ha' => Finset.sum_congr rfl fun b hb' => ?_
  have c1 := vA 0 ic jc a b Nat.zero_lt_one h1 h2 (Finset.mem_range.1 ha') (Finset.mem_range.1 hb')
  have c2 := vC ic jc a b h1 h2 (Finset.mem_range.1 ha') (Finset.mem_range.1 hb')
  rw [← hAC] at c2
  have c3 := Cell.val.inj (c1.symm.trans c2)
  rw [← c3]
  unfold spinMat scalar2
  simp only [Fintype.sum_bool, Bool.false_eq_true, if_false, Nat.zero_mul, Nat.zero_add, toC_ofR, toC_zero, one_mul, mul_zero, zero_mul,
    add_zero, zero_add]
  ring

/-- The wrappers int1e_*_spinor select the output function that belongs to the operator. -/
theorem spinor_kinds : (Auto.spinor1e.all fun x => Auto.all1e.all fun y => defs1e.all fun d =>
    !(decide (x.1 = y.1) && decide (x.1 = d.1)) || (decide (x.2.1.si = d.2.spin) && decide (x.2.1.ph = d.2.imag) &&
      decide (x.2.2.1 = if d.2.spin then 4 else 1) && decide (x.2.2.2 = d.2.ops.length) && decide (0 < d.2.ops.length) &&
      decide (y.2.nComp = x.2.2.1 * x.2.2.2))) = true := by decide +kernel

/-- **C43** every integral of the catalogue has a spinor variant -/
theorem C43_spinor_catalogue : Auto.spinor1e.map (·.1) = defs1e.map (·.1) := by decide +kernel

/-- **C43**, spinor output, no primitive pair screened: the integrals over two-component functions of the operator in the definition. -/
theorem C43_operators_spinor {name : String} {G : Gen1e} {D : Def1e} {kd : SpKind} {e1 nT : Nat} (hG : (name, G) ∈ Auto.all1e)
    (hD : (name, D) ∈ defs1e) (hS : (name, kd, e1, nT) ∈ Auto.spinor1e)
    {L : MathLib ℝ} {s : Call ℝ} {mi mj : Nat → ℝ} {O : Nat → ℝ} {ki kj : Int} (B : SpMem (G.int O) s nT ki kj) (hL : L.exp = Real.exp)
    (hi : MaxCoeff s.si mi) (hj : MaxCoeff s.sj mj)
    (hpos : ∀ ip jp, ip < s.si.nprim → jp < s.sj.nprim → 0 < s.si.a ip + s.sj.a jp)
    (hkept : ∀ ip jp, ip < s.si.nprim → jp < s.sj.nprim →
      Kept L s mi mj (s.si.l + G.ng.i + (s.sj.l + G.ng.j)) ip jp)
    (hli : s.si.l < 13) (hlj : s.sj.l < 13) :
    ∃ has h', SpEnds B kd e1 realK L has h' ∧ D.ops.length = nT ∧
      ∀ n ic jc i j (hn : n < D.ops.length), ic < s.si.nctr → jc < s.sj.nctr → i < lenSpinorC2S ki s.si.l → j < lenSpinorC2S kj s.sj.l →
        ∃ z : Cx ℝ, B.Elem h' n ic i jc j z ∧
          z.toC = ((D.num : ℂ) / (D.den : ℂ)) * ∑ a ∈ Finset.range (ncart s.si.l), ∑ b ∈ Finset.range (ncart s.sj.l),
            ∑ σ : Bool, ∑ τ : Bool, star ((spNorm s.si.l : ℂ) * (cjCoef ki s.si.l i σ a).toC) *
            Quat.mat (fun k => O k) (centre s.si) (centre s.sj)
              (cgto s.si.nprim s.si.a s.si.c (centre s.si) ic (powers s.si.l a))
              (cgto s.sj.nprim s.sj.a s.sj.c (centre s.sj) jc (powers s.sj.l b)) D.ops[n] σ τ *
            ((spNorm s.sj.l : ℂ) * (cjCoef kj s.sj.l j τ b).toC) := by
  have hc := List.all_eq_true.1 (List.all_eq_true.1 (List.all_eq_true.1 spinor_kinds _ hS) _ hG) _ hD
  simp only [decide_true, Bool.and_self, Bool.not_true, Bool.false_or, Bool.and_eq_true, decide_eq_true_eq] at hc
  obtain ⟨⟨⟨⟨⟨k1, k2⟩, k3⟩, k4⟩, k5⟩, k6⟩ := hc
  have n1 : 0 < s.si.nctr := B.hs.nctr_pos 0 (by omega)
  have n2 : 0 < s.sj.nctr := B.hs.nctr_pos 1 (by omega)
  obtain ⟨ws, hOK, hnum, hden, hd0, hnc, hcomp⟩ := matches_unfold (matches_of hG hD)
  let A := blankMem (G.int O) s n1 n2
  have AO := A.O
  have hnc' : (G.int O).nComp = D.out.length := hnc
  rw [hnc'] at AO
  have hn0 : (G.int O).nComp = (if kd.si then 4 else 1) * nT := by
    rw [k1, ← k3]; exact k6
  obtain ⟨ra, ha, rb, hb, eA, eB, x, vA, vB⟩ := C49_one_electron A B hn0 (gen_eval hOK (L := L) hpos) (by omega) hli hlj
  obtain ⟨rc, hc, eC, vC⟩ := C43_operators_exact hG hD (O := O) hL hi hj hpos hkept (by omega) (by omega) A.hs A.M A.hsize AO
  have hAC : ha = hc := by
    have e : some (ra, ha) = some (rc, hc) := eA.symm.trans eC
    simp only [Option.some.injEq, Prod.mk.injEq] at e
    exact e.2
  refine ⟨rb, hb, by rw [k3, ← k1]; exact eB, k4.symm, fun n ic jc i j hn h1 h2 h3 h4 => ⟨_, vB n ic jc i j (by omega) h1 h2 h3 h4, ?_⟩⟩
  rw [toC_spinor2, Finset.mul_sum]
  refine Finset.sum_congr rfl fun a ha' => ?_
  rw [Finset.mul_sum]
  refine Finset.sum_congr rfl fun b hb' => ?_
  have key := spinMat_out D (fun k => O k) (centre s.si) (centre s.sj)
    (cgto s.si.nprim s.si.a s.si.c (centre s.si) ic (powers s.si.l a))
    (cgto s.sj.nprim s.sj.a s.sj.c (centre s.sj) jc (powers s.sj.l b)) n hn
    (fun c => x (n * (if kd.si then 4 else 1) + c) ic a jc b) (((D.num : ℂ) / (D.den : ℂ)) * ((spNorm s.si.l * spNorm s.sj.l : ℝ) : ℂ))
    (fun c hc => by
      have hlt := out_index D hn hc
      have c1 := vA (n * (if D.spin then 4 else 1) + c) ic jc a b (by rw [hnc']; exact hlt) h1 h2 (Finset.mem_range.1 ha')
        (Finset.mem_range.1 hb')
      obtain ⟨v, c2, c3⟩ := vC (n * (if D.spin then 4 else 1) + c) ic jc a b hlt h1 h2 (Finset.mem_range.1 ha') (Finset.mem_range.1 hb')
      rw [← hAC] at c2
      have := Cell.val.inj (c1.symm.trans c2)
      rw [k1, this, c3])
  rw [k1, k2, Finset.mul_sum]
  refine Finset.sum_congr rfl fun σ _ => ?_
  rw [Finset.mul_sum]
  refine Finset.sum_congr rfl fun τ _ => ?_
  rw [k1] at key
  rw [key]
  simp only [star_mul, Complex.star_def, Complex.conj_ofReal]
  push_cast
  ring

/-! ### The hypotheses can be met -/
namespace SpinorDemo
open OvlpDemo

/-- the part of the tables that position `x` belongs to, among the first `n + 1` -/
def level (x : Nat) : Nat → Nat
  | 0 => 0
  | n+1 => if (cjLt.getD (n+1) none).getD 0 ≤ x then n+1 else level x n

theorem off_mono : ∀ n < 13, ∀ l < n, (cjLt.getD l none).getD 0 + (4*l+2)*(2*ncart l) ≤ (cjLt.getD n none).getD 0 := by decide +kernel

theorem level_eq {l x : Nat} (hx : x < (4*l+2)*(2*ncart l)) :
    ∀ n, l ≤ n → n < 13 → level ((cjLt.getD l none).getD 0 + x) n = l := by
  intro n
  induction n with
  | zero => intro hl _; unfold level; omega
  | succ n ih =>
    intro hl hn
    unfold level
    by_cases e : l = n+1
    · subst e; rw [if_pos (by omega)]
    · have := off_mono (n+1) hn l (by omega)
      rw [if_neg (by omega)]
      exact ih (by omega) (by omega)

/-- g_trans_cart2jR or g_trans_cart2jI as a flat array -/
noncomputable def flat (rows : List (List (List (Nat × Dec)))) (x : Nat) : ℝ :=
  rowCoef ((rows.getD (level x 12) []).getD ((x - (cjLt.getD (level x 12) none).getD 0) / (2*ncart (level x 12))) [])
    ((x - (cjLt.getD (level x 12) none).getD 0) % (2*ncart (level x 12)))

theorem flat_eq (rows : List (List (List (Nat × Dec)))) {l r x : Nat} (hl : l < 13) (hr : r < 4*l+2) (hx : x < 2*ncart l) :
    flat rows ((cjLt.getD l none).getD 0 + (r*(2*ncart l) + x)) = rowCoef ((rows.getD l []).getD r []) x := by
  unfold flat
  rw [level_eq (radix_lt hr hx) 12 (by omega) (by omega), Nat.add_sub_cancel_left, (digit hx).1, (digit hx).2]

/-- everything allocated; the tables in buffers 9 and 10 -/
noncomputable def memJ : Heap ℝ where
  D q := if q.buf = 9 then .val (flat cjRowsR q.off) else if q.buf = 10 then .val (flat cjRowsI q.off) else .undef
  I _ := .undef

theorem tabJ : HoldsJ memJ ⟨9, 0⟩ ⟨10, 0⟩ := by
  intro l hl r hr x hx
  constructor
  · show memJ.D ⟨9, 0 + ((cjLt.getD l none).getD 0 + (r*(2*ncart l) + x))⟩ = _
    rw [Nat.zero_add, ← flat_eq cjRowsR hl hr hx]
    rfl
  · show memJ.D ⟨10, 0 + ((cjLt.getD l none).getD 0 + (r*(2*ncart l) + x))⟩ = _
    rw [Nat.zero_add, ← flat_eq cjRowsI hl hr hx]
    rfl

noncomputable def spMem (X : Int1e ℝ) (s : Call ℝ) (nT : Nat) (ki kj : Int) (h1 : 0 < s.si.nctr) (h2 : 0 < s.sj.nctr)
    (h3 : 0 < lenSpinorC2S ki s.si.l) (h4 : 0 < lenSpinorC2S kj s.sj.l) : SpMem X s nT ki kj where
  fpd := 1
  buf := 0
  size := cacheSize1e X s
  fl := ⟨1, 0⟩
  loc := ⟨2, 0⟩
  counts := ⟨3, 0⟩
  out := ⟨5, 7⟩
  dims := none
  nd := fun t => two (lenSpinorC2S ki s.si.l) (lenSpinorC2S kj s.sj.l) t * two s.si.nctr s.sj.nctr t
  h := memJ
  tab := ⟨⟨9, 0⟩, ⟨10, 0⟩⟩
  hs := by
    refine ⟨Or.inl rfl, fun t _ => ?_, fun t _ => ?_, fun t a b => ?_, fun t _ => le_refl _⟩
    · unfold two; split
      · exact h3
      · split
        · exact h4
        · omega
    · unfold two; split
      · exact h1
      · split
        · exact h2
        · omega
    · unfold two; simp [show t ≠ 0 by omega, show t ≠ 1 by omega]
  M := ⟨by omega, fun k _ => by simp [memJ], fun k _ => by simp [memJ], fun k _ => by simp [memJ],
    fun k _ => by simp [memJ], fun k _ => by simp [memJ], by decide, by decide⟩
  hsize := le_refl _
  O := { h_dims := fun t _ => rfl
         h_dims2 := fun d hd => nomatch hd
         h_dbuf := fun d hd => nomatch hd
         h_out := fun m _ => by simp [memJ]
         h_obuf := by decide }
  T := ⟨tabJ, by decide, by decide, by decide, by decide⟩

/-- p with both j, d with j = 5/2 -/
noncomputable def ovlpMem : SpMem ovlpInt call 1 0 (-3) :=
  spMem ovlpInt call 1 0 (-3) (by decide) (by decide) (by decide) (by decide)

/-- the second contraction of the fourth p function with the first contraction of the last d function -/
example : ∃ has h', SpEnds ovlpMem ⟨false, false⟩ 1 realK lib has h' ∧ ∃ z : Cx ℝ, ovlpMem.Elem h' 0 1 3 0 5 z ∧
    z.toC = ∫ r, ∑ σ : Bool, star (jgto call.si 0 1 3 σ r) * jgto call.sj (-3) 0 5 σ r := by
  obtain ⟨has, h', h1, h2⟩ := C49_overlap (L := lib) ovlpMem rfl maxc.1 maxc.2
    (fun _ _ _ _ => by show (0:ℝ) < 1 + 1; norm_num) (fun ip jp _ _ => kept ip jp) (by decide) (by decide)
  exact ⟨has, h', h1, h2 1 0 3 5 (by decide) (by decide) (by decide) (by decide)⟩

/-- the same element from the Cartesian overlaps -/
example : ∃ ra ha rb hb, CartEnds (blankMem ovlpInt call (by decide) (by decide)) realK lib ra ha ∧
    SpEnds ovlpMem ⟨false, false⟩ 1 realK lib rb hb ∧ ∃ x : Nat → Nat → Nat → Nat → Nat → ℝ,
      ovlpMem.Elem hb 0 1 3 0 5 (spinor2 false false 0 (-3) 1 2 (fun c a b => Cx.ofR (x (0*1 + c) 1 a 0 b)) 3 5) := by
  obtain ⟨ra, ha, rb, hb, e1, e2, x, _, h2⟩ := C49_one_electron (kd := ⟨false, false⟩) (blankMem ovlpInt call (by decide) (by decide))
    ovlpMem rfl (ovlp_eval (L := lib) (fun _ _ _ _ => by show (0:ℝ) < 1 + 1; norm_num)) (le_refl 1) (by decide) (by decide)
  exact ⟨ra, ha, rb, hb, e1, e2, x, h2 0 1 0 3 5 (by decide) (by decide) (by decide) (by decide) (by decide)⟩

/-- int1e_spsigmasp_spinor: three tensor components, four numbers for each -/
noncomputable def spMem3 : SpMem (Auto.int1e_spsigmasp.int (fun _ => 0)) call 3 0 (-3) :=
  spMem _ call 3 0 (-3) (by decide) (by decide) (by decide) (by decide)

/-- its y component: `⟨σ·p f | σ_y σ·p g⟩` -/
example : ∃ has h', SpEnds spMem3 ⟨true, true⟩ 4 realK lib has h' ∧ ∃ z : Cx ℝ, spMem3.Elem h' 1 1 3 0 5 z := by
  obtain ⟨has, h', h1, hl, h2⟩ := C43_operators_spinor (name := "int1e_spsigmasp") (D := spsigmasp) (kd := ⟨true, true⟩) (e1 := 4)
    (by unfold Auto.all1e; simp) (by unfold defs1e; simp) (by unfold Auto.spinor1e; simp) (L := lib) spMem3 rfl maxc.1 maxc.2
    (fun _ _ _ _ => by show (0:ℝ) < 1 + 1; norm_num) (fun ip jp _ _ => OperDemo.kept' _ ip jp (by decide)) (by decide) (by decide)
  obtain ⟨z, hz, _⟩ := h2 1 1 0 3 5 (by rw [hl]; decide) (by decide) (by decide) (by decide) (by decide)
  exact ⟨has, h', h1, z, hz⟩

end SpinorDemo

end Verif.Props
