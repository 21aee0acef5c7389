import Verif.Lemmas.ZGridsDrv
import Verif.Props.Grids
import Verif.Props.Spinor

/-!
C49, C16, C17, C18, C31, C48 for the spinor output of integrals on a list of points.
-/
namespace Verif.Props
open Verif Verif.Model Verif.Prog Verif.Lemmas Verif.Spec MeasureTheory

section
variable {α : Type} [Field α] [LinearOrder α]

/-- Where and with what memory an integral on a list of points is called for spinor output; `nT` tensor components, `ki`, `kj` the
kappa of the shells, `tab` where the transformation tables are stored.  The cache has at least the queried size; `sh` is the address
of the cache modulo the alignment of the vector code. -/
structure SpMemG (X : IntG α) (s : CallG α) (nT : Nat) (ki kj : Int) where
  fpd : Nat
  sh : Nat
  buf : Nat
  size : Nat
  fl : Ptr
  loc : Ptr
  counts : Ptr
  loc2 : Ptr
  out : Ptr
  dims : Option Ptr
  nd : Nat → Nat
  h : Heap α
  tab : JTab
  hic : 1 ≤ s.si.nctr
  hjc : 1 ≤ s.sj.nctr
  hdi : 0 < lenSpinorC2S ki s.si.l
  hdj : 0 < lenSpinorC2S kj s.sj.l
  M : CallMem h fpd buf size fl loc counts
  hsize : cacheSizeGrids X s ≤ size
  O : GOutArgZ h nd (three (lenSpinorC2S ki s.si.l*s.si.nctr) (lenSpinorC2S kj s.sj.l*s.sj.nctr) s.ngrids) nT out dims buf
    fl loc counts loc2
  T : TabArg h tab buf out

/-- the complex elements of the output array that belong to the call -/
def SpMemG.In {X : IntG α} {s : CallG α} {nT : Nat} {ki kj : Int} (A : SpMemG X s nT ki kj) (m : Nat) : Prop :=
  InGridBlock A.nd (three (lenSpinorC2S ki s.si.l*s.si.nctr) (lenSpinorC2S kj s.sj.l*s.sj.nctr) s.ngrids) nT m

/-- the output array holds the complex number `z` for component `n`, point `g`, function `i` of contraction `ic` of the first shell,
function `j` of contraction `jc` of the second -/
def SpMemG.Elem {X : IntG α} {s : CallG α} {nT : Nat} {ki kj : Int} (A : SpMemG X s nT ki kj) (h' : Heap α) (n g ic i jc j : Nat)
    (z : Cx α) : Prop :=
  HoldsC h' A.out (gridAt A.nd n g (ic*lenSpinorC2S ki s.si.l+i) (jc*lenSpinorC2S kj s.sj.l+j)) z

/-- the call with output function `kd` returns `has` and ends with memory `h'` -/
def SpEndsG {X : IntG α} {s : CallG α} {nT : Nat} {ki kj : Int} (A : SpMemG X s nT ki kj) (kd : SpKind) (e1 : Nat) (R : Rys2 α)
    (K : Consts α) (L : MathLib α) (has : Bool) (h' : Heap α) : Prop :=
  run (drvGridsSp X s R K L e1 nT kd A.tab ki kj A.fpd A.sh A.out A.dims A.buf 0 A.fl A.loc A.counts A.loc2) A.h = some (has, h')

variable {R : Rys2 α} {K : Consts α} {L : MathLib α} {X : IntG α} {s : CallG α} {w : Nat → Nat → (Nat → α) → Nat → α} {nT : Nat}
  {ki kj : Int} {kd : SpKind}

/-- **C49**, integrals on a list of points: at every point the spinor integrals are the Cartesian integrals (of the scalar, or of the
four components of an operator with spin) transformed with the tables of both shells.  The memory of the two calls need not have
anything in common. -/
theorem C49_grids (A : CartMemG X s) (B : SpMemG X s nT ki kj) (hn : X.nComp = (if kd.si then 4 else 1) * nT) (hK : EvalG R K L X s w)
    (hnT : 1 ≤ nT) (hli : s.si.l < 13) (hlj : s.sj.l < 13) :
    ∃ ra ha rb hb, CartEndsG A R K L ra ha ∧ SpEndsG B kd (if kd.si then 4 else 1) R K L rb hb ∧
      ∃ x : Nat → Nat → Nat → Nat → Nat → Nat → α,
        (∀ n g ic jc a b, n < X.nComp → g < s.ngrids → ic < s.si.nctr → jc < s.sj.nctr → a < ncart s.si.l → b < ncart s.sj.l →
          A.elem ha n g ic a jc b = .val (x n g ic a jc b)) ∧
        (∀ n g ic jc i j, n < nT → g < s.ngrids → ic < s.si.nctr → jc < s.sj.nctr → i < lenSpinorC2S ki s.si.l →
          j < lenSpinorC2S kj s.sj.l →
          B.Elem hb n g ic i jc j (spinor2 kd.si kd.ph ki kj s.si.l s.sj.l
            (fun c a b => Cx.ofR (x (n * (if kd.si then 4 else 1) + c) g ic a jc b)) i j)) := by
  have hnc : 1 ≤ X.nComp := by
    rw [hn]
    refine Nat.mul_pos ?_ hnT
    split <;> omega
  obtain ⟨ra, ha, r1, v1, _⟩ := drvGrids_cart (sh := A.sh) A.M A.hsize A.O hK A.hic A.hjc hnc (by omega) (by omega)
  obtain ⟨rb, hb, r2, v2, _⟩ := drvGridsSp_run (sh := B.sh) (kd := kd) B.M B.hsize B.O B.T hn hK B.hic B.hjc hnT hli hlj B.hdi B.hdj
  exact ⟨ra, ha, rb, hb, r1, r2, fun n g ic a jc b => gridVal K L X s w (s.grid g) n ic jc (b*ncart s.si.l+a),
    fun n g ic jc a b a1 a2 a3 a4 a5 a6 => v1 n g ic jc a b a1 a2 a3 a4 a5 a6,
    fun n g ic jc i j a1 a2 a3 a4 a5 a6 => v2 n g ic jc i j a1 a2 a3 a4 a5 a6⟩

/-- **C16**, integrals on a list of points with spinor output: with a cache of (at least) the queried size the call completes without
undefined behaviour, whatever the cache and the output array contain. -/
theorem C16_grids_spinor (B : SpMemG X s nT ki kj) (hn : X.nComp = (if kd.si then 4 else 1) * nT) (hK : EvalG R K L X s w)
    (hnT : 1 ≤ nT) (hli : s.si.l < 13) (hlj : s.sj.l < 13) : ∃ has h', SpEndsG B kd (if kd.si then 4 else 1) R K L has h' := by
  obtain ⟨rb, hb, r2, _⟩ := drvGridsSp_run (sh := B.sh) (kd := kd) B.M B.hsize B.O B.T hn hK B.hic B.hjc hnT hli hlj B.hdi B.hdj
  exact ⟨rb, hb, r2⟩

/-- **C18**, integrals on a list of points with spinor output: when 0 is returned the block is zero; in any case every element of the
block is overwritten, no double outside the block and the cache changes, and the new contents do not depend on the contents of memory
(`B` and `B'` differ in nothing but the memory). -/
theorem C18_grids_spinor (B : SpMemG X s nT ki kj) (hn : X.nComp = (if kd.si then 4 else 1) * nT) (hK : EvalG R K L X s w)
    (hnT : 1 ≤ nT) (hli : s.si.l < 13) (hlj : s.sj.l < 13) :
    ∃ v : Nat → α, ∀ B' : SpMemG X s nT ki kj, B'.nd = B.nd →
      ∃ has h', SpEndsG B' kd (if kd.si then 4 else 1) R K L has h' ∧
        (∀ m, B.In (m/2) → h'.D (B'.out + m) = .val (v m)) ∧
        (has = false → ∀ m, B.In (m/2) → v m = 0) ∧
        (∀ q, q.buf ≠ B'.buf → (∀ m, B.In (m/2) → q ≠ B'.out + m) → h'.D q = B'.h.D q) := by
  obtain ⟨r0, h0, _, v0, _⟩ := drvGridsSp_run (sh := B.sh) (kd := kd) B.M B.hsize B.O B.T hn hK B.hic B.hjc hnT hli hlj B.hdi B.hdj
  refine ⟨fun m => match h0.D (B.out + m) with | .val x => x | _ => 0, fun B' hn' => ?_⟩
  obtain ⟨r1, h1, e1, v1, z1, f1, _⟩ := drvGridsSp_run (sh := B'.sh) (kd := kd) B'.M B'.hsize B'.O B'.T hn hK B'.hic B'.hjc hnT hli hlj
    B'.hdi B'.hdj
  rw [hn'] at v1 z1 f1
  have hv : ∀ m, B.In (m/2) → h1.D (B'.out + m) = .val (match h0.D (B.out + m) with | .val x => x | _ => 0) := by
    intro m hm
    obtain ⟨n, g, ic, jc, i, j, a1, a2, a3, a4, a5, a6, e⟩ := inGrid_digits B.hdi B.hdj hm
    have b1 := v1 n g ic jc i j a1 a2 a3 a4 a5 a6
    have b0 := v0 n g ic jc i j a1 a2 a3 a4 a5 a6
    unfold HoldsC at b0 b1
    rw [← e] at b0 b1
    rcases Nat.mod_two_eq_zero_or_one m with h2 | h2
    · rw [show m = 2*(m/2) by omega, b0.1, b1.1]
    · rw [show m = 2*(m/2)+1 by omega, b0.2, b1.2]
  exact ⟨r1, h1, e1, hv, fun hf m hm => Cell.val.inj ((hv m hm).symm.trans (z1 hf m hm)), f1⟩

/-- **C17**, integrals on a list of points with spinor output: the caller's dims move the numbers but do not change them.  The calls
need not have anything but the integral and kappa in common. -/
theorem C17_grids_spinor (A B : SpMemG X s nT ki kj) (hn : X.nComp = (if kd.si then 4 else 1) * nT) (hK : EvalG R K L X s w)
    (hnT : 1 ≤ nT) (hli : s.si.l < 13) (hlj : s.sj.l < 13) :
    ∃ has ha hb, SpEndsG A kd (if kd.si then 4 else 1) R K L has ha ∧ SpEndsG B kd (if kd.si then 4 else 1) R K L has hb ∧
      ∀ n g ic jc i j, n < nT → g < s.ngrids → ic < s.si.nctr → jc < s.sj.nctr → i < lenSpinorC2S ki s.si.l →
        j < lenSpinorC2S kj s.sj.l → ∃ z, A.Elem ha n g ic i jc j z ∧ B.Elem hb n g ic i jc j z := by
  obtain ⟨r0, h0, e0, v0, _, _, _, t0⟩ := drvGridsSp_run (sh := A.sh) (kd := kd) A.M A.hsize A.O A.T hn hK A.hic A.hjc hnT hli hlj
    A.hdi A.hdj
  obtain ⟨r1, h1, e1, v1, _, _, _, t1⟩ := drvGridsSp_run (sh := B.sh) (kd := kd) B.M B.hsize B.O B.T hn hK B.hic B.hjc hnT hli hlj
    B.hdi B.hdj
  have hr : r0 = r1 := by rw [Bool.eq_iff_iff, t0, t1]
  subst hr
  exact ⟨r0, h0, h1, e0, e1, fun n g ic jc i j a1 a2 a3 a4 a5 a6 =>
    ⟨_, v0 n g ic jc i j a1 a2 a3 a4 a5 a6, v1 n g ic jc i j a1 a2 a3 a4 a5 a6⟩⟩

/-- **C31** int1e_grids_spinor: there is one function of the coordinates of a point, `F`, such that for every list of points, of any
length, the element for point `g` of the list is `F` of the coordinates of point `g`. -/
theorem C31_grids_spinor (R : Rys2 α) (K : Consts α) (L : MathLib α) (s : CallG α) (ki kj : Int) (hli : s.si.l < 13)
    (hlj : s.sj.l < 13) :
    ∃ F : (Fin 3 → α) → Nat → Nat → Nat → Nat → Cx α, ∀ n p, ∀ A : SpMemG gridsInt (onPoints s n p) 1 ki kj,
      ∃ has h', SpEndsG A ⟨false, false⟩ 1 R K L has h' ∧
        ∀ g ic jc i j, g < n → ic < s.si.nctr → jc < s.sj.nctr → i < lenSpinorC2S ki s.si.l → j < lenSpinorC2S kj s.sj.l →
          A.Elem h' 0 g ic i jc j (F (fun c => p g c) ic i jc j) := by
  refine ⟨fun r ic i jc j => spinor2 false false ki kj s.si.l s.sj.l (fun c a b => Cx.ofR (gridVal K L gridsInt s (gridPrim R K L s)
    (fun c => if h : c < 3 then r ⟨c, h⟩ else 0) (0*1+c) ic jc (b*ncart s.si.l+a))) i j, fun n p A => ?_⟩
  obtain ⟨has, h', hr, hv, _⟩ := drvGridsSp_run (sh := A.sh) (kd := ⟨false, false⟩) A.M A.hsize A.O A.T rfl
    (evalG_grids R K L (onPoints s n p)) A.hic A.hjc (le_refl 1) hli hlj A.hdi A.hdj
  refine ⟨has, h', hr, fun g ic jc i j a1 a2 a3 a4 a5 => ?_⟩
  have h0 := hv 0 g ic jc i j Nat.zero_lt_one a1 a2 a3 a4 a5
  have e : ∀ c a b, gridVal K L gridsInt s (gridPrim R K L s) (p g) (0*1+c) ic jc (b*ncart s.si.l+a) =
      gridVal K L gridsInt s (gridPrim R K L s) (fun c => if h : c < 3 then p g c else 0) (0*1+c) ic jc (b*ncart s.si.l+a) :=
    fun c a b => gridVal_congr (fun c hc => by rw [dif_pos hc]) _ ic jc _
  have h1 : A.Elem h' 0 g ic i jc j (spinor2 false false ki kj s.si.l s.sj.l (fun c a b => Cx.ofR
    (gridVal K L gridsInt s (gridPrim R K L s) (p g) (0*1+c) ic jc (b*ncart s.si.l+a))) i j) := h0
  simp only [e] at h1
  exact h1
end

/-- matrix elements of a potential between spinor functions -/
theorem integralV_jgto {V : (Fin 3 → ℝ) → ℝ} {si sj : PShell ℝ}
    (h : ∀ ip jp n m, ip < si.nprim → jp < sj.nprim → Integrable fun r => gto (si.a ip) (centre si) n r * V r *
      gto (sj.a jp) (centre sj) m r)
    (ki kj : Int) (ic jc i j : Nat) : (∫ r, ∑ s : Bool, star (jgto si ki ic i s r) * (V r : ℂ) * jgto sj kj jc j s r) =
      ∑ a ∈ Finset.range (ncart si.l), ∑ b ∈ Finset.range (ncart sj.l), ∑ s : Bool,
        star (cjCoef ki si.l i s a : Cx ℝ).toC * (cjCoef kj sj.l j s b : Cx ℝ).toC *
        ((spNorm si.l * spNorm sj.l * braketV V (cgto si.nprim si.a si.c (centre si) ic (powers si.l a))
          (cgto sj.nprim sj.a sj.c (centre sj) jc (powers sj.l b)) : ℝ) : ℂ) := by
  have hint : ∀ a b, Integrable fun r => ((cgto si.nprim si.a si.c (centre si) ic (powers si.l a) r * V r *
      cgto sj.nprim sj.a sj.c (centre sj) jc (powers sj.l b) r : ℝ) : ℂ) := fun a b => (integrable_cgtoV h ic jc _ _).ofReal
  have e1 : ∀ r, ∑ s : Bool, star (jgto si ki ic i s r) * (V r : ℂ) * jgto sj kj jc j s r =
      ∑ a ∈ Finset.range (ncart si.l), ∑ b ∈ Finset.range (ncart sj.l), ∑ s : Bool,
        (star (cjCoef ki si.l i s a : Cx ℝ).toC * (cjCoef kj sj.l j s b : Cx ℝ).toC * ((spNorm si.l * spNorm sj.l : ℝ) : ℂ)) *
        ((cgto si.nprim si.a si.c (centre si) ic (powers si.l a) r * V r *
          cgto sj.nprim sj.a sj.c (centre sj) jc (powers sj.l b) r : ℝ) : ℂ) := by
    intro r
    unfold jgto
    simp only [star_sum, Finset.sum_mul, Finset.mul_sum]
    rw [Finset.sum_comm]
    rw [Finset.sum_congr rfl fun b _ => Finset.sum_comm]
    rw [Finset.sum_comm]
    refine Finset.sum_congr rfl fun a _ => Finset.sum_congr rfl fun b _ => Finset.sum_congr rfl fun s _ => ?_
    simp only [star_mul, Complex.star_def, Complex.conj_ofReal]
    push_cast
    ring
  simp only [e1]
  rw [integral_finset_sum _ (fun a _ => integrable_finset_sum _ fun b _ => integrable_finset_sum _ fun s _ => (hint a b).const_mul _)]
  refine Finset.sum_congr rfl fun a _ => ?_
  rw [integral_finset_sum _ (fun b _ => integrable_finset_sum _ fun s _ => (hint a b).const_mul _)]
  refine Finset.sum_congr rfl fun b _ => ?_
  rw [integral_finset_sum _ (fun s _ => (hint a b).const_mul _)]
  refine Finset.sum_congr rfl fun s _ => ?_
  rw [integral_const_mul, integral_complex_ofReal]
  unfold braketV
  push_cast
  ring

/-- the scalar transformation of numbers that are matrix elements of a potential -/
theorem spinor2_braketV {V : (Fin 3 → ℝ) → ℝ} {si sj : PShell ℝ}
    (h : ∀ ip jp n m, ip < si.nprim → jp < sj.nprim → Integrable fun r => gto (si.a ip) (centre si) n r * V r *
      gto (sj.a jp) (centre sj) m r)
    {ki kj : Int} {ic jc i j : Nat} {x : Nat → Nat → Nat → ℝ}
    (hx : ∀ a b, a < ncart si.l → b < ncart sj.l → x 0 a b = spNorm si.l * spNorm sj.l * braketV V (cfun si ic a) (cfun sj jc b)) :
    (spinor2 false false ki kj si.l sj.l (fun c a b => Cx.ofR (x c a b)) i j).toC =
      ∫ r, ∑ s : Bool, star (jgto si ki ic i s r) * (V r : ℂ) * jgto sj kj jc j s r := by
  rw [integralV_jgto h, toC_spinor2]
  refine Finset.sum_congr rfl fun a ha => Finset.sum_congr rfl fun b hb => ?_
  have := hx a b (Finset.mem_range.1 ha) (Finset.mem_range.1 hb)
  unfold cfun at this
  rw [← this]
  unfold spinMat scalar2
  simp only [Fintype.sum_bool, Bool.false_eq_true, if_false, toC_ofR, toC_zero, one_mul, mul_zero, zero_mul, add_zero, zero_add]
  ring

/-- **C48** int1e_grids_spinor, nothing screened: exactly the matrix element of the potential of the charge at the point between the
two-component functions. -/
theorem C48_grids_two_component {L : MathLib ℝ} {s : CallG ℝ} {R : Rys2 ℝ} {mi mj : Nat → ℝ} {ki kj : Int}
    (B : SpMemG gridsInt s 1 ki kj) (hL : L.exp = Real.exp) (hi : MaxCoeff s.si mi) (hj : MaxCoeff s.sj mj) (hk : AllKeptG L s mi mj)
    (hpos : ∀ ip jp, ip < s.si.nprim → jp < s.sj.nprim → 0 < s.si.a ip + s.sj.a jp)
    (hz : 0 ≤ s.zeta) (hR : RootsOKG R s) (hli : s.si.l < 13) (hlj : s.sj.l < 13) :
    ∃ has h', SpEndsG B ⟨false, false⟩ 1 R realK L has h' ∧
      ∀ g ic jc i j, g < s.ngrids → ic < s.si.nctr → jc < s.sj.nctr → i < lenSpinorC2S ki s.si.l → j < lenSpinorC2S kj s.sj.l →
        ∃ z : Cx ℝ, B.Elem h' 0 g ic i jc j z ∧
          z.toC = ∫ r, ∑ σ : Bool, star (jgto s.si ki ic i σ r) * (gridPotential s.omega s.zeta (s.point g) r : ℂ) *
            jgto s.sj kj jc j σ r := by
  let A := blankMemG gridsInt s B.hic B.hjc
  obtain ⟨ra, ha, rb, hb, eA, eB, x, vA, vB⟩ := C49_grids (kd := ⟨false, false⟩) A B rfl (evalG_grids R realK L s) (le_refl 1) hli hlj
  obtain ⟨rc, hc, eC, vC⟩ := C48_grids_exact A hL hi hj hk hpos hz hR (by omega) (by omega)
  have hAC : ha = hc := by
    have e : some (ra, ha) = some (rc, hc) := eA.symm.trans eC
    simp only [Option.some.injEq, Prod.mk.injEq] at e
    exact e.2
  refine ⟨rb, hb, eB, fun g ic jc i j a1 a2 a3 a4 a5 => ⟨_, vB 0 g ic jc i j Nat.zero_lt_one a1 a2 a3 a4 a5, ?_⟩⟩
  refine spinor2_braketV (x := fun c a b => x (0*1+c) g ic a jc b) (fun ip jp n m hip hjp =>
    integrable_gto_grid (hpos ip jp hip hjp) _ _ n m hz _) fun a b h1 h2 => ?_
  have c1 := vA 0 g ic jc a b Nat.zero_lt_one a1 a2 a3 h1 h2
  have c2 := vC g ic jc a b a1 a2 a3 h1 h2
  rw [← hAC] at c2
  exact Cell.val.inj (c1.symm.trans c2)

/-! ### The hypotheses can be met -/
namespace GridsSpinorDemo
open OvlpDemo EriDemo GridsDemo SpinorDemo

/-- p with both j, d with j = 5/2; the caller's array has 300 places for the points and two rows more than needed -/
noncomputable def spG (o : ℝ) : SpMemG gridsInt (callG o) 1 0 (-3) where
  fpd := 1
  sh := 5
  buf := 0
  size := cacheSizeGrids gridsInt (callG o) + 9
  fl := ⟨1, 0⟩
  loc := ⟨2, 0⟩
  counts := ⟨3, 0⟩
  loc2 := ⟨4, 0⟩
  out := ⟨5, 7⟩
  dims := some ⟨6, 0⟩
  nd := three 14 12 300
  h := { memJ with I := fun q => if q.buf = 6 then .val (three 14 12 300 q.off) else .undef }
  tab := ⟨⟨9, 0⟩, ⟨10, 0⟩⟩
  hic := by show 1 ≤ 2; omega
  hjc := by show 1 ≤ 2; omega
  hdi := by show 0 < lenSpinorC2S 0 1; decide
  hdj := by show 0 < lenSpinorC2S (-3) 2; decide
  M := ⟨by omega, fun k _ => by simp [memJ], fun k _ => by simp, fun k _ => by simp,
    fun k _ => by simp, fun k _ => by simp, by decide, by decide⟩
  hsize := Nat.le_add_right _ _
  O := { h_dims := ⟨fun t _ => by simp, by decide⟩
         h_dims3 := fun d hd => by cases hd; exact ⟨1, by simp [three]⟩
         h_dbuf := fun d hd => by cases hd; decide
         fits := by
           show lenSpinorC2S 0 1*2 ≤ 14 ∧ lenSpinorC2S (-3) 2*2 ≤ 12 ∧ 250 ≤ 300
           decide
         h_out := fun m _ => by simp [memJ]
         h_obuf := by decide
         l2 := fun t _ => by simp
         l2c := by decide }
  T := ⟨tabJ, by decide, by decide, by decide, by decide⟩

/-- the short-range potential of a Gaussian charge at the 221st point -/
example : ∃ R has h', SpEndsG (spG (-(1/2))) ⟨false, false⟩ 1 R realK lib has h' ∧ ∃ z : Cx ℝ,
    (spG (-(1/2))).Elem h' 0 220 1 3 0 5 z ∧
    z.toC = ∫ r, ∑ σ : Bool, star (jgto OvlpDemo.call.si 0 1 3 σ r) *
      (gridPotential (-(1/2)) 3 ((callG (-(1/2))).point 220) r : ℂ) * jgto OvlpDemo.call.sj (-3) 0 5 σ r := by
  obtain ⟨R, hR⟩ := exists_rys2
  obtain ⟨has, h', h1, h2⟩ := C48_grids_two_component (R := R) (spG (-(1/2))) (L := lib) rfl (maxG _).1 (maxG _).2
    (allKeptG _ (Or.inr rfl)) (callG_pos _) (by show (0:ℝ) ≤ 3; norm_num) (hR _) (by decide) (by decide)
  exact ⟨R, has, h', h1, h2 220 1 0 3 5 (by show 220 < 250; omega) (by show 1 < 2; omega) (by show 0 < 2; omega)
    (by show 3 < lenSpinorC2S 0 1; decide) (by show 5 < lenSpinorC2S (-3) 2; decide)⟩

/-- any root finder: the call completes; every element is overwritten -/
example (R : Rys2 ℝ) : ∃ has h', SpEndsG (spG 0) ⟨false, false⟩ 1 R realK lib has h' ∧ ∃ x, h'.D ((spG 0).out + 1) = .val x := by
  obtain ⟨v, hv⟩ := C18_grids_spinor (R := R) (K := realK) (L := lib) (kd := ⟨false, false⟩) (spG 0) rfl (evalG_grids R realK lib _)
    (le_refl 1) (by decide) (by decide)
  obtain ⟨has, h', h1, h2, _⟩ := hv (spG 0) rfl
  refine ⟨has, h', h1, v 1, h2 1 ⟨0, 0, 0, 0, Nat.zero_lt_one, ?_, ?_, ?_, ?_⟩⟩
  · show 0 < 250; omega
  · show 0 < lenSpinorC2S 0 1*2; decide
  · show 0 < lenSpinorC2S (-3) 2*2; decide
  · simp [gridAt]

end GridsSpinorDemo

end Verif.Props
