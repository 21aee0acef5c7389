import Verif.Lemmas.GridsTrans
import Verif.Lemmas.GridsVal
import Verif.Props.EriExact

/-!
C31 — integrals on a list of points: each point once, at its position, whatever the list and its blocks.
C16 — the queried cache size suffices (integrals on a list of points).
C17, C18, C19, C38 for the integrals on a list of points.
C48 — the values of int1e_grids.
-/
namespace Verif.Props
open Verif Verif.Model Verif.Prog Verif.Lemmas Verif.Spec MeasureTheory

section
variable {α : Type} [Field α] [LinearOrder α]

/-- Where and with what memory an integral on a list of points is called: `d0` and `d1` functions per contraction of the shells.
The cache has at least the queried size; `sh` is the address of the cache modulo the alignment of the vector code. -/
structure MemG (X : IntG α) (s : CallG α) (d0 d1 : Nat) where
  fpd : Nat
  sh : Nat
  buf : Nat
  size : Nat
  fl : Ptr
  loc : Ptr
  counts : Ptr
  loc2 : Ptr
  out : Ptr
  dims : Option Ptr
  nd : Nat → Nat
  h : Heap α
  hic : 1 ≤ s.si.nctr
  hjc : 1 ≤ s.sj.nctr
  M : CallMem h fpd buf size fl loc counts
  hsize : cacheSizeGrids X s ≤ size
  O : GOutArg h nd (three (d0*s.si.nctr) (d1*s.sj.nctr) s.ngrids) X.nComp out dims buf fl loc counts loc2

/-- content of the output array: component `n`, point `g`, function `i` of contraction `ic` of the first shell, function `j` of
contraction `jc` of the second -/
def MemG.elem {X : IntG α} {s : CallG α} {d0 d1 : Nat} (A : MemG X s d0 d1) (h' : Heap α) (n g ic i jc j : Nat) : Cell α :=
  h'.D (A.out + gridAt A.nd n g (ic*d0+i) (jc*d1+j))

/-- the elements of the output array that belong to the call -/
def MemG.InBlock {X : IntG α} {s : CallG α} {d0 d1 : Nat} (A : MemG X s d0 d1) (m : Nat) : Prop :=
  InGridBlock A.nd (three (d0*s.si.nctr) (d1*s.sj.nctr) s.ngrids) X.nComp m

/-- memory of a call with Cartesian output -/
abbrev CartMemG (X : IntG α) (s : CallG α) := MemG X s (ncart s.si.l) (ncart s.sj.l)

/-- memory of a call with spherical output; the transformation table is stored at `tab` -/
structure SphMemG (X : IntG α) (s : CallG α) extends MemG X s (s.si.l*2+1) (s.sj.l*2+1) where
  tab : Ptr
  hT : HoldsTab h tab
  htb : tab.buf ≠ buf
  hto : out.buf ≠ tab.buf

/-- the Cartesian call returns `has` and ends with memory `h'` -/
def CartEndsG {X : IntG α} {s : CallG α} (A : CartMemG X s) (R : Rys2 α) (K : Consts α) (L : MathLib α)
    (has : Bool) (h' : Heap α) : Prop :=
  run (drvGrids X s R K L A.fpd A.sh (fun _ _ _ => pure) (two (ncart s.si.l) (ncart s.sj.l)) A.out A.dims A.buf 0 A.fl A.loc
    A.counts A.loc2) A.h = some (has, h')

/-- the spherical call returns `has` and ends with memory `h'` -/
def SphEndsG {X : IntG α} {s : CallG α} (B : SphMemG X s) (R : Rys2 α) (K : Consts α) (L : MathLib α)
    (has : Bool) (h' : Heap α) : Prop :=
  run (drvGrids X s R K L B.fpd B.sh (sphTransGrids B.tab B.fpd B.sh s.si.l s.sj.l) (two (s.si.l*2+1) (s.sj.l*2+1)) B.out B.dims
    B.buf 0 B.fl B.loc B.counts B.loc2) B.h = some (has, h')

variable {R : Rys2 α} {K : Consts α} {L : MathLib α} {X : IntG α} {s : CallG α} {w : Nat → Nat → (Nat → α) → Nat → α}

/-- **C16**, integrals on a list of points with Cartesian output: with a cache of (at least) the queried size the call completes
without undefined behaviour, whatever the cache and the output array contain. -/
theorem C16_grids_cart (A : CartMemG X s) (hK : EvalG R K L X s w) (hnc : 1 ≤ X.nComp) (hli : s.si.l ≤ 15) (hlj : s.sj.l ≤ 15) :
    ∃ has h', CartEndsG A R K L has h' := by
  obtain ⟨has, h', hr, _⟩ := drvGrids_cart A.M A.hsize A.O hK A.hic A.hjc hnc hli hlj
  exact ⟨has, h', hr⟩

/-- **C16**, integrals on a list of points with spherical output. -/
theorem C16_grids_sph (B : SphMemG X s) (hK : EvalG R K L X s w) (hnc : 1 ≤ X.nComp) (hli : s.si.l ≤ 15) (hlj : s.sj.l ≤ 15) :
    ∃ has h', SphEndsG B R K L has h' := by
  obtain ⟨has, h', hr, _⟩ := drvGrids_sph B.M B.hsize B.O B.hT B.htb B.hto hK B.hic B.hjc hnc hli hlj
  exact ⟨has, h', hr⟩

theorem inGrid_digits {nd : Nat → Nat} {d0 d1 c0 c1 ng nc m : Nat} (h0 : 0 < d0) (h1 : 0 < d1)
    (h : InGridBlock nd (three (d0*c0) (d1*c1) ng) nc m) :
    ∃ n g ic jc i j, n < nc ∧ g < ng ∧ ic < c0 ∧ jc < c1 ∧ i < d0 ∧ j < d1 ∧ m = gridAt nd n g (ic*d0+i) (jc*d1+j) := by
  obtain ⟨n, g, I, J, a1, a2, a3, a4, rfl⟩ := h
  have a2 : g < ng := a2
  have a3 : I < d0*c0 := a3
  have a4 : J < d1*c1 := a4
  refine ⟨n, g, I/d0, J/d1, I%d0, J%d1, a1, a2, Nat.div_lt_of_lt_mul a3, Nat.div_lt_of_lt_mul a4, Nat.mod_lt _ h0,
    Nat.mod_lt _ h1, ?_⟩
  rw [Nat.mul_comm _ d0, Nat.mul_comm _ d1, Nat.div_add_mod, Nat.div_add_mod]

/-- **C18**, integrals on a list of points with Cartesian output: when 0 is returned the block is zero; in any case every element
of the block is overwritten, no double outside the block and the cache changes, and the new contents do not depend on the contents
of memory (`A` and `A'` differ in nothing but the memory). -/
theorem C18_grids_cart (A : CartMemG X s) (hK : EvalG R K L X s w) (hnc : 1 ≤ X.nComp) (hli : s.si.l ≤ 15) (hlj : s.sj.l ≤ 15) :
    ∃ v : Nat → α, ∀ A' : CartMemG X s, A'.nd = A.nd →
      ∃ has h', CartEndsG A' R K L has h' ∧
        (∀ m, A.InBlock m → h'.D (A'.out + m) = .val (v m)) ∧
        (has = false → ∀ m, A.InBlock m → v m = 0) ∧
        (∀ q, q.buf ≠ A'.buf → (∀ m, A.InBlock m → q ≠ A'.out + m) → h'.D q = A'.h.D q) := by
  obtain ⟨r0, h0, _, v0, _⟩ := drvGrids_cart (sh := A.sh) A.M A.hsize A.O hK A.hic A.hjc hnc hli hlj
  refine ⟨fun m => match h0.D (A.out + m) with | .val x => x | _ => 0, fun B hn => ?_⟩
  obtain ⟨r1, h1, e1, v1, z1, f1, _⟩ := drvGrids_cart (sh := B.sh) B.M B.hsize B.O hK B.hic B.hjc hnc hli hlj
  rw [hn] at v1 z1 f1
  have hv : ∀ m, A.InBlock m → h1.D (B.out + m) = .val (match h0.D (A.out + m) with | .val x => x | _ => 0) := by
    intro m hm
    obtain ⟨n, g, ic, jc, i, j, a1, a2, a3, a4, a5, a6, rfl⟩ := inGrid_digits (ncart_pos _) (ncart_pos _) hm
    rw [v1 n g ic jc i j a1 a2 a3 a4 a5 a6, v0 n g ic jc i j a1 a2 a3 a4 a5 a6]
  exact ⟨r1, h1, e1, hv, fun hf m hm => Cell.val.inj ((hv m hm).symm.trans (z1 hf m hm)), f1⟩

/-- **C18**, integrals on a list of points with spherical output. -/
theorem C18_grids_sph (A : SphMemG X s) (hK : EvalG R K L X s w) (hnc : 1 ≤ X.nComp) (hli : s.si.l ≤ 15) (hlj : s.sj.l ≤ 15) :
    ∃ v : Nat → α, ∀ A' : SphMemG X s, A'.nd = A.nd →
      ∃ has h', SphEndsG A' R K L has h' ∧
        (∀ m, A.InBlock m → h'.D (A'.out + m) = .val (v m)) ∧
        (has = false → ∀ m, A.InBlock m → v m = 0) ∧
        (∀ q, q.buf ≠ A'.buf → (∀ m, A.InBlock m → q ≠ A'.out + m) → h'.D q = A'.h.D q) := by
  obtain ⟨r0, h0, _, v0, _⟩ := drvGrids_sph (sh := A.sh) A.M A.hsize A.O A.hT A.htb A.hto hK A.hic A.hjc hnc hli hlj
  refine ⟨fun m => match h0.D (A.out + m) with | .val x => x | _ => 0, fun B hn => ?_⟩
  obtain ⟨r1, h1, e1, v1, z1, f1, _⟩ := drvGrids_sph (sh := B.sh) B.M B.hsize B.O B.hT B.htb B.hto hK B.hic B.hjc hnc hli hlj
  rw [hn] at v1 z1 f1
  have hv : ∀ m, A.InBlock m → h1.D (B.out + m) = .val (match h0.D (A.out + m) with | .val x => x | _ => 0) := by
    intro m hm
    obtain ⟨n, g, ic, jc, i, j, a1, a2, a3, a4, a5, a6, rfl⟩ := inGrid_digits (Nat.succ_pos _) (Nat.succ_pos _) hm
    rw [v1 n g ic jc i j a1 a2 a3 a4 a5 a6, v0 n g ic jc i j a1 a2 a3 a4 a5 a6]
  exact ⟨r1, h1, e1, hv, fun hf m hm => Cell.val.inj ((hv m hm).symm.trans (z1 hf m hm)), f1⟩

/-- **C17**, integrals on a list of points: the caller's dims move the numbers but do not change them.  The calls need not have
anything but the integral in common. -/
theorem C17_grids_cart (A B : CartMemG X s) (hK : EvalG R K L X s w) (hnc : 1 ≤ X.nComp) (hli : s.si.l ≤ 15) (hlj : s.sj.l ≤ 15) :
    ∃ has ha hb, CartEndsG A R K L has ha ∧ CartEndsG B R K L has hb ∧
      ∀ n g ic jc i j, n < X.nComp → g < s.ngrids → ic < s.si.nctr → jc < s.sj.nctr → i < ncart s.si.l → j < ncart s.sj.l →
        ∃ x, A.elem ha n g ic i jc j = .val x ∧ B.elem hb n g ic i jc j = .val x := by
  obtain ⟨r0, h0, e0, v0, _, _, _, t0⟩ := drvGrids_cart (sh := A.sh) A.M A.hsize A.O hK A.hic A.hjc hnc hli hlj
  obtain ⟨r1, h1, e1, v1, _, _, _, t1⟩ := drvGrids_cart (sh := B.sh) B.M B.hsize B.O hK B.hic B.hjc hnc hli hlj
  have hr : r0 = r1 := by rw [Bool.eq_iff_iff, t0, t1]
  subst hr
  exact ⟨r0, h0, h1, e0, e1, fun n g ic jc i j a1 a2 a3 a4 a5 a6 =>
    ⟨_, v0 n g ic jc i j a1 a2 a3 a4 a5 a6, v1 n g ic jc i j a1 a2 a3 a4 a5 a6⟩⟩

/-- **C17**, integrals on a list of points with spherical output. -/
theorem C17_grids_sph (A B : SphMemG X s) (hK : EvalG R K L X s w) (hnc : 1 ≤ X.nComp) (hli : s.si.l ≤ 15) (hlj : s.sj.l ≤ 15) :
    ∃ has ha hb, SphEndsG A R K L has ha ∧ SphEndsG B R K L has hb ∧
      ∀ n g ic jc i j, n < X.nComp → g < s.ngrids → ic < s.si.nctr → jc < s.sj.nctr → i < s.si.l*2+1 → j < s.sj.l*2+1 →
        ∃ x, A.elem ha n g ic i jc j = .val x ∧ B.elem hb n g ic i jc j = .val x := by
  obtain ⟨r0, h0, e0, v0, _, _, _, t0⟩ := drvGrids_sph (sh := A.sh) A.M A.hsize A.O A.hT A.htb A.hto hK A.hic A.hjc hnc hli hlj
  obtain ⟨r1, h1, e1, v1, _, _, _, t1⟩ := drvGrids_sph (sh := B.sh) B.M B.hsize B.O B.hT B.htb B.hto hK B.hic B.hjc hnc hli hlj
  have hr : r0 = r1 := by rw [Bool.eq_iff_iff, t0, t1]
  subst hr
  exact ⟨r0, h0, h1, e0, e1, fun n g ic jc i j a1 a2 a3 a4 a5 a6 =>
    ⟨_, v0 n g ic jc i j a1 a2 a3 a4 a5 a6, v1 n g ic jc i j a1 a2 a3 a4 a5 a6⟩⟩

/-- **C19**, integrals on a list of points: at every point the spherical integrals are the Cartesian ones transformed by the table
on both indices.  The memory of the two calls need not have anything in common. -/
theorem C19_grids (A : CartMemG X s) (B : SphMemG X s) (hK : EvalG R K L X s w) (hnc : 1 ≤ X.nComp) (hli : s.si.l ≤ 15)
    (hlj : s.sj.l ≤ 15) :
    ∃ ra ha rb hb, CartEndsG A R K L ra ha ∧ SphEndsG B R K L rb hb ∧
      ∃ x : Nat → Nat → Nat → Nat → Nat → Nat → α,
        (∀ n g ic jc a b, n < X.nComp → g < s.ngrids → ic < s.si.nctr → jc < s.sj.nctr → a < ncart s.si.l → b < ncart s.sj.l →
          A.elem ha n g ic a jc b = .val (x n g ic a jc b)) ∧
        (∀ n g ic jc i j, n < X.nComp → g < s.ngrids → ic < s.si.nctr → jc < s.sj.nctr → i < s.si.l*2+1 → j < s.sj.l*2+1 →
          B.elem hb n g ic i jc j = .val (∑ a ∈ Finset.range (ncart s.si.l), ∑ b ∈ Finset.range (ncart s.sj.l),
            c2sCoef s.si.l i a * c2sCoef s.sj.l j b * x n g ic a jc b)) := by
  obtain ⟨ra, ha, r1, v1, _⟩ := drvGrids_cart (sh := A.sh) A.M A.hsize A.O hK A.hic A.hjc hnc hli hlj
  obtain ⟨rb, hb, r2, v2, _⟩ := drvGrids_sph (sh := B.sh) B.M B.hsize B.O B.hT B.htb B.hto hK B.hic B.hjc hnc hli hlj
  exact ⟨ra, ha, rb, hb, r1, r2, fun n g ic a jc b => gridVal K L X s w (s.grid g) n ic jc (b*ncart s.si.l+a),
    fun n g ic jc a b a1 a2 a3 a4 a5 a6 => v1 n g ic jc a b a1 a2 a3 a4 a5 a6,
    fun n g ic jc i j a1 a2 a3 a4 a5 a6 => v2 n g ic jc i j a1 a2 a3 a4 a5 a6⟩

/-! ### One point at a time -/

/-- the call for another list of points -/
def onPoints (s : CallG α) (n : Nat) (p : Nat → Nat → α) : CallG α := { s with ngrids := n, grid := p }

theorem gridW_congr (e : EnvG) (d : G1 α) (A : GridArgs α) {r r' : Nat → α} (h : ∀ c, c < 3 → r c = r' c) (n : Nat) :
    gridW R K e d A r n = gridW R K e d A r' n := by
  have e1 : ∀ i, gridUW1 R K e d A r i = gridUW1 R K e d A r' i := fun i => by
    unfold gridUW1 gridRR
    rw [h 0 (by omega), h 1 (by omega), h 2 (by omega)]
  have e2 : ∀ U c a b, c < 3 → gridM e d r U c a b = gridM e d r' U c a b := fun U c a b hc => by
    unfold gridM gridE
    rw [h c hc]
  unfold gridW
  refine Finset.sum_congr rfl fun i _ => ?_
  rw [e1, e2 _ 0 _ _ (by omega), e2 _ 1 _ _ (by omega), e2 _ 2 _ _ (by omega)]

theorem gridVal_congr {r r' : Nat → α} (h : ∀ c, c < 3 → r c = r' c) (comp ic jc n : Nat) :
    gridVal K L gridsInt s (gridPrim R K L s) r comp ic jc n = gridVal K L gridsInt s (gridPrim R K L s) r' comp ic jc n := by
  unfold gridVal contract2
  congr 1
  refine Finset.sum_congr rfl fun jp _ => Finset.sum_congr rfl fun ip _ => ?_
  unfold gridPrim
  dsimp only
  rw [gridW_congr _ _ _ h]

/-- **C31** int1e_grids_cart: there is one function of the coordinates of a point, `F`, such that for every list of points, of any
length, the element for point `g` of the list is `F` of the coordinates of point `g`.  The place of the point in the list, the
other points, the number of points (and with it the cut of the list in blocks) and memory do not matter. -/
theorem C31_grids_cart (R : Rys2 α) (K : Consts α) (L : MathLib α) (s : CallG α) (hli : s.si.l ≤ 15) (hlj : s.sj.l ≤ 15) :
    ∃ F : (Fin 3 → α) → Nat → Nat → Nat → Nat → α, ∀ n p, ∀ A : CartMemG gridsInt (onPoints s n p),
      ∃ has h', CartEndsG A R K L has h' ∧
        ∀ g ic jc i j, g < n → ic < s.si.nctr → jc < s.sj.nctr → i < ncart s.si.l → j < ncart s.sj.l →
          A.elem h' 0 g ic i jc j = .val (F (fun c => p g c) ic i jc j) := by
  refine ⟨fun r ic i jc j => gridVal K L gridsInt s (gridPrim R K L s) (fun c => if h : c < 3 then r ⟨c, h⟩ else 0) 0 ic jc
    (j*ncart s.si.l+i), fun n p A => ?_⟩
  obtain ⟨has, h', hr, hv, _⟩ := drvGrids_cart (sh := A.sh) A.M A.hsize A.O (evalG_grids R K L (onPoints s n p)) A.hic A.hjc
    (le_refl 1) hli hlj
  refine ⟨has, h', hr, fun g ic jc i j a1 a2 a3 a4 a5 => ?_⟩
  refine (hv 0 g ic jc i j Nat.zero_lt_one a1 a2 a3 a4 a5).trans ?_
  refine congrArg Cell.val ?_
  show gridVal K L gridsInt s (gridPrim R K L s) (p g) 0 ic jc (j*ncart s.si.l+i) = _
  exact gridVal_congr (fun c hc => by rw [dif_pos hc]) 0 ic jc _

/-- **C31** int1e_grids_sph. -/
theorem C31_grids_sph (R : Rys2 α) (K : Consts α) (L : MathLib α) (s : CallG α) (hli : s.si.l ≤ 15) (hlj : s.sj.l ≤ 15) :
    ∃ F : (Fin 3 → α) → Nat → Nat → Nat → Nat → α, ∀ n p, ∀ A : SphMemG gridsInt (onPoints s n p),
      ∃ has h', SphEndsG A R K L has h' ∧
        ∀ g ic jc i j, g < n → ic < s.si.nctr → jc < s.sj.nctr → i < s.si.l*2+1 → j < s.sj.l*2+1 →
          A.elem h' 0 g ic i jc j = .val (F (fun c => p g c) ic i jc j) := by
  refine ⟨fun r ic i jc j => sph2 s.si.l s.sj.l (fun x => gridVal K L gridsInt s (gridPrim R K L s)
    (fun c => if h : c < 3 then r ⟨c, h⟩ else 0) 0 ic jc x) i j, fun n p A => ?_⟩
  obtain ⟨has, h', hr, hv, _⟩ := drvGrids_sph (sh := A.sh) A.M A.hsize A.O A.hT A.htb A.hto (evalG_grids R K L (onPoints s n p))
    A.hic A.hjc (le_refl 1) hli hlj
  refine ⟨has, h', hr, fun g ic jc i j a1 a2 a3 a4 a5 => ?_⟩
  refine (hv 0 g ic jc i j Nat.zero_lt_one a1 a2 a3 a4 a5).trans ?_
  refine congrArg Cell.val ?_
  show sph2 s.si.l s.sj.l (fun x => gridVal K L gridsInt s (gridPrim R K L s) (p g) 0 ic jc x) i j = _
  refine congrArg (fun f => sph2 s.si.l s.sj.l f i j) (funext fun x => ?_)
  exact gridVal_congr (fun c hc => by rw [dif_pos hc]) 0 ic jc _

/-- **C31**: a list of points gives, at the position of each point, what a list with that point alone gives. -/
theorem C31_one_by_one (A : CartMemG gridsInt s) (B : ∀ g, CartMemG gridsInt (onPoints s 1 fun _ => s.grid g))
    (hli : s.si.l ≤ 15) (hlj : s.sj.l ≤ 15) :
    ∃ has h', CartEndsG A R K L has h' ∧ ∀ g, g < s.ngrids → ∃ has1 h1, CartEndsG (B g) R K L has1 h1 ∧
      ∀ ic jc i j, ic < s.si.nctr → jc < s.sj.nctr → i < ncart s.si.l → j < ncart s.sj.l →
        ∃ x, A.elem h' 0 g ic i jc j = .val x ∧ (B g).elem h1 0 0 ic i jc j = .val x := by
  obtain ⟨F, hF⟩ := C31_grids_cart R K L s hli hlj
  obtain ⟨has, h', hr, hv⟩ := hF s.ngrids s.grid A
  refine ⟨has, h', hr, fun g hg => ?_⟩
  obtain ⟨has1, h1, hr1, hv1⟩ := hF 1 (fun _ => s.grid g) (B g)
  exact ⟨has1, h1, hr1, fun ic jc i j a1 a2 a3 a4 => ⟨_, hv g ic jc i j hg a1 a2 a3 a4,
    hv1 0 ic jc i j Nat.zero_lt_one a1 a2 a3 a4⟩⟩
end

/-! ### Values -/

/-- the exponent of the interaction of a Gaussian with exponent `p`, a charge with exponent `ζ` (0: point charge) and the
attenuation `omega`: inverse exponents add -/
noncomputable def jointExp (p omega ζ : ℝ) : ℝ := (p⁻¹ + (if ζ = 0 then 0 else ζ⁻¹) + (omega^2)⁻¹)⁻¹

theorem jointExp_eq {p omega ζ : ℝ} (hp : 0 < p) (ho : omega ≠ 0) (hz : 0 ≤ ζ) : redExp p omega ζ = jointExp p omega ζ := by
  have ho2 : 0 < omega^2 := by positivity
  unfold redExp jointExp effExp
  by_cases h : ζ = 0
  · rw [if_pos h, if_pos h]
    field_simp
    ring
  · have hz' : 0 < ζ := lt_of_le_of_ne hz (Ne.symm h)
    rw [if_neg h, if_neg h]
    have : 0 < ζ + omega^2 := by positivity
    field_simp
    ring

/-- the point `r` is not screened for this primitive pair: always with the full and the long-range interaction; with the
short-range interaction the exponent of the leading Gaussian factor is compared with the rest of the cutoff (at most 40) -/
def PointIn (L : MathLib ℝ) (s : CallG ℝ) (mi mj : Nat → ℝ) (ip jp : Nat) (r : Fin 3 → ℝ) : Prop :=
  0 ≤ s.omega ∨ jointExp (s.si.a ip + s.sj.a jp) s.omega s.zeta *
    ∑ k, (r k - (s.si.a ip * centre s.si k + s.sj.a jp * centre s.sj k)/(s.si.a ip + s.sj.a jp))^2 ≤
    min (setijCutoff s.envCut - est L s.si s.sj mi mj (rr2 s.si.r s.sj.r) s.omega (s.si.l + s.sj.l) ip jp) 40

/-- the coordinates of point `g` -/
def _root_.Verif.Model.CallG.point (s : CallG ℝ) (g : Nat) : Fin 3 → ℝ := fun k => s.grid g k

/-- the root finders return the roots and weights of Rys quadrature for the number of roots this call needs -/
def RootsOKG (R : Rys2 ℝ) (s : CallG ℝ) : Prop := Rys2OK R (s.envG gridsInt).nrys_roots

theorem integrable_gto_grid {a b : ℝ} (hab : 0 < a + b) (A B : Fin 3 → ℝ) (n m : Fin 3 → ℕ) {omega ζ : ℝ} (hz : 0 ≤ ζ)
    (c : Fin 3 → ℝ) : Integrable fun r => gto a A n r * gridPotential omega ζ c r * gto b B m r := by
  have := (int_pg_grid (omega := omega) hab hz (fun k => (a*A k+b*B k)/(a+b)) c (fun k => pq (A k) (B k) (n k) (m k))).1.const_mul
    (Real.exp (-(a*b/(a+b)) * ∑ k, (A k - B k)^2))
  refine this.congr (Filter.Eventually.of_forall fun r => ?_)
  have := gto_mul_eq hab.ne' A B n m r
  dsimp only
  linear_combination -gridPotential omega ζ c r * this

theorem braketV_gto_grid {a b : ℝ} (hab : 0 < a + b) (A B : Fin 3 → ℝ) (n m : Fin 3 → ℕ) {omega ζ : ℝ} (c : Fin 3 → ℝ) :
    braketV (gridPotential omega ζ c) (gto a A n) (gto b B m) = Real.exp (-(a*b/(a+b)) * ∑ k, (A k - B k)^2) *
      ∫ r, pg (a+b) (fun k => (a*A k+b*B k)/(a+b)) (fun k => pq (A k) (B k) (n k) (m k)) r * gridPotential omega ζ c r := by
  unfold braketV
  rw [← integral_const_mul]
  congr 1
  funext r
  have := gto_mul_eq hab.ne' A B n m r
  linear_combination gridPotential omega ζ c r * this

theorem gridVal_eq {L : MathLib ℝ} {s : CallG ℝ} {R : Rys2 ℝ} {mi mj : Nat → ℝ} (hL : L.exp = Real.exp)
    (hi : MaxCoeff s.si mi) (hj : MaxCoeff s.sj mj)
    (hpos : ∀ ip jp, ip < s.si.nprim → jp < s.sj.nprim → 0 < s.si.a ip + s.sj.a jp)
    (hz : 0 ≤ s.zeta) (hR : RootsOKG R s) {ic jc i j : Nat} (h3 : i < ncart s.si.l) (h4 : j < ncart s.sj.l) (g : Nat) :
    gridVal realK L gridsInt s (gridPrim R realK L s) (s.grid g) 0 ic jc (j*ncart s.si.l+i) =
      spNorm s.si.l * spNorm s.sj.l * contract2 s.si.nprim s.sj.nprim s.si.c s.sj.c (fun ip jp =>
        open Classical in if Kept L s.toCall mi mj (s.si.l + s.sj.l) ip jp ∧ PointIn L s mi mj ip jp (s.point g) then
          braketV (gridPotential s.omega s.zeta (s.point g)) (gto (s.si.a ip) (centre s.si) (powers s.si.l i))
            (gto (s.sj.a jp) (centre s.sj) (powers s.sj.l j)) else 0) ic jc := by
  classical
  unfold gridVal
  have hcom : (2 * realK.pi * commonFacSp s.si.l * commonFacSp s.sj.l : ℝ) = 2 * Real.pi * (spNorm s.si.l * spNorm s.sj.l) := by
    rw [spNorm_eq, spNorm_eq]
    show 2 * Real.pi * _ * _ = _
    ring
  rw [hcom, mul_comm (2*Real.pi), mul_assoc]
  congr 1
  unfold contract2
  rw [Finset.mul_sum]
  refine Finset.sum_congr rfl (fun jp hjp => ?_)
  rw [Finset.mul_sum]
  refine Finset.sum_congr rfl (fun ip hip => ?_)
  rw [Finset.mem_range] at hjp hip
  rw [mul_left_comm]
  congr 1
  dsimp only
  have hn : (j*ncart s.si.l+i)*(gridsInt (α := ℝ)).nComp + 0 = j*ncart s.si.l+i := by
    show (j*ncart s.si.l+i)*1 + 0 = _
    omega
  rw [hn]
  have hp := hpos ip jp hip hjp
  let N : NucCall ℝ := .nuc []
  let R0 : Rys ℝ := ⟨R.u, R.w⟩
  have hPA : s.pairArgsG gridsInt = s.toCall.pairArgs (nucInt R0 N) := rfl
  by_cases hk : Kept L s.toCall mi mj (s.si.l + s.sj.l) ip jp
  · obtain ⟨p1, p2⟩ := pair_kept (X := nucInt R0 N) hL hi hj hip hjp hp hk
    rw [← hPA] at p1 p2
    have hW := gridW_eq (R := R) (e := s.envG gridsInt) (d := s.g1G gridsInt L ip jp) (A := s.gridArgs gridsInt L ip jp)
      (r := s.grid g) (n := j*ncart s.si.l+i) hp hz (by
        show srRoots (decide (s.omega < 0)) _ = _ ∨ s.omega < 0 ∧ srRoots (decide (s.omega < 0)) _ = 2 * _
        unfold srRoots
        split
        · rename_i h
          exact Or.inr ⟨by simpa using h.1, Nat.mul_comm _ _⟩
        · exact Or.inl rfl) hR (by
        show s.si.l + s.sj.l < 2*((s.si.l + 0 + (s.sj.l + 0))/2 + 1)
        omega) (by
        show (j*ncart s.si.l+i) % ncart s.si.l < ncart s.si.l
        rw [(digit h3).2]; exact h3) (by
        show (j*ncart s.si.l+i) / ncart s.si.l < ncart s.sj.l
        rw [(digit h3).1]; exact h4)
    have hP : (fun k : Fin 3 => (s.g1G gridsInt L ip jp).rij k) = fun k =>
        (s.si.a ip * centre s.si k + s.sj.a jp * centre s.sj k)/(s.si.a ip + s.sj.a jp) := by
      funext k
      exact p2 k k.isLt
    have hrr : gridRR (s.g1G gridsInt L ip jp) (s.grid g) = ∑ k, (s.point g k -
        (s.si.a ip * centre s.si k + s.sj.a jp * centre s.sj k)/(s.si.a ip + s.sj.a jp))^2 := by
      have h0 := fun k : Fin 3 => congrFun hP k
      rw [Fin.sum_univ_three, ← h0, ← h0, ← h0]
      unfold gridRR CallG.point
      simp only [Fin.val_zero, Fin.val_one, Fin.val_two]
      ring
    have hcut : (s.gridArgs gridsInt L ip jp).cutoff = setijCutoff s.envCut -
        est L s.si s.sj mi mj (rr2 s.si.r s.sj.r) s.omega (s.si.l + s.sj.l) ip jp := by
      show setijCutoff s.envCut - pairVal L (s.pairArgsG gridsInt) ip jp 4 = _
      congr 1
      have : pairVal L (s.pairArgsG gridsInt) ip jp 4 = pairCC L (s.pairArgsG gridsInt) ip jp := by
        unfold pairVal; simp
      rw [this]
      exact pairCC_eq (p := s.pairArgsG gridsInt) hi hj hip hjp
    have hin : PointKept (s.gridArgs gridsInt L ip jp) ((s.g1G gridsInt L ip jp).ai + (s.g1G gridsInt L ip jp).aj)
        (gridRR (s.g1G gridsInt L ip jp) (s.grid g)) ↔ PointIn L s mi mj ip jp (s.point g) := by
      unfold PointKept PointIn
      rw [hrr, hcut]
      show 0 ≤ s.omega ∨ redExp (s.si.a ip + s.sj.a jp) s.omega s.zeta * _ ≤ _ ↔ _
      by_cases ho : 0 ≤ s.omega
      · exact ⟨fun _ => Or.inl ho, fun _ => Or.inl ho⟩
      · rw [jointExp_eq hp (by intro h; exact ho h.ge) hz]
    show 2 * Real.pi * (pairVal L (s.pairArgsG gridsInt) ip jp 3 * gridW R realK (s.envG gridsInt) (s.g1G gridsInt L ip jp)
      (s.gridArgs gridsInt L ip jp) (s.grid g) (j*ncart s.si.l+i)) = _
    rw [mul_left_comm, hW, p1]
    by_cases hI : PointIn L s mi mj ip jp (s.point g)
    · rw [if_pos (hin.2 hI), if_pos ⟨hk, hI⟩, braketV_gto_grid hp, hP]
      congr 1
      show (∫ x, pg (s.si.a ip + s.sj.a jp) _ (fun k => pq (s.si.r k) (s.sj.r k)
        (pw s.si.l k ((j*ncart s.si.l+i) % ncart s.si.l)) (pw s.sj.l k ((j*ncart s.si.l+i) / ncart s.si.l))) x * _) = _
      rw [(digit h3).1, (digit h3).2]
      rfl
    · rw [if_neg (fun h => hI (hin.1 h)), if_neg (fun h => hI h.2), mul_zero]
  · rw [if_neg (fun h => hk h.1)]
    have := pair_dropped (X := nucInt R0 N) (L := L) hi hj hip hjp hk
    rw [← hPA] at this
    rw [this, zero_mul, mul_zero]

/-- **C48** int1e_grids_cart: the element for point `g` and functions `(ic,i)`, `(jc,j)` is, up to the normalisation of s and p
functions, the contraction of the matrix elements of the potential of the charge at the point, over the primitive pairs that
survive the screening.  Any shells with positive exponents and angular momenta up to ANG_MAX, any list of points, point or
Gaussian charges, all three interactions, any contents of memory.  The root finders are assumed to return the roots and weights
of Rys quadrature. -/
theorem C48_grids {L : MathLib ℝ} {s : CallG ℝ} {R : Rys2 ℝ} {mi mj : Nat → ℝ} (A : CartMemG gridsInt s) (hL : L.exp = Real.exp)
    (hi : MaxCoeff s.si mi) (hj : MaxCoeff s.sj mj)
    (hpos : ∀ ip jp, ip < s.si.nprim → jp < s.sj.nprim → 0 < s.si.a ip + s.sj.a jp)
    (hz : 0 ≤ s.zeta) (hR : RootsOKG R s) (hli : s.si.l ≤ 15) (hlj : s.sj.l ≤ 15) :
    ∃ has h', CartEndsG A R realK L has h' ∧
      ∀ g ic jc i j, g < s.ngrids → ic < s.si.nctr → jc < s.sj.nctr → i < ncart s.si.l → j < ncart s.sj.l →
        A.elem h' 0 g ic i jc j = .val (spNorm s.si.l * spNorm s.sj.l *
          contract2 s.si.nprim s.sj.nprim s.si.c s.sj.c (fun ip jp =>
            open Classical in if Kept L s.toCall mi mj (s.si.l + s.sj.l) ip jp ∧ PointIn L s mi mj ip jp (s.point g) then
              braketV (gridPotential s.omega s.zeta (s.point g)) (gto (s.si.a ip) (centre s.si) (powers s.si.l i))
                (gto (s.sj.a jp) (centre s.sj) (powers s.sj.l j)) else 0) ic jc) := by
  obtain ⟨has, h', hr, hv, _⟩ := drvGrids_cart (sh := A.sh) A.M A.hsize A.O (evalG_grids R realK L s) A.hic A.hjc (le_refl 1) hli hlj
  refine ⟨has, h', hr, fun g ic jc i j a1 a2 a3 a4 a5 => ?_⟩
  refine (hv 0 g ic jc i j Nat.zero_lt_one a1 a2 a3 a4 a5).trans ?_
  exact congrArg Cell.val (gridVal_eq hL hi hj hpos hz hR a4 a5 g)

/-- nothing is screened, neither a primitive pair nor a point -/
def AllKeptG (L : MathLib ℝ) (s : CallG ℝ) (mi mj : Nat → ℝ) : Prop := ∀ ip jp, ip < s.si.nprim → jp < s.sj.nprim →
  Kept L s.toCall mi mj (s.si.l + s.sj.l) ip jp ∧ ∀ g, g < s.ngrids → PointIn L s mi mj ip jp (s.point g)

/-- **C48** int1e_grids_cart, nothing screened: exactly the matrix element of the potential of the charge at the point. -/
theorem C48_grids_exact {L : MathLib ℝ} {s : CallG ℝ} {R : Rys2 ℝ} {mi mj : Nat → ℝ} (A : CartMemG gridsInt s)
    (hL : L.exp = Real.exp) (hi : MaxCoeff s.si mi) (hj : MaxCoeff s.sj mj) (hk : AllKeptG L s mi mj)
    (hpos : ∀ ip jp, ip < s.si.nprim → jp < s.sj.nprim → 0 < s.si.a ip + s.sj.a jp)
    (hz : 0 ≤ s.zeta) (hR : RootsOKG R s) (hli : s.si.l ≤ 15) (hlj : s.sj.l ≤ 15) :
    ∃ has h', CartEndsG A R realK L has h' ∧
      ∀ g ic jc i j, g < s.ngrids → ic < s.si.nctr → jc < s.sj.nctr → i < ncart s.si.l → j < ncart s.sj.l →
        A.elem h' 0 g ic i jc j = .val (spNorm s.si.l * spNorm s.sj.l *
          braketV (gridPotential s.omega s.zeta (s.point g)) (cfun s.si ic i) (cfun s.sj jc j)) := by
  obtain ⟨has, h', hr, hv⟩ := C48_grids A hL hi hj hpos hz hR hli hlj
  refine ⟨has, h', hr, fun g ic jc i j a1 a2 a3 a4 a5 => ?_⟩
  rw [hv g ic jc i j a1 a2 a3 a4 a5]
  unfold cfun
  rw [braketV_cgto (fun ip jp hip hjp => integrable_gto_grid (hpos ip jp hip hjp) _ _ _ _ hz _)]
  congr 2
  unfold contract2
  refine Finset.sum_congr rfl fun jp b1 => Finset.sum_congr rfl fun ip b2 => ?_
  rw [Finset.mem_range] at b1 b2
  dsimp only
  rw [if_pos ⟨(hk ip jp b2 b1).1, (hk ip jp b2 b1).2 g a1⟩]

/-- a Cartesian call in memory that is allocated but not initialised -/
def blankMemG {α : Type} [Field α] [LinearOrder α] (X : IntG α) (s : CallG α) (h1 : 1 ≤ s.si.nctr) (h2 : 1 ≤ s.sj.nctr) :
    CartMemG X s where
  fpd := 2
  sh := 3
  buf := 0
  size := cacheSizeGrids X s
  fl := ⟨1, 0⟩
  loc := ⟨2, 0⟩
  counts := ⟨3, 0⟩
  loc2 := ⟨4, 0⟩
  out := ⟨5, 7⟩
  dims := none
  nd := three (ncart s.si.l*s.si.nctr) (ncart s.sj.l*s.sj.nctr) s.ngrids
  h := ⟨fun _ => .undef, fun _ => .undef⟩
  hic := h1
  hjc := h2
  M := ⟨by omega, fun k _ => by simp, fun k _ => by simp, fun k _ => by simp, fun k _ => by simp, fun k _ => by simp,
    by decide, by decide⟩
  hsize := le_refl _
  O := { h_dims := fun t _ => rfl
         h_dims3 := fun d hd => nomatch hd
         h_dbuf := fun d hd => nomatch hd
         fits := ⟨le_refl _, le_refl _, le_refl _⟩
         h_out := fun m _ => by simp
         h_obuf := by decide
         l2 := fun t _ => by simp
         l2c := by decide }

/-- **C48** int1e_grids_sph, nothing screened: exactly the matrix element between the spherical functions. -/
theorem C48_grids_spherical {L : MathLib ℝ} {s : CallG ℝ} {R : Rys2 ℝ} {mi mj : Nat → ℝ} (B : SphMemG gridsInt s)
    (hL : L.exp = Real.exp) (hi : MaxCoeff s.si mi) (hj : MaxCoeff s.sj mj) (hk : AllKeptG L s mi mj)
    (hpos : ∀ ip jp, ip < s.si.nprim → jp < s.sj.nprim → 0 < s.si.a ip + s.sj.a jp)
    (hz : 0 ≤ s.zeta) (hR : RootsOKG R s) (hli : s.si.l ≤ 15) (hlj : s.sj.l ≤ 15) :
    ∃ has h', SphEndsG B R realK L has h' ∧
      ∀ g ic jc i j, g < s.ngrids → ic < s.si.nctr → jc < s.sj.nctr → i < s.si.l*2+1 → j < s.sj.l*2+1 →
        B.elem h' 0 g ic i jc j = .val (braketV (gridPotential s.omega s.zeta (s.point g)) (sgto s.si ic i) (sgto s.sj jc j)) := by
  let A := blankMemG gridsInt s B.hic B.hjc
  obtain ⟨ra, ha, rb, hb, eA, eB, x, vA, vB⟩ := C19_grids A B (evalG_grids R realK L s) (le_refl 1) hli hlj
  obtain ⟨rc, hc, eC, vC⟩ := C48_grids_exact A hL hi hj hk hpos hz hR hli hlj
  have hAC : ha = hc := by
    have e : some (ra, ha) = some (rc, hc) := eA.symm.trans eC
    simp only [Option.some.injEq, Prod.mk.injEq] at e
    exact e.2
  refine ⟨rb, hb, eB, fun g ic jc i j a1 a2 a3 a4 a5 => ?_⟩
  rw [vB 0 g ic jc i j Nat.zero_lt_one a1 a2 a3 a4 a5, braketV_sgto (fun ip jp n m hip hjp =>
    integrable_gto_grid (hpos ip jp hip hjp) _ _ _ _ hz _)]
  congr 1
  refine Finset.sum_congr rfl fun a ha' => Finset.sum_congr rfl fun b hb' => ?_
  congr 1
  have c1 := vA 0 g ic jc a b Nat.zero_lt_one a1 a2 a3 (Finset.mem_range.1 ha') (Finset.mem_range.1 hb')
  have c2 := vC g ic jc a b a1 a2 a3 (Finset.mem_range.1 ha') (Finset.mem_range.1 hb')
  rw [← hAC] at c2
  exact Cell.val.inj (c1.symm.trans c2)

/-! ### Symmetry, range separation -/

/-- the call with the two shells exchanged -/
def swapG {α : Type} (s : CallG α) : CallG α := { s with si := s.sj, sj := s.si }

theorem est_swap (L : MathLib ℝ) (s : CallG ℝ) (mi mj : Nat → ℝ) (ip jp : Nat) :
    est L s.sj s.si mj mi (rr2 s.sj.r s.si.r) s.omega (s.sj.l + s.si.l) jp ip =
      est L s.si s.sj mi mj (rr2 s.si.r s.sj.r) s.omega (s.si.l + s.sj.l) ip jp := by
  unfold est pairEstimate prodExponent
  rw [rr2_comm s.sj.r, add_comm s.sj.l, add_comm (s.sj.a jp), mul_comm (s.sj.a jp)]
  ring_nf

/-- **C48** symmetry: exchanging the two shells exchanges the indices, at every point.  Screening does not break this. -/
theorem C48_symmetric {L : MathLib ℝ} {s : CallG ℝ} {R : Rys2 ℝ} (A : CartMemG gridsInt s) (B : CartMemG gridsInt (swapG s))
    (hL : L.exp = Real.exp) (hpos : ∀ ip jp, ip < s.si.nprim → jp < s.sj.nprim → 0 < s.si.a ip + s.sj.a jp)
    (hz : 0 ≤ s.zeta) (hR : RootsOKG R s) (hli : s.si.l ≤ 15) (hlj : s.sj.l ≤ 15) :
    ∃ ra ha rb hb, CartEndsG A R realK L ra ha ∧ CartEndsG B R realK L rb hb ∧
      ∀ g ic jc i j, g < s.ngrids → ic < s.si.nctr → jc < s.sj.nctr → i < ncart s.si.l → j < ncart s.sj.l →
        B.elem hb 0 g jc j ic i = A.elem ha 0 g ic i jc j := by
  classical
  have hR' : RootsOKG R (swapG s) := by
    unfold RootsOKG at *
    show Rys2OK R (srRoots (decide (s.omega < 0)) ((s.sj.l + 0 + (s.si.l + 0))/2 + 1))
    rw [add_comm (s.sj.l + 0)]
    exact hR
  obtain ⟨ra, ha, e1, v1⟩ := C48_grids A hL (maxCoeff_exists s.si) (maxCoeff_exists s.sj) hpos hz hR hli hlj
  obtain ⟨rb, hb, e2, v2⟩ := C48_grids B hL (maxCoeff_exists s.sj) (maxCoeff_exists s.si) (fun ip jp h1 h2 => by
    have := hpos jp ip h2 h1
    show 0 < s.sj.a ip + s.si.a jp
    linarith) hz hR' hlj hli
  refine ⟨ra, ha, rb, hb, e1, e2, fun g ic jc i j a1 a2 a3 a4 a5 => ?_⟩
  rw [v1 g ic jc i j a1 a2 a3 a4 a5, v2 g jc ic j i a1 a3 a2 a5 a4]
  congr 1
  refine congrArg₂ _ (mul_comm _ _) ?_
  unfold contract2
  rw [Finset.sum_comm]
  refine Finset.sum_congr rfl fun jp _ => Finset.sum_congr rfl fun ip _ => ?_
  show s.si.c (s.si.nprim*ic+ip) * s.sj.c (s.sj.nprim*jc+jp) * _ = _
  rw [mul_comm (s.si.c _)]
  congr 1
  refine if_congr (and_congr ?_ ?_) ?_ rfl
  · show est L s.sj s.si _ _ (rr2 s.sj.r s.si.r) s.omega (s.sj.l + s.si.l) jp ip < _ ↔ est L s.si s.sj _ _ _ _ _ ip jp < _
    rw [est_swap]
    rfl
  · unfold PointIn
    show 0 ≤ s.omega ∨ jointExp (s.sj.a jp + s.si.a ip) s.omega s.zeta *
      ∑ k, (s.point g k - (s.sj.a jp * centre s.sj k + s.si.a ip * centre s.si k)/(s.sj.a jp + s.si.a ip))^2 ≤
      min (setijCutoff s.envCut - est L s.sj s.si _ _ (rr2 s.sj.r s.si.r) s.omega (s.sj.l + s.si.l) jp ip) 40 ↔ _
    rw [est_swap, add_comm (s.sj.a jp)]
    simp only [add_comm (s.sj.a jp * _)]
  · show braketV _ (gto (s.sj.a jp) (centre s.sj) (powers s.sj.l j)) (gto (s.si.a ip) (centre s.si) (powers s.si.l i)) = _
    unfold braketV
    congr 1
    funext r
    show _ * gridPotential s.omega s.zeta (s.point g) r * _ = _
    ring

/-- the call with another `env[PTR_RANGE_OMEGA]` -/
def withOmegaG {α : Type} (s : CallG α) (omega : α) : CallG α := { s with omega := omega }

theorem gridPotential_split {w ζ : ℝ} (hw : 0 < w) (hz : 0 ≤ ζ) {c r : Fin 3 → ℝ} (hr : r ≠ c) :
    gridPotential (-w) ζ c r = gridPotential 0 ζ c r - gridPotential w ζ c r := by
  rw [gridPotential_eq hz hr, gridPotential_eq hz hr, gridPotential_eq hz hr]
  rw [if_neg (by linarith), if_pos (by linarith), if_pos rfl, if_neg hw.ne', if_neg (by linarith)]
  unfold effExp
  rw [neg_sq]

/-- **C38** range separation for the integrals on a list of points: when nothing is screened, the integrals with `omega = -w` are
those with `omega = 0` minus those with `omega = w`, for point and for Gaussian charges. -/
theorem C38_grids {L : MathLib ℝ} {s : CallG ℝ} {R : Rys2 ℝ} {mi mj : Nat → ℝ} {w : ℝ} (hw : 0 < w)
    (A : CartMemG gridsInt (withOmegaG s (-w))) (B : CartMemG gridsInt (withOmegaG s 0)) (C : CartMemG gridsInt (withOmegaG s w))
    (hL : L.exp = Real.exp) (hi : MaxCoeff s.si mi) (hj : MaxCoeff s.sj mj) (hkA : AllKeptG L (withOmegaG s (-w)) mi mj)
    (hkB : AllKeptG L (withOmegaG s 0) mi mj) (hkC : AllKeptG L (withOmegaG s w) mi mj)
    (hpos : ∀ ip jp, ip < s.si.nprim → jp < s.sj.nprim → 0 < s.si.a ip + s.sj.a jp)
    (hz : 0 ≤ s.zeta) (hRA : RootsOKG R (withOmegaG s (-w))) (hRB : RootsOKG R (withOmegaG s 0))
    (hRC : RootsOKG R (withOmegaG s w)) (hli : s.si.l ≤ 15) (hlj : s.sj.l ≤ 15) :
    ∃ ra ha rb hb rc hc, CartEndsG A R realK L ra ha ∧ CartEndsG B R realK L rb hb ∧ CartEndsG C R realK L rc hc ∧
      ∀ g ic jc i j, g < s.ngrids → ic < s.si.nctr → jc < s.sj.nctr → i < ncart s.si.l → j < ncart s.sj.l →
        ∃ full long, B.elem hb 0 g ic i jc j = .val full ∧ C.elem hc 0 g ic i jc j = .val long ∧
          A.elem ha 0 g ic i jc j = .val (full - long) := by
  obtain ⟨ra, ha, e1, v1⟩ := C48_grids_exact A hL hi hj hkA hpos hz hRA hli hlj
  obtain ⟨rb, hb, e2, v2⟩ := C48_grids_exact B hL hi hj hkB hpos hz hRB hli hlj
  obtain ⟨rc, hc, e3, v3⟩ := C48_grids_exact C hL hi hj hkC hpos hz hRC hli hlj
  refine ⟨ra, ha, rb, hb, rc, hc, e1, e2, e3, fun g ic jc i j a1 a2 a3 a4 a5 =>
    ⟨_, _, v2 g ic jc i j a1 a2 a3 a4 a5, v3 g ic jc i j a1 a2 a3 a4 a5, (v1 g ic jc i j a1 a2 a3 a4 a5).trans ?_⟩⟩
  congr 1
  refine Eq.trans ?_ (mul_sub _ _ _)
  refine congrArg₂ _ rfl ?_
  have i0 := integrable_cgtoV (si := s.si) (sj := s.sj) (fun ip jp n m hip hjp =>
    integrable_gto_grid (omega := 0) (hpos ip jp hip hjp) _ _ n m hz (s.point g)) ic jc (powers s.si.l i) (powers s.sj.l j)
  have i1 := integrable_cgtoV (si := s.si) (sj := s.sj) (fun ip jp n m hip hjp =>
    integrable_gto_grid (omega := w) (hpos ip jp hip hjp) _ _ n m hz (s.point g)) ic jc (powers s.si.l i) (powers s.sj.l j)
  show braketV (gridPotential (-w) s.zeta (s.point g)) (cfun s.si ic i) (cfun s.sj jc j) =
    braketV (gridPotential 0 s.zeta (s.point g)) (cfun s.si ic i) (cfun s.sj jc j) -
    braketV (gridPotential w s.zeta (s.point g)) (cfun s.si ic i) (cfun s.sj jc j)
  unfold braketV
  refine Eq.trans ?_ (integral_sub i0 i1)
  refine integral_congr_ae ((ae_ne (s.point g)).mono fun r hr => ?_)
  show _ * gridPotential (-w) s.zeta (s.point g) r * _ = _
  rw [gridPotential_split hw hz hr]
  show _ = cfun s.si ic i r * _ * cfun s.sj jc j r - cfun s.si ic i r * _ * cfun s.sj jc j r
  ring

/-! ### The hypotheses can be met -/
namespace GridsDemo
open OvlpDemo SphDemo EriDemo

/-- the p and d shells of OvlpDemo; 250 points (three blocks) on a line, Gaussian charges -/
noncomputable def callG (o : ℝ) : CallG ℝ where
  toCall := { OvlpDemo.call with omega := o }
  zeta := 3
  ngrids := 250
  grid := fun g c => if c = 2 then (g : ℝ)/250 else 1

theorem callG_pos (o : ℝ) : ∀ ip jp, ip < (callG o).si.nprim → jp < (callG o).sj.nprim →
    0 < (callG o).si.a ip + (callG o).sj.a jp := fun _ _ _ _ => by
  show (0:ℝ) < 1 + 1; norm_num

theorem est_le (o : ℝ) (ip jp : Nat) : est lib (callG o).si (callG o).sj (fun _ => 1) (fun _ => 1)
    (rr2 (callG o).si.r (callG o).sj.r) o ((callG o).si.l + (callG o).sj.l) ip jp ≤ 0 := estIJ_nonpos o ip jp

theorem allKeptG (o : ℝ) (ho : 0 ≤ o ∨ o = -(1/2)) : AllKeptG lib (callG o) (fun _ => 1) (fun _ => 1) := by
  have hc : setijCutoff (callG o).envCut = 60 := by
    unfold setijCutoff callG OvlpDemo.call
    simp
  intro ip jp _ _
  refine ⟨?_, fun g hg => ?_⟩
  · have := est_le o ip jp
    show est lib (callG o).si (callG o).sj _ _ _ o _ ip jp < setijCutoff (callG o).envCut
    rw [hc]
    linarith
  · rcases ho with ho | ho
    · exact Or.inl ho
    · refine Or.inr ?_
      have he := est_le o ip jp
      have hm : (40:ℝ) ≤ min (setijCutoff (callG o).envCut - est lib (callG o).si (callG o).sj (fun _ => 1) (fun _ => 1)
          (rr2 (callG o).si.r (callG o).sj.r) (callG o).omega ((callG o).si.l + (callG o).sj.l) ip jp) 40 := by
        refine le_min ?_ (le_refl _)
        rw [hc]
        show 40 ≤ 60 - est lib (callG o).si (callG o).sj _ _ _ o _ ip jp
        linarith
      refine le_trans ?_ hm
      have hg' : ((g:ℝ)/250)^2 ≤ 1 := by
        have h1 : (g:ℝ)/250 ≤ 1 := by
          rw [div_le_one (by norm_num)]
          have : g ≤ 250 := le_of_lt hg
          exact_mod_cast this
        have h0 : (0:ℝ) ≤ (g:ℝ)/250 := by positivity
        nlinarith
      have hs : ∑ k : Fin 3, ((callG o).point g k - ((callG o).si.a ip * centre (callG o).si k +
          (callG o).sj.a jp * centre (callG o).sj k)/((callG o).si.a ip + (callG o).sj.a jp))^2 = 2 + ((g:ℝ)/250)^2 := by
        rw [Fin.sum_univ_three]
        show ((if (0:Nat) = 2 then (g:ℝ)/250 else 1) - (1*0+1*0)/(1+1))^2 + ((if (1:Nat) = 2 then (g:ℝ)/250 else 1) - (1*0+1*0)/(1+1))^2 +
          ((if (2:Nat) = 2 then (g:ℝ)/250 else 1) - (1*0+1*0)/(1+1))^2 = _
        norm_num
      have hj : jointExp ((callG o).si.a ip + (callG o).sj.a jp) (callG o).omega (callG o).zeta = 6/29 := by
        show jointExp (1+1) o 3 = _
        rw [ho]
        unfold jointExp
        norm_num
      rw [hs, hj]
      linarith

theorem maxG (o : ℝ) : MaxCoeff (callG o).si (fun _ => 1) ∧ MaxCoeff (callG o).sj (fun _ => 1) := maxc

noncomputable def cartG (o : ℝ) : CartMemG gridsInt (callG o) := blankMemG gridsInt (callG o) (by show 1 ≤ 2; omega) (by show 1 ≤ 2; omega)

/-- the short-range potential of a Gaussian charge at the 221st point, between p_y (second contraction) and d_xz (first) -/
example : ∃ R has h', CartEndsG (cartG (-(1/2))) R realK lib has h' ∧
    (cartG (-(1/2))).elem h' 0 220 1 1 0 2 = .val (spNorm 1 * spNorm 2 *
      braketV (gridPotential (-(1/2)) 3 ((callG (-(1/2))).point 220)) (cfun OvlpDemo.call.si 1 1) (cfun OvlpDemo.call.sj 0 2)) := by
  obtain ⟨R, hR⟩ := exists_rys2
  obtain ⟨has, h', h1, h2⟩ := C48_grids_exact (R := R) (cartG (-(1/2))) (L := lib) rfl (maxG _).1 (maxG _).2 (allKeptG _ (Or.inr rfl))
    (callG_pos _) (by show (0:ℝ) ≤ 3; norm_num) (hR _) (by decide) (by decide)
  exact ⟨R, has, h', h1, h2 220 1 0 1 2 (by show 220 < 250; omega) (by show 1 < 2; omega) (by show 0 < 2; omega)
    (by show 1 < ncart 1; decide) (by show 2 < ncart 2; decide)⟩

/-- short range, full and long range -/
example : ∃ R ra ha rb hb rc hc, CartEndsG (cartG (-(1/2))) R realK lib ra ha ∧ CartEndsG (cartG 0) R realK lib rb hb ∧
    CartEndsG (cartG (1/2)) R realK lib rc hc := by
  obtain ⟨R, hR⟩ := exists_rys2
  obtain ⟨ra, ha, rb, hb, rc, hc, e1, e2, e3, _⟩ := C38_grids (R := R) (s := callG 0) (w := 1/2) (by norm_num) (cartG (-(1/2)))
    (cartG 0) (cartG (1/2)) (L := lib) rfl (maxG 0).1 (maxG 0).2 (allKeptG _ (Or.inr rfl)) (allKeptG _ (Or.inl (le_refl _)))
    (allKeptG _ (Or.inl (by norm_num))) (callG_pos 0) (by show (0:ℝ) ≤ 3; norm_num) (hR _) (hR _) (hR _) (by decide) (by decide)
  exact ⟨R, ra, ha, rb, hb, rc, hc, e1, e2, e3⟩

/-- exchanged shells -/
example : ∃ R ra ha rb hb, CartEndsG (cartG 0) R realK lib ra ha ∧
    CartEndsG (blankMemG gridsInt (swapG (callG 0)) (by show 1 ≤ 2; omega) (by show 1 ≤ 2; omega)) R realK lib rb hb := by
  obtain ⟨R, hR⟩ := exists_rys2
  obtain ⟨ra, ha, rb, hb, e1, e2, _⟩ := C48_symmetric (R := R) (s := callG 0) (cartG 0)
    (blankMemG gridsInt (swapG (callG 0)) (by show 1 ≤ 2; omega) (by show 1 ≤ 2; omega)) (L := lib) rfl (callG_pos 0)
    (by show (0:ℝ) ≤ 3; norm_num) (hR _) (by decide) (by decide)
  exact ⟨R, ra, ha, rb, hb, e1, e2⟩

/-- the three blocks and single points, any root finder -/
example (R : Rys2 ℝ) : ∃ has h', CartEndsG (cartG 0) R realK lib has h' ∧ ∃ has1 h1,
    CartEndsG (blankMemG gridsInt (onPoints (callG 0) 1 fun _ => (callG 0).grid 220) (by show 1 ≤ 2; omega)
      (by show 1 ≤ 2; omega)) R realK lib has1 h1 := by
  obtain ⟨has, h', e, hv⟩ := C31_one_by_one (R := R) (K := realK) (L := lib) (cartG 0) (fun g => blankMemG gridsInt
    (onPoints (callG 0) 1 fun _ => (callG 0).grid g) (by show 1 ≤ 2; omega) (by show 1 ≤ 2; omega)) (by decide) (by decide)
  obtain ⟨has1, h1, e1, _⟩ := hv 220 (by show 220 < 250; omega)
  exact ⟨has, h', e, has1, h1, e1⟩

/-- memory for a call with spherical output: the caller's array has 300 places for the points and a row more than needed -/
noncomputable def sphG (o : ℝ) : SphMemG gridsInt (callG o) where
  fpd := 1
  sh := 5
  buf := 0
  size := cacheSizeGrids gridsInt (callG o) + 9
  fl := ⟨1, 0⟩
  loc := ⟨2, 0⟩
  counts := ⟨3, 0⟩
  loc2 := ⟨4, 0⟩
  out := ⟨5, 7⟩
  dims := some ⟨6, 0⟩
  nd := three 7 10 300
  h := { memR with I := fun q => if q.buf = 6 then .val (three 7 10 300 q.off) else .undef }
  hic := by show 1 ≤ 2; omega
  hjc := by show 1 ≤ 2; omega
  M := ⟨by omega, fun k _ => by simp [memR], fun k _ => by simp, fun k _ => by simp,
    fun k _ => by simp, fun k _ => by simp, by decide, by decide⟩
  hsize := Nat.le_add_right _ _
  O := { h_dims := ⟨fun t _ => by simp, by decide⟩
         h_dims3 := fun d hd => by cases hd; exact ⟨1, by simp [three]⟩
         h_dbuf := fun d hd => by cases hd; decide
         fits := by
           show (1*2+1)*2 ≤ 7 ∧ (2*2+1)*2 ≤ 10 ∧ 250 ≤ 300
           omega
         h_out := fun m _ => by simp [memR]
         h_obuf := by decide
         l2 := fun t _ => by simp
         l2c := by decide }
  tab := ⟨9, 0⟩
  hT := tabR
  htb := by decide
  hto := by decide

example : ∃ R has h', SphEndsG (sphG (-(1/2))) R realK lib has h' ∧
    (sphG (-(1/2))).elem h' 0 220 1 1 0 4 = .val (braketV (gridPotential (-(1/2)) 3 ((callG (-(1/2))).point 220))
      (sgto OvlpDemo.call.si 1 1) (sgto OvlpDemo.call.sj 0 4)) := by
  obtain ⟨R, hR⟩ := exists_rys2
  obtain ⟨has, h', h1, h2⟩ := C48_grids_spherical (R := R) (sphG (-(1/2))) (L := lib) rfl (maxG _).1 (maxG _).2
    (allKeptG _ (Or.inr rfl)) (callG_pos _) (by show (0:ℝ) ≤ 3; norm_num) (hR _) (by decide) (by decide)
  exact ⟨R, has, h', h1, h2 220 1 0 1 4 (by show 220 < 250; omega) (by show 1 < 2; omega) (by show 0 < 2; omega)
    (by show 1 < 1*2+1; omega) (by show 4 < 2*2+1; omega)⟩

/-- two s shells so far apart that their product is screened, one point -/
def farCall : CallG ℚ where
  si := { nprim := 1, nctr := 1, l := 0, a := fun _ => 1, c := fun _ => 1, r := fun _ => 0 }
  sj := { nprim := 1, nctr := 1, l := 0, a := fun _ => 1, c := fun _ => 1, r := fun _ => 100 }
  envCut := 0
  omega := 0
  zeta := 0
  ngrids := 1
  grid := fun _ _ => 0

/-- all allocated; buffer 6 holds three FINTs, 1, 1, 1 -/
def dims3Mem : Heap ℚ where
  D := fun _ => .undef
  I := fun q => if q.buf = 6 then (if q.off < 3 then .val 1 else .oob) else .undef

end GridsDemo

/-- `GOutArg.h_dims3` is needed: when the whole block is screened, a `dims` of three numbers, one for each index of the result, is
read beyond its end, although all other conditions of the theorems above hold. -/
theorem C18_grids_dims_overread : ∃ (s : CallG ℚ) (h : Heap ℚ) (d : Ptr),
    CallMem h 2 0 (cacheSizeGrids gridsInt s) ⟨1, 0⟩ ⟨2, 0⟩ ⟨3, 0⟩ ∧
    (h.I d = .val 1 ∧ h.I (d+1) = .val 1 ∧ h.I (d+2) = .val 1) ∧
    s.ngrids = 1 ∧ s.si.l = 0 ∧ s.sj.l = 0 ∧ s.si.nctr = 1 ∧ s.sj.nctr = 1 ∧
    ∃ R K L, run (drvGrids gridsInt s R K L 2 0 (fun _ _ _ => pure) (two (ncart s.si.l) (ncart s.sj.l)) ⟨5, 0⟩ (some d) 0 0
      ⟨1, 0⟩ ⟨2, 0⟩ ⟨3, 0⟩ ⟨4, 0⟩) h = none := by
  refine ⟨GridsDemo.farCall, GridsDemo.dims3Mem, ⟨6, 0⟩, ?_, ⟨rfl, rfl, rfl⟩, rfl, rfl, rfl, rfl, rfl,
    ⟨⟨fun _ _ _ => 0, fun _ _ _ => 0⟩, fun _ _ _ _ => 0, fun _ _ _ _ => 0⟩, { sqrtpi := 1, pi := 3, sqrt := fun x => x },
    { log := fun _ => 0, exp := fun _ => 1, sqrt := id }, ?_⟩
  · exact ⟨by omega, fun k _ => by simp [GridsDemo.dims3Mem], fun k _ => by simp [GridsDemo.dims3Mem],
      fun k _ => by simp [GridsDemo.dims3Mem], fun k _ => by simp [GridsDemo.dims3Mem], fun k _ => by simp [GridsDemo.dims3Mem],
      by decide, by decide⟩
  · rw [← Option.isNone_iff_eq_none]
    decide +kernel

end Verif.Props
