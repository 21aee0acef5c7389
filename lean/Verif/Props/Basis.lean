import Verif.Lemmas.Cart
import Verif.Lemmas.Bas

/-
Properties C01, C02, C03: basis bookkeeping of src/cint_bas.c.
-/
namespace Verif.Props
open Verif Verif.Model Prog

variable {α : Type}

/-- **C01** For every angular momentum `l` and every memory state in which the
three arrays have room for `(l+1)(l+2)/2` integers and do not overlap,
`CINTcart_comp` runs without undefined behaviour and leaves in the arrays a
list `T` of exponent triples that contains every triple of sum `l`
(completeness), only such triples, in strictly descending lexicographic order
(hence without duplicates), and changes no other memory. -/
theorem C01_cart_comp (l : Nat) (nx ny nz : Ptr) (h : Heap α)
    (ax : ∀ k, k < (l+1)*(l+2)/2 → h.I (nx + k) ≠ .oob)
    (ay : ∀ k, k < (l+1)*(l+2)/2 → h.I (ny + k) ≠ .oob)
    (az : ∀ k, k < (l+1)*(l+2)/2 → h.I (nz + k) ≠ .oob)
    (dxy : ∀ i j, i < (l+1)*(l+2)/2 → j < (l+1)*(l+2)/2 → nx + i ≠ ny + j)
    (dxz : ∀ i j, i < (l+1)*(l+2)/2 → j < (l+1)*(l+2)/2 → nx + i ≠ nz + j)
    (dyz : ∀ i j, i < (l+1)*(l+2)/2 → j < (l+1)*(l+2)/2 → ny + i ≠ nz + j) :
    ∃ h', run (cartComp nx ny nz l) h = some ((l+1)*(l+2)/2, h') ∧
      (∃ T : Nat → Nat × Nat × Nat,
        (∀ k, k < (l+1)*(l+2)/2 →
          h'.I (nx + k) = .val ((T k).1 : Int) ∧
          h'.I (ny + k) = .val ((T k).2.1 : Int) ∧
          h'.I (nz + k) = .val ((T k).2.2 : Int)) ∧
        (∀ a b c, a + b + c = l ↔ ∃ k, k < (l+1)*(l+2)/2 ∧ T k = (a, b, c)) ∧
        (∀ k k', k < k' → k' < (l+1)*(l+2)/2 → Spec.LexGt (T k) (T k'))) ∧
      h'.D = h.D ∧
      (∀ q, (∀ k, k < (l+1)*(l+2)/2 → q ≠ nx + k ∧ q ≠ ny + k ∧ q ≠ nz + k) → h'.I q = h.I q) := by
  obtain ⟨n, h', hr, rfl, H⟩ := run_of_wp (cartComp_wp nx ny nz l h ax ay az dxy dxz dyz)
  refine ⟨h', hr, ⟨fun k => (Spec.px l k, Spec.py l k, Spec.pz l k), ?_, ?_, ?_⟩, H.dbl, ?_⟩
  · intro k hk
    exact ⟨H.val (0, k) ⟨by simp, hk⟩, H.val (1, k) ⟨by simp, hk⟩, H.val (2, k) ⟨by simp, hk⟩⟩
  · intro a b c
    constructor
    · intro e
      exact ⟨Spec.cpos l a c, Spec.cpos_lt e, by simp only [Spec.px_cpos e, Spec.py_cpos e, Spec.pz_cpos e]⟩
    · rintro ⟨k, hk, e⟩
      have := Spec.psum hk
      simp only [Prod.mk.injEq] at e
      omega
  · intro k k' hk hk'
    exact Spec.plex hk hk'
  · intro q hq
    refine H.frame q ?_
    rintro ⟨c, k⟩ ⟨hc, hk⟩
    obtain ⟨h1, h2, h3⟩ := hq k hk
    rcases c with _ | _ | c
    · exact h1
    · exact h2
    · exact h3

/-- A heap with three integer buffers 0, 1, 2 of `n` cells each. -/
def intHeap3 (n : Nat) : Heap Nat :=
  { D := fun _ => .oob
    I := fun p => if p.buf < 3 ∧ p.off < n then .undef else .oob }

/-- The hypotheses of C01 are met, e.g. by three fresh arrays of CART_MAX integers and l = 15. -/
example : ∃ h', run (cartComp ⟨0, 0⟩ ⟨1, 0⟩ ⟨2, 0⟩ 15) (intHeap3 136) = some (136, h') := by
  obtain ⟨h', hr, _⟩ := C01_cart_comp 15 ⟨0, 0⟩ ⟨1, 0⟩ ⟨2, 0⟩ (intHeap3 136)
    (by intro k hk; simp [intHeap3]; omega) (by intro k hk; simp [intHeap3]; omega)
    (by intro k hk; simp [intHeap3]; omega)
    (by intro i j _ _; simp [Ptr.ext_iff']) (by intro i j _ _; simp [Ptr.ext_iff'])
    (by intro i j _ _; simp [Ptr.ext_iff'])
  exact ⟨h', hr⟩

/-- **C01** (array bound) For every `l ≤ ANG_MAX = 15` the number of components fits
the fixed arrays of `CART_MAX = 136` entries (include/cint.h.in:110-112). -/
theorem C01_cart_max (l : Nat) (hl : l ≤ 15) : (l+1)*(l+2)/2 ≤ 136 := by
  have : (l+1)*(l+2) ≤ 16 * 17 := Nat.mul_le_mul (by omega) (by omega)
  omega

/-- **C01** `CINTlen_cart` is the number of components. -/
theorem C01_len_cart (l : Nat) : lenCart l = Spec.ncart l := rfl

/-- What it means for a table of shell offsets to tile an index range. -/
structure Tiles (nbas : Nat) (size : Nat → Nat) (off : Nat → Nat) (total : Nat) : Prop where
  first : off 0 = 0
  next : ∀ i, i + 1 < nbas → off (i + 1) = off i + size i
  last : ∀ i, i + 1 = nbas → off i + size i = total
  cover : ∀ mu, mu < total → ∃ i, i < nbas ∧ off i ≤ mu ∧ mu < off i + size i
  disjoint : ∀ mu i j, i < nbas → j < nbas → off i ≤ mu → mu < off i + size i →
    off j ≤ mu → mu < off j + size j → i = j

/-- **C02**, generic in the function-pointer argument. -/
theorem C02_offsets_tile (f : Shell → Nat) (bas : Nat → Shell) (nbas : Nat) (loc : Ptr)
    (h : Heap α) (hn : 0 < nbas) (ha : ∀ i, i < nbas → h.I (loc + i) ≠ .oob) :
    ∃ h' off, run (shellsCgtoOffset f loc bas nbas) h = some ((), h') ∧
      (∀ i, i < nbas → h'.I (loc + i) = .val ((off i : Nat) : Int)) ∧
      Tiles nbas (fun i => f (bas i)) off (totCgtoAccum f bas nbas) ∧
      h'.D = h.D ∧ (∀ q, (∀ i, i < nbas → q ≠ loc + i) → h'.I q = h.I q) := by
  obtain ⟨_, h', hr, H⟩ := run_of_wp (shellsCgtoOffset_wp f loc bas nbas h hn ha)
  refine ⟨h', accum (fun s => f (bas s)), hr, fun i hi => H.val i hi, ?_, H.dbl, H.frame⟩
  refine ⟨rfl, fun i _ => rfl, ?_, ?_, ?_⟩
  · rintro i rfl; rfl
  · intro mu hmu; exact accum_locate _ _ _ hmu
  · intro mu i j _ _ h1 h2 h3 h4
    exact accum_locate_unique _ ⟨h1, h2⟩ ⟨h3, h4⟩

/-- **C02** Cartesian offsets tile `[0, CINTtot_cgto_cart)`. -/
theorem C02_cart (bas : Nat → Shell) (nbas : Nat) (loc : Ptr) (h : Heap α) (hn : 0 < nbas)
    (ha : ∀ i, i < nbas → h.I (loc + i) ≠ .oob) :
    ∃ h' off, run (shellsCartOffset loc bas nbas) h = some ((), h') ∧
      (∀ i, i < nbas → h'.I (loc + i) = .val ((off i : Nat) : Int)) ∧
      Tiles nbas (fun i => Spec.ncart (bas i).angOf * (bas i).nctr) off (totCgtoCart bas nbas) := by
  obtain ⟨h', off, hr, hv, ht, _⟩ := C02_offsets_tile cgtoCart bas nbas loc h hn ha
  exact ⟨h', off, hr, hv, ht⟩

/-- **C02** Spherical offsets tile `[0, CINTtot_cgto_spheric)`. -/
theorem C02_spheric (bas : Nat → Shell) (nbas : Nat) (loc : Ptr) (h : Heap α) (hn : 0 < nbas)
    (ha : ∀ i, i < nbas → h.I (loc + i) ≠ .oob) :
    ∃ h' off, run (shellsSphericOffset loc bas nbas) h = some ((), h') ∧
      (∀ i, i < nbas → h'.I (loc + i) = .val ((off i : Nat) : Int)) ∧
      Tiles nbas (fun i => (2 * (bas i).angOf + 1) * (bas i).nctr) off
        (totCgtoSpheric bas nbas) := by
  obtain ⟨h', off, hr, hv, ht, _⟩ := C02_offsets_tile cgtoSpheric bas nbas loc h hn ha
  refine ⟨h', off, hr, hv, ?_⟩
  have e : (fun i => (2 * (bas i).angOf + 1) * (bas i).nctr) = fun i => cgtoSpheric (bas i) := by
    funext i; simp [cgtoSpheric, Nat.mul_comm]
  rw [e]; exact ht

/-- number of functions of a spinor shell: `2j+1` for each `j = l ± 1/2` selected by kappa -/
def spinorCount (kappa : Int) (l : Nat) : Nat :=
  (if kappa ≤ 0 then 2 * l + 2 else 0) + (if 0 ≤ kappa then 2 * l else 0)

/-- **C02** Spinor offsets tile `[0, CINTtot_cgto_spinor)`. -/
theorem C02_spinor (bas : Nat → Shell) (nbas : Nat) (loc : Ptr) (h : Heap α) (hn : 0 < nbas)
    (ha : ∀ i, i < nbas → h.I (loc + i) ≠ .oob) :
    ∃ h' off, run (shellsSpinorOffset loc bas nbas) h = some ((), h') ∧
      (∀ i, i < nbas → h'.I (loc + i) = .val ((off i : Nat) : Int)) ∧
      Tiles nbas (fun i => spinorCount (bas i).kappa (bas i).angOf * (bas i).nctr) off
        (totCgtoSpinor bas nbas) := by
  obtain ⟨h', off, hr, hv, ht, _⟩ := C02_offsets_tile cgtoSpinor bas nbas loc h hn ha
  refine ⟨h', off, hr, hv, ?_⟩
  have e : (fun i => spinorCount (bas i).kappa (bas i).angOf * (bas i).nctr) =
      fun i => cgtoSpinor (bas i) := by
    funext i
    simp only [cgtoSpinor, lenSpinor, spinorCount]
    congr 1
    split <;> split <;> split <;> (try split) <;> omega
  rw [e]; exact ht

/-- a basis of two shells, heap with an offset array of two entries: hypotheses of C02 are met -/
example : ∃ h' off, run (shellsSphericOffset ⟨0, 0⟩
      (fun i => if i = 0 then { angOf := 2, nctr := 3 } else { angOf := 1 }) 2)
      (intHeap3 2) = some ((), h') ∧
      Tiles 2 (fun i => (2 * ((fun i => if i = 0 then ({ angOf := 2, nctr := 3 } : Shell)
        else { angOf := 1 }) i).angOf + 1) * ((fun i => if i = 0 then
          ({ angOf := 2, nctr := 3 } : Shell) else { angOf := 1 }) i).nctr) off 18 := by
  obtain ⟨h', off, hr, _, ht⟩ := C02_spheric
    (fun i => if i = 0 then ({ angOf := 2, nctr := 3 } : Shell) else { angOf := 1 }) 2 ⟨0, 0⟩
    (intHeap3 2) (by omega) (by intro i hi; simp [intHeap3]; omega)
  exact ⟨h', off, hr, ht⟩

/-- **C02** (observation) with an empty basis the offset functions still store
`ao_loc[0]`: a zero-length array is overrun. -/
theorem C02_empty_basis_writes (f : Shell → Nat) (bas : Nat → Shell) (loc : Ptr) (h : Heap α)
    (ho : h.I loc = .oob) : run (shellsCgtoOffset f loc bas 0) h = none := by
  show run (Prog.wrI loc 0 _) h = none
  simp [run, ho]

/-- **C03** spinor sizes: basis query, transformation code and specification agree. -/
theorem C03_spinor_size (b : Shell) :
    lenSpinor b = spinorCount b.kappa b.angOf ∧
    lenSpinorC2S b.kappa b.angOf = lenSpinor b := by
  simp only [lenSpinor, spinorCount, lenSpinorC2S]
  constructor
  · split <;> split <;> split <;> (try split) <;> omega
  · by_cases h : b.kappa = 0
    · simp [h]
    · simp [h, Ne.symm h]

/-- **C03** kappa = 0 gives both `j` values, twice the real spherical functions. -/
theorem C03_kappa0 (b : Shell) (h : b.kappa = 0) :
    cgtoSpinor b = 2 * cgtoSpheric b ∧
    lenSpinor b = lenSpinor { b with kappa := -1 } + lenSpinor { b with kappa := 1 } := by
  simp only [cgtoSpinor, cgtoSpheric, lenSpinor, h]
  refine ⟨?_, by simp; omega⟩
  simp only [if_true]
  rw [← Nat.mul_assoc]; congr 1; omega

example : cgtoSpinor { angOf := 2, nctr := 3 } = 30 := by decide

end Verif.Props
