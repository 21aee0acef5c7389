import Verif.Lemmas.Index
import Mathlib.Tactic.Ring

/-
Property C07: index tables.  The intermediates of direction `c` are stored in the slab
`[c*g_size, (c+1)*g_size)` of `g`; `slab2`, `slab3`, `slab4` give the place of the
intermediate with the given powers and root number inside a slab.
-/
namespace Verif.Props
open Verif Verif.Model Prog Spec

variable {α : Type}

/-- place of the two-centre intermediate with powers `a`, `b`, for root `r` -/
def slab2 (e : EnvG) (a b r : Nat) : Nat := e.g_stride_i * a + e.g_stride_j * b + r
/-- place of the three-centre intermediate -/
def slab3 (e : EnvG) (a b k r : Nat) : Nat :=
  e.g_stride_i * a + e.g_stride_j * b + e.g_stride_k * k + r
/-- place of the four-centre intermediate -/
def slab4 (e : EnvG) (a b k l r : Nat) : Nat :=
  e.g_stride_i * a + e.g_stride_j * b + e.g_stride_k * k + e.g_stride_l * l + r

theorem pw_le {l c k : Nat} (hk : k < ncart l) : pw l c k ≤ l := by
  have := psum hk
  unfold pw; split <;> omega

theorem dimA_gt (a b : Nat) : a < dimA a b := by unfold dimA; split <;> omega
theorem dimB_gt (a b : Nat) : b < dimB a b := by unfold dimB; split <;> omega

/-- **C07** contents of the two-centre table (one-electron, grid and two-centre two-electron
integrals): for every pair of functions the three addresses are those of the intermediates
with the powers of the pair. -/
theorem C07_table_two {e : EnvG} {h : Heap α} {idx loc : Ptr} (hi : e.i_l ≤ 15) (hj : e.j_l ≤ 15)
    (hnfi : e.nfi = ncart e.i_l) (hnfj : e.nfj = ncart e.j_l)
    (M : IdxMem h idx loc (3*(e.nfj*e.nfi))) :
    ∃ h', run (g1eIndex idx loc e) h = some ((), h') ∧
      (∀ i j c, i < ncart e.i_l → j < ncart e.j_l → c < 3 →
        h'.I (idx + (3*(j*e.nfi + i) + c)) =
          .val ((c*e.g_size + slab2 e (pw e.i_l c i) (pw e.j_l c j) 0 : Nat) : Int)) ∧
      AgreeI h h' (fun q => Blk idx (3*(e.nfj*e.nfi)) q ∨ Blk loc (12*136) q) ∧ h'.D = h.D := by
  obtain ⟨u, h', hr, H⟩ := run_of_wp (g1eIndex_wp hi hj hnfi hnfj M)
  refine ⟨h', hr, ?_, H.agree, H.dbl⟩
  intro i j c hi' hj' hc
  rw [← hnfi] at hi'; rw [← hnfj] at hj'
  have := radix_lt hj' hi'
  rw [H.val _ (by omega), show 3*(j*e.nfi+i)+c = 3*(j*e.nfi)+3*i+c by omega, tblF_eq hi' hc]
  unfold slab2
  push_cast
  congr 1; ring

/-- **C07** contents of the four-shell table (two-electron, three-centre two-electron and
four-centre one-electron integrals), output order `i` fastest, then `k`, `l`, `j`. -/
theorem C07_table_four {e : EnvG} {h : Heap α} {idx loc : Ptr} (hi : e.i_l ≤ 15) (hj : e.j_l ≤ 15)
    (hk : e.k_l ≤ 15) (hl : e.l_l ≤ 15)
    (hnfi : e.nfi = ncart e.i_l) (hnfj : e.nfj = ncart e.j_l)
    (hnfk : e.nfk = ncart e.k_l) (hnfl : e.nfl = ncart e.l_l)
    (M : IdxMem h idx loc (3*(e.nfj*e.nfl*e.nfk*e.nfi))) :
    ∃ h', run (g2eIndex idx loc e) h = some ((), h') ∧
      (∀ i j k l c, i < ncart e.i_l → j < ncart e.j_l → k < ncart e.k_l → l < ncart e.l_l → c < 3 →
        h'.I (idx + (3*(((j*e.nfl + l)*e.nfk + k)*e.nfi + i) + c)) =
          .val ((c*e.g_size + slab4 e (pw e.i_l c i) (pw e.j_l c j) (pw e.k_l c k)
            (pw e.l_l c l) 0 : Nat) : Int)) ∧
      AgreeI h h' (fun q => Blk idx (3*(e.nfj*e.nfl*e.nfk*e.nfi)) q ∨ Blk loc (12*136) q) ∧
      h'.D = h.D := by
  obtain ⟨u, h', hr, H⟩ := run_of_wp (g2eIndex_wp hi hj hk hl hnfi hnfj hnfk hnfl M)
  refine ⟨h', hr, ?_, H.agree, H.dbl⟩
  intro i j k l c hi' hj' hk' hl' hc
  rw [← hnfi] at hi'; rw [← hnfj] at hj'; rw [← hnfk] at hk'; rw [← hnfl] at hl'
  have := radix_lt (radix_lt (radix_lt hj' hl') hk') hi'
  rw [H.val _ (by omega), show ∀ m, 3*(m*e.nfi+i)+c = 3*(m*e.nfi)+3*i+c by intro m; omega,
    tblF_eq hi' hc]
  unfold slab4 g2eVal
  rw [row_div hk', row_mod hk', row_div hl', row_mod hl']
  push_cast
  congr 1; ring

/-- **C07** contents of the three-shell table of three-centre one-electron integrals. -/
theorem C07_table_three {e : EnvG} {h : Heap α} {idx loc : Ptr} (hi : e.i_l ≤ 15) (hj : e.j_l ≤ 15)
    (hk : e.k_l ≤ 15) (hsi : e.g_stride_i = 1)
    (hnfi : e.nfi = ncart e.i_l) (hnfj : e.nfj = ncart e.j_l) (hnfk : e.nfk = ncart e.k_l)
    (M : IdxMem h idx loc (3*(e.nfk*e.nfj*e.nfi))) :
    ∃ h', run (g3c1eIndex idx loc e) h = some ((), h') ∧
      (∀ i j k c, i < ncart e.i_l → j < ncart e.j_l → k < ncart e.k_l → c < 3 →
        h'.I (idx + (3*((k*e.nfj + j)*e.nfi + i) + c)) =
          .val ((c*e.g_size + slab3 e (pw e.i_l c i) (pw e.j_l c j) (pw e.k_l c k) 0 : Nat) : Int)) ∧
      AgreeI h h' (fun q => Blk idx (3*(e.nfk*e.nfj*e.nfi)) q ∨ Blk loc (12*136) q) ∧
      h'.D = h.D := by
  obtain ⟨u, h', hr, H⟩ := run_of_wp (g3c1eIndex_wp hi hj hk hnfi hnfj hnfk M)
  refine ⟨h', hr, ?_, H.agree, H.dbl⟩
  intro i j k c hi' hj' hk' hc
  rw [← hnfi] at hi'; rw [← hnfj] at hj'; rw [← hnfk] at hk'
  have := radix_lt (radix_lt hk' hj') hi'
  rw [H.val _ (by omega), show ∀ m, 3*(m*e.nfi+i)+c = 3*(m*e.nfi)+3*i+c by intro m; omega,
    tblF_eq hi' hc]
  unfold slab3 g3c1eVal
  rw [row_div hj', row_mod hj', hsi]
  push_cast
  congr 1; ring

/-! ### Ranges and distinctness -/

theorem digits3 {R A B a b r : Nat} (ha : a < A) (hb : b < B) (hr : r < R) :
    R*a + R*A*b + r < R*A*B ∧
    ∀ a' b' r', a' < A → b' < B → r' < R → R*a + R*A*b + r = R*a' + R*A*b' + r' →
      a = a' ∧ b = b' ∧ r = r' := by
  have e : ∀ a b r : Nat, R*a + R*A*b + r = (b*A + a)*R + r := by intros; ring
  refine ⟨?_, ?_⟩
  · rw [e, show R*A*B = B*A*R by ring]
    exact radix_lt (radix_lt hb ha) hr
  · intro a' b' r' ha' hb' hr' h
    rw [e, e] at h
    obtain ⟨h1, h2⟩ := radix_inj hr hr' h
    obtain ⟨h3, h4⟩ := radix_inj ha ha' h1
    exact ⟨h4, h3, h2⟩

theorem digits5 {R A K L B a k l b r : Nat} (ha : a < A) (hk : k < K) (hl : l < L) (hb : b < B)
    (hr : r < R) :
    R*a + R*A*K*L*b + R*A*k + R*A*K*l + r < R*A*K*L*B ∧
    ∀ a' b' k' l' r', a' < A → b' < B → k' < K → l' < L → r' < R →
      R*a + R*A*K*L*b + R*A*k + R*A*K*l + r = R*a' + R*A*K*L*b' + R*A*k' + R*A*K*l' + r' →
      a = a' ∧ b = b' ∧ k = k' ∧ l = l' ∧ r = r' := by
  have e : ∀ a b k l r : Nat, R*a + R*A*K*L*b + R*A*k + R*A*K*l + r =
      (((b*L + l)*K + k)*A + a)*R + r := by intros; ring
  refine ⟨?_, ?_⟩
  · rw [e, show R*A*K*L*B = B*L*K*A*R by ring]
    exact radix_lt (radix_lt (radix_lt (radix_lt hb hl) hk) ha) hr
  · intro a' b' k' l' r' ha' hb' hk' hl' hr' h
    rw [e, e] at h
    obtain ⟨h1, h2⟩ := radix_inj hr hr' h
    obtain ⟨h3, h4⟩ := radix_inj ha ha' h1
    obtain ⟨h5, h6⟩ := radix_inj hk hk' h3
    obtain ⟨h7, h8⟩ := radix_inj hl hl' h5
    exact ⟨h4, h7, h6, h8, h2⟩

/-- the intermediates of a two-centre class lie in the slab and do not overlap -/
structure SlabOK2 (e : EnvG) (amax bmax roots : Nat) : Prop where
  range : ∀ a b r, a ≤ amax → b ≤ bmax → r < roots → slab2 e a b r < e.g_size
  inj : ∀ a b r a' b' r', a ≤ amax → b ≤ bmax → r < roots → a' ≤ amax → b' ≤ bmax → r' < roots →
    slab2 e a b r = slab2 e a' b' r' → a = a' ∧ b = b' ∧ r = r'

structure SlabOK3 (e : EnvG) (amax bmax kmax roots : Nat) : Prop where
  range : ∀ a b k r, a ≤ amax → b ≤ bmax → k ≤ kmax → r < roots → slab3 e a b k r < e.g_size
  inj : ∀ a b k r a' b' k' r', a ≤ amax → b ≤ bmax → k ≤ kmax → r < roots →
    a' ≤ amax → b' ≤ bmax → k' ≤ kmax → r' < roots →
    slab3 e a b k r = slab3 e a' b' k' r' → a = a' ∧ b = b' ∧ k = k' ∧ r = r'

structure SlabOK4 (e : EnvG) (amax bmax kmax lmax roots : Nat) : Prop where
  range : ∀ a b k l r, a ≤ amax → b ≤ bmax → k ≤ kmax → l ≤ lmax → r < roots →
    slab4 e a b k l r < e.g_size
  inj : ∀ a b k l r a' b' k' l' r', a ≤ amax → b ≤ bmax → k ≤ kmax → l ≤ lmax → r < roots →
    a' ≤ amax → b' ≤ bmax → k' ≤ kmax → l' ≤ lmax → r' < roots →
    slab4 e a b k l r = slab4 e a' b' k' l' r' → a = a' ∧ b = b' ∧ k = k' ∧ l = l' ∧ r = r'

theorem slabOK2_of {e : EnvG} {R A B amax bmax : Nat} (h1 : e.g_stride_i = R)
    (h2 : e.g_stride_j = R*A) (h3 : e.g_size = R*A*B) (ha : amax < A) (hb : bmax < B) :
    SlabOK2 e amax bmax R where
  range := fun a b r h4 h5 h6 => by
    unfold slab2; rw [h1, h2, h3]
    exact (digits3 (A := A) (B := B) (by omega) (by omega) h6).1
  inj := fun a b r a' b' r' h4 h5 h6 h7 h8 h9 h10 => by
    unfold slab2 at h10; rw [h1, h2] at h10
    exact (digits3 (A := A) (B := B) (by omega) (by omega) h6).2 a' b' r' (by omega) (by omega) h9 h10

theorem slabOK4_of {e : EnvG} {R A K L B amax bmax kmax lmax : Nat} (h1 : e.g_stride_i = R)
    (h2 : e.g_stride_k = R*A) (h3 : e.g_stride_l = R*A*K) (h4 : e.g_stride_j = R*A*K*L)
    (h5 : e.g_size = R*A*K*L*B) (ha : amax < A) (hb : bmax < B) (hk : kmax < K) (hl : lmax < L) :
    SlabOK4 e amax bmax kmax lmax R where
  range := fun a b k l r i1 i2 i3 i4 i5 => by
    unfold slab4; rw [h1, h2, h3, h4, h5]
    exact (digits5 (A := A) (B := B) (K := K) (L := L) (by omega) (by omega) (by omega) (by omega) i5).1
  inj := fun a b k l r a' b' k' l' r' i1 i2 i3 i4 i5 j1 j2 j3 j4 j5 h => by
    unfold slab4 at h; rw [h1, h2, h3, h4] at h
    exact (digits5 (A := A) (B := B) (K := K) (L := L) (by omega) (by omega) (by omega) (by omega) i5).2
      a' b' k' l' r' (by omega) (by omega) (by omega) (by omega) j5 h

/-- **C07** one-electron integrals: for all angular momenta and increments, the intermediates
up to the incremented powers, for every root, have distinct places inside the slab. -/
theorem C07_slab_int1e (li lj : Nat) (ng : Inc) :
    SlabOK2 (initInt1e li lj ng) (li + ng.i) (lj + ng.j) (initInt1e li lj ng).nrys_roots :=
  slabOK2_of (A := dimA (li+ng.i) (lj+ng.j)) (B := dimB (li+ng.i) (lj+ng.j)) rfl rfl rfl
    (dimA_gt _ _) (dimB_gt _ _)

/-- **C07** integrals on grids: there is room for 104 grid points per root. -/
theorem C07_slab_grids (li lj : Nat) (ng : Inc) (sr : Bool) :
    SlabOK2 (initGrids li lj ng sr) (li + ng.i) (lj + ng.j)
      (104 * (initGrids li lj ng sr).nrys_roots) :=
  slabOK2_of (A := dimA (li+ng.i) (lj+ng.j)) (B := dimB (li+ng.i) (lj+ng.j)) rfl rfl rfl
    (dimA_gt _ _) (dimB_gt _ _)

/-- **C07** two-centre two-electron integrals. -/
theorem C07_slab_int2c2e (li lk : Nat) (ng : Inc) (sr : Bool) :
    SlabOK2 (initInt2c2e li lk ng sr) (li + ng.i) (lk + ng.k) (initInt2c2e li lk ng sr).nrys_roots :=
  slabOK2_of (A := li + ng.i + 1) (B := lk + ng.k + 1) rfl rfl rfl (by omega) (by omega)

/-- **C07** two-electron integrals. -/
theorem C07_slab_int2e (li lj lk ll : Nat) (ng : Inc) (sr : Bool) :
    SlabOK4 (initInt2e li lj lk ll ng sr) (li + ng.i) (lj + ng.j) (lk + ng.k) (ll + ng.l)
      (initInt2e li lj lk ll ng sr).nrys_roots :=
  slabOK4_of (A := dimA (li+ng.i) (lj+ng.j)) (B := dimB (li+ng.i) (lj+ng.j))
    (K := dimA (lk+ng.k) (ll+ng.l)) (L := dimB (lk+ng.k) (ll+ng.l)) rfl rfl rfl rfl rfl
    (dimA_gt _ _) (dimB_gt _ _) (dimA_gt _ _) (dimB_gt _ _)

/-- **C07** four-centre one-electron integrals. -/
theorem C07_slab_int4c1e (li lj lk ll : Nat) (ng : Inc) :
    SlabOK4 (initInt4c1e li lj lk ll ng) (li + ng.i) (lj + ng.j) (lk + ng.k) (ll + ng.l) 1 :=
  slabOK4_of (A := dimA (li+ng.i) (lj+ng.j)) (B := dimB (li+ng.i) (lj+ng.j))
    (K := dimA (lk+ng.k) (ll+ng.l)) (L := dimB (lk+ng.k) (ll+ng.l)) rfl
    (by simp [initInt4c1e]) (by simp [initInt4c1e]) (by simp [initInt4c1e])
    (by simp [initInt4c1e]) (dimA_gt _ _) (dimB_gt _ _) (dimA_gt _ _) (dimB_gt _ _)

/-- **C07** three-centre two-electron integrals: the table uses the powers of the third shell
with the stride of `k`. -/
theorem C07_slab_int3c2e (li lj lk : Nat) (ng : Inc) (sr : Bool) :
    SlabOK3 (initInt3c2e li lj lk ng sr) (li + ng.i) (lj + ng.j) (lk + ng.k)
      (initInt3c2e li lj lk ng sr).nrys_roots := by
  let e := initInt3c2e li lj lk ng sr
  have hs : ∀ a b k r, slab3 e a b k r = e.nrys_roots*a +
      e.nrys_roots*dimA (li+ng.i) (lj+ng.j)*(lk+ng.k+1)*1*b +
      e.nrys_roots*dimA (li+ng.i) (lj+ng.j)*k +
      e.nrys_roots*dimA (li+ng.i) (lj+ng.j)*(lk+ng.k+1)*0 + r := by
    intro a b k r
    unfold slab3; rw [Nat.mul_zero, Nat.add_zero, Nat.mul_one]; rfl
  have hg : e.g_size = e.nrys_roots*dimA (li+ng.i) (lj+ng.j)*(lk+ng.k+1)*1*
      dimB (li+ng.i) (lj+ng.j) := by rw [Nat.mul_one]; rfl
  have hA := dimA_gt (li+ng.i) (lj+ng.j)
  have hB := dimB_gt (li+ng.i) (lj+ng.j)
  refine ⟨?_, ?_⟩
  · intro a b k r h1 h2 h3 h4
    show slab3 e a b k r < e.g_size
    rw [hs, hg]
    exact (digits5 (by omega) (by omega) (by omega) (by omega) h4).1
  · intro a b k r a' b' k' r' h1 h2 h3 h4 h5 h6 h7 h8 h
    change slab3 e a b k r = slab3 e a' b' k' r' at h
    rw [hs, hs] at h
    obtain ⟨q1, q2, q3, q4, q5⟩ := (digits5 (A := dimA (li+ng.i) (lj+ng.j)) (K := lk+ng.k+1)
      (B := dimB (li+ng.i) (lj+ng.j)) (L := 1)
      (by omega) (by omega) (by omega) (by omega) h4).2 a' b' k' 0 r' (by omega) (by omega) (by omega)
      (by omega) h8 h
    exact ⟨q1, q2, q3, q5⟩

/-- **C07** three-centre one-electron integrals. -/
theorem C07_slab_int3c1e (li lj lk : Nat) (ng : Inc) :
    SlabOK3 (initInt3c1e li lj lk ng) (li + ng.i) (lj + ng.j) (lk + ng.k) 1 := by
  let A := li + ng.i + 1
  let B := lj + ng.j + (lk + ng.k) + 1
  have hs : ∀ a b k r, slab3 (initInt3c1e li lj lk ng) a b k r = 1*a + 1*A*1*1*b*1 + 1*A*B*k + r := by
    intro a b k r
    simp [slab3, initInt3c1e, A, B]
  have hg : A*B*(lk + ng.k + 1) ≤ (initInt3c1e li lj lk ng).g_size := Nat.le_max_left _ _
  have e : ∀ a b k r : Nat, 1*a + 1*A*1*1*b*1 + 1*A*B*k + r = ((k*B + b)*A + a)*1 + r := by
    intros; ring
  refine ⟨?_, ?_⟩
  · intro a b k r h1 h2 h3 h4
    rw [hs, e]
    refine Nat.lt_of_lt_of_le (radix_lt (n := (lk+ng.k+1)*B*A)
      (radix_lt (n := (lk+ng.k+1)*B) (radix_lt (n := lk+ng.k+1) (by omega) ?_) ?_) h4) ?_
    · dsimp only [B]; omega
    · dsimp only [A]; omega
    · refine Nat.le_trans (Nat.le_of_eq ?_) hg
      ring
  · intro a b k r a' b' k' r' h1 h2 h3 h4 h5 h6 h7 h8 h
    rw [hs, hs, e, e] at h
    obtain ⟨q1, q2⟩ := radix_inj h4 h8 h
    obtain ⟨q3, q4⟩ := radix_inj (by dsimp only [A]; omega) (by dsimp only [A]; omega) q1
    obtain ⟨q5, q6⟩ := radix_inj (by dsimp only [B]; omega) (by dsimp only [B]; omega) q3
    exact ⟨q4, q6, q5, q2⟩

/-- **C07** Range of the table entries: in a class whose places are in range, the entry for
direction `c` and any root stays in slab `c` (shown for the four-shell table; `pw_le` bounds the
powers by the angular momentum). -/
theorem C07_entry_in_slab {e : EnvG} {lic ljc lkc llc R : Nat} (S : SlabOK4 e lic ljc lkc llc R)
    (h1 : e.i_l ≤ lic) (h2 : e.j_l ≤ ljc) (h3 : e.k_l ≤ lkc) (h4 : e.l_l ≤ llc)
    {i j k l c r : Nat} (hi : i < ncart e.i_l) (hj : j < ncart e.j_l) (hk : k < ncart e.k_l)
    (hl : l < ncart e.l_l) (hr : r < R) :
    let x := c*e.g_size + slab4 e (pw e.i_l c i) (pw e.j_l c j) (pw e.k_l c k) (pw e.l_l c l) 0
    c*e.g_size ≤ x ∧ x + r < (c+1)*e.g_size := by
  intro x
  refine ⟨Nat.le_add_right _ _, ?_⟩
  have := S.range (pw e.i_l c i) (pw e.j_l c j) (pw e.k_l c k) (pw e.l_l c l) r
    (Nat.le_trans (pw_le hi) h1) (Nat.le_trans (pw_le hj) h2) (Nat.le_trans (pw_le hk) h3)
    (Nat.le_trans (pw_le hl) h4) hr
  rw [Nat.add_mul, Nat.one_mul]
  dsimp only [x]
  unfold slab4 at this ⊢
  omega

/-- **C07** for two-electron integrals the shape hypotheses of `C07_table_four` hold, so the
table of every quartet with `l ≤ 15` is as described. -/
theorem C07_int2e {li lj lk ll : Nat} (ng : Inc) (sr : Bool) {h : Heap α} {idx loc : Ptr}
    (hi : li ≤ 15) (hj : lj ≤ 15) (hk : lk ≤ 15) (hl : ll ≤ 15)
    (M : IdxMem h idx loc (3*(ncart lj*ncart ll*ncart lk*ncart li))) :
    ∃ h', run (g2eIndex idx loc (initInt2e li lj lk ll ng sr)) h = some ((), h') ∧
      ∀ i j k l c r, i < ncart li → j < ncart lj → k < ncart lk → l < ncart ll → c < 3 →
        r < (initInt2e li lj lk ll ng sr).nrys_roots →
        ∃ x : Nat, h'.I (idx + (3*(((j*ncart ll + l)*ncart lk + k)*ncart li + i) + c)) = .val (x : Int) ∧
          x = c*(initInt2e li lj lk ll ng sr).g_size + slab4 (initInt2e li lj lk ll ng sr)
            (pw li c i) (pw lj c j) (pw lk c k) (pw ll c l) 0 ∧
          c*(initInt2e li lj lk ll ng sr).g_size ≤ x ∧
          x + r < (c+1)*(initInt2e li lj lk ll ng sr).g_size := by
  obtain ⟨h', hr, H, -⟩ := C07_table_four (e := initInt2e li lj lk ll ng sr) hi hj hk hl rfl rfl rfl rfl M
  refine ⟨h', hr, ?_⟩
  intro i j k l c r i1 i2 i3 i4 i5 i6
  refine ⟨_, H i j k l c i1 i2 i3 i4 i5, rfl, ?_⟩
  exact C07_entry_in_slab (C07_slab_int2e li lj lk ll ng sr) (Nat.le_add_right _ _)
    (Nat.le_add_right _ _) (Nat.le_add_right _ _) (Nat.le_add_right _ _) i1 i2 i3 i4 i6

/-- the other classes meet the shape hypotheses -/
theorem C07_shapes (li lj lk ll : Nat) (ng : Inc) (sr : Bool) :
    ((initInt1e li lj ng).nfi = ncart li ∧ (initInt1e li lj ng).nfj = ncart lj) ∧
    ((initGrids li lj ng sr).nfi = ncart li ∧ (initGrids li lj ng sr).nfj = ncart lj) ∧
    ((initInt2c2e li lk ng sr).nfi = ncart li ∧ (initInt2c2e li lk ng sr).nfj = ncart lk ∧
      (initInt2c2e li lk ng sr).j_l = lk) ∧
    ((initInt3c2e li lj lk ng sr).nfk = ncart lk ∧
      (initInt3c2e li lj lk ng sr).nfl = ncart (initInt3c2e li lj lk ng sr).l_l) ∧
    ((initInt3c1e li lj lk ng).nfk = ncart lk ∧ (initInt3c1e li lj lk ng).g_stride_i = 1) ∧
    ((initInt4c1e li lj lk ll ng).nfl = ncart ll) :=
  ⟨⟨rfl, rfl⟩, ⟨rfl, rfl⟩, ⟨rfl, rfl, rfl⟩, ⟨rfl, (by show 1 = ncart 0; decide)⟩, ⟨rfl, rfl⟩, rfl⟩

/-- memory for an index table exists: a (d f| p g) table with first-derivative increments -/
example : ∃ (h : Heap Int) (idx loc : Ptr),
    IdxMem h idx loc (3*(ncart 3*ncart 4*ncart 1*ncart 2)) :=
  ⟨⟨fun _ => .undef, fun _ => .undef⟩, ⟨0,0⟩, ⟨1,0⟩, fun _ _ => by simp, fun _ _ => by simp,
    fun i j _ _ e => by have := congrArg Ptr.buf e; simp at this⟩

end Verif.Props
