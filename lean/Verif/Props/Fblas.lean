import Verif.Lemmas.Fblas
import Mathlib.Data.Matrix.Mul
import Mathlib.Data.Complex.Basic
import Mathlib.Algebra.BigOperators.Fin

/-
Properties C04 (transposition kernels) and C05 (matrix products) of src/fblas.c.
`HoldsD h p n f`: the n cells at p hold f 0 .. f (n-1).  `AllocD h p n`: the n cells
at p are writable.  `Disj p m q n`: the two blocks do not overlap.
-/
namespace Verif.Props
open Verif Verif.Model Prog

variable {α : Type}

/-- **C04** `CINTdmat_transpose`: for all shapes the output is the exact transpose; nothing
else is written, no undefined behaviour. -/
theorem C04_transpose (m n : Nat) (a at' : Ptr) (A : Nat → α) (h : Heap α)
    (hA : HoldsD h a (m*n) A) (hat : AllocD h at' (n*m)) (hd : Disj a (m*n) at' (n*m)) :
    ∃ h', run (dmatTranspose at' a m n) h = some ((), h') ∧
      (∀ i j, i < m → j < n → h'.D (at' + (j*m+i)) = .val (A (i*n+j))) ∧
      (∀ q, (∀ k, k < n*m → q ≠ at' + k) → h'.D q = h.D q) ∧ h'.I = h.I := by
  obtain ⟨_, h', hr, H⟩ := run_of_wp (dmatTranspose_wp hA hat hd)
  exact ⟨h', hr, fun i j hi hj => H.val (j, i) ⟨hj, hi⟩,
    fun q hq => H.frame q (fun p hp => hq _ (radix_lt hp.1 hp.2)), H.int⟩

/-- **C04** `CINTdplus_transpose`: adds the transpose to the old contents. -/
theorem C04_plus_transpose [Add α] (m n : Nat) (a at' : Ptr) (A B : Nat → α) (h : Heap α)
    (hA : HoldsD h a (m*n) A) (hB : HoldsD h at' (n*m) B) (hd : Disj a (m*n) at' (n*m)) :
    ∃ h', run (dplusTranspose at' a m n) h = some ((), h') ∧
      (∀ i j, i < m → j < n → h'.D (at' + (j*m+i)) = .val (B (j*m+i) + A (i*n+j))) ∧
      (∀ q, (∀ k, k < n*m → q ≠ at' + k) → h'.D q = h.D q) ∧ h'.I = h.I := by
  obtain ⟨_, h', hr, H⟩ := run_of_wp (dplusTranspose_wp hA hB hd)
  exact ⟨h', hr, fun i j hi hj => H.val (j, i) ⟨hj, hi⟩,
    fun q hq => H.frame q (fun p hp => hq _ (radix_lt hp.1 hp.2)), H.int⟩

/-- **C04** `CINTzmat_transpose`, including its special cases `n = 2` and `m = 2`. -/
theorem C04_ztranspose (m n : Nat) (a at' : Ptr) (A : Nat → α) (h : Heap α)
    (hA : HoldsD h a (m*n) A) (hat : AllocD h at' (n*m)) (hd : Disj a (m*n) at' (n*m)) :
    ∃ h', run (zmatTranspose at' a m n) h = some ((), h') ∧
      (∀ i j, i < m → j < n → h'.D (at' + (j*m+i)) = .val (A (i*n+j))) ∧
      (∀ q, (∀ k, k < n*m → q ≠ at' + k) → h'.D q = h.D q) ∧ h'.I = h.I := by
  obtain ⟨_, h', hr, H⟩ := run_of_wp (zmatTranspose_wp hA hat hd)
  exact ⟨h', hr, fun i j hi hj => H.val (j, i) ⟨hj, hi⟩,
    fun q hq => H.frame q (fun p hp => hq _ (radix_lt hp.1 hp.2)), H.int⟩

/-- **C04** `CINTzmat_dagger` is the conjugate transpose. -/
theorem C04_zdagger (m n : Nat) (a at' : Ptr) (A : Nat → ℂ) (h : Heap ℂ)
    (hA : HoldsD h a (m*n) A) (hat : AllocD h at' (n*m)) (hd : Disj a (m*n) at' (n*m)) :
    ∃ h', run (zmatDagger (starRingEnd ℂ) at' a m n) h = some ((), h') ∧
      (∀ i j, i < m → j < n → h'.D (at' + (j*m+i)) = .val (starRingEnd ℂ (A (i*n+j)))) ∧
      (∀ q, (∀ k, k < n*m → q ≠ at' + k) → h'.D q = h.D q) ∧ h'.I = h.I := by
  obtain ⟨_, h', hr, H⟩ := run_of_wp (zmatDagger_wp (starRingEnd ℂ) hA hat hd)
  exact ⟨h', hr, fun i j hi hj => H.val (j, i) ⟨hj, hi⟩,
    fun q hq => H.frame q (fun p hp => hq _ (radix_lt hp.1 hp.2)), H.int⟩

/-- Transposing twice gives the original matrix back. -/
theorem C04_transpose_involutive (m n : Nat) (a at' att : Ptr) (A : Nat → α) (h : Heap α)
    (hA : HoldsD h a (m*n) A) (hat : AllocD h at' (n*m)) (hatt : AllocD h att (m*n))
    (hd : Disj a (m*n) at' (n*m)) (hd2 : Disj at' (n*m) att (m*n)) :
    ∃ h', run (do dmatTranspose at' a m n; dmatTranspose att at' n m) h = some ((), h') ∧
      HoldsD h' att (m*n) A := by
  suffices hw : wp (do dmatTranspose at' a m n; dmatTranspose att at' n m : Prog α Unit)
      (fun _ h' => HoldsD h' att (m*n) A) h by
    obtain ⟨_, h', hr, H⟩ := run_of_wp hw
    exact ⟨h', hr, H⟩
  rw [wp_mbind]
  refine wp_mono (dmatTranspose_wp hA hat hd) (fun _ h1 H1 => ?_)
  have hT : HoldsD h1 at' (n*m) (fun x => A ((x % m) * n + x / m)) := by
    intro x hx
    have hm : 0 < m := Nat.pos_of_ne_zero (by rintro rfl; simp at hx)
    have h2 : x / m < n := Nat.div_lt_of_lt_mul (by rwa [Nat.mul_comm])
    have h3 := H1.val (x / m, x % m) ⟨h2, Nat.mod_lt _ hm⟩
    rw [tAddr] at h3
    simp only [Nat.div_add_mod'] at h3
    exact h3
  refine wp_mono (dmatTranspose_wp hT (fun i hi => H1.ne_oob (hatt i hi)) hd2) (fun _ h2 H2 => ?_)
  intro x hx
  have hn : 0 < n := Nat.pos_of_ne_zero (by rintro rfl; simp at hx)
  have h2' : x / n < m := Nat.div_lt_of_lt_mul (by rwa [Nat.mul_comm])
  have h3 := H2.val (x / n, x % n) ⟨h2', Nat.mod_lt _ hn⟩
  have h4 : ((x % n) * m + x / n) % m = x / n := by
    rw [Nat.add_comm, Nat.add_mul_mod_self_right, Nat.mod_eq_of_lt h2']
  have h5 : ((x % n) * m + x / n) / m = x % n := by
    rw [Nat.mul_comm, Nat.mul_add_div (by omega), Nat.div_eq_of_lt h2', Nat.add_zero]
  simp only [tAddr, Nat.div_add_mod', h4, h5] at h3
  exact h3

/-- a heap with double buffers 0, 1, 2, .. of `n` cells holding their own offset -/
def dblHeap (n : Nat) : Heap Nat :=
  { D := fun p => if p.off < n then .val p.off else .oob
    I := fun _ => .oob }

theorem dblHeap_holds {n k : Nat} (b : Nat) (hk : k ≤ n) :
    HoldsD (dblHeap n) ⟨b, 0⟩ k (fun i => i) := by
  intro i hi; simp [dblHeap]; omega

theorem disj_bufs {b b' : Nat} (hb : b ≠ b') (m n : Nat) : Disj ⟨b, 0⟩ m ⟨b', 0⟩ n := by
  intro i j _ _ e
  exact hb (by simpa using congrArg Ptr.buf e)

/-- hypotheses of the C04 theorems are met by a 5x7 matrix -/
example : ∃ h', run (dmatTranspose ⟨1, 0⟩ ⟨0, 0⟩ 5 7) (dblHeap 35) = some ((), h') ∧
    h'.D ((⟨1, 0⟩ : Ptr) + (6*5+4)) = .val (4*7+6) := by
  obtain ⟨h', hr, hv, _⟩ := C04_transpose 5 7 ⟨0, 0⟩ ⟨1, 0⟩ (fun i => i) (dblHeap 35)
    (dblHeap_holds 0 (by omega)) (dblHeap_holds 1 (by omega)).alloc (disj_bufs (by omega) _ _)
  exact ⟨h', hr, hv 4 6 (by omega) (by omega)⟩

/-- **C05** `CINTdgemm_NN1` for all shapes and any leading dimension `ldc ≥ m`: entry (i,j)
of C is the sum over kp, in program order, of A[i,kp]*B[kp,j]; only the m x n block of C is
written. No algebraic law is assumed, so this holds for floating-point arithmetic too. -/
theorem C05_gemm_NN1 [Zero α] [Add α] [Mul α] (m n k ldc : Nat) (a b c : Ptr) (A B : Nat → α)
    (h : Heap α) (hldc : m ≤ ldc) (hA : HoldsD h a (m*k) A) (hB : HoldsD h b (k*n) B)
    (hC : ∀ j i, j < n → i < m → h.D (c + (i+ldc*j)) ≠ .oob)
    (hdA : ∀ x j i, x < m*k → j < n → i < m → a + x ≠ c + (i+ldc*j))
    (hdB : ∀ x j i, x < k*n → j < n → i < m → b + x ≠ c + (i+ldc*j)) :
    ∃ h', run (dgemmNN1 m n k a b c ldc) h = some ((), h') ∧
      (∀ i j, i < m → j < n → h'.D (c + (i+ldc*j)) =
        .val (Spec.lsum k fun kp => A (i+m*kp) * B (kp+k*j))) ∧
      (∀ q, (∀ i j, i < m → j < n → q ≠ c + (i+ldc*j)) → h'.D q = h.D q) ∧ h'.I = h.I := by
  obtain ⟨_, h', hr, H⟩ := run_of_wp (gemmAcc_wp (bidx := fun kp j => kp+k*j) hldc hA hB
    (fun kp j hk hj => radix_lt' hj hk) hC hdA hdB)
  exact ⟨h', hr, fun i j hi hj => H.val (j, i) ⟨hj, hi⟩,
    fun q hq => H.frame q (fun p hp => hq _ _ hp.2 hp.1), H.int⟩

/-- **C05** `CINTdgemm_TN`: C = Aᵀ B. -/
theorem C05_gemm_TN [Zero α] [Add α] [Mul α] (m n k : Nat) (a b c : Ptr) (A B : Nat → α)
    (h : Heap α) (hA : HoldsD h a (k*m) A) (hB : HoldsD h b (k*n) B) (hC : AllocD h c (m*n))
    (hdA : Disj a (k*m) c (m*n)) (hdB : Disj b (k*n) c (m*n)) :
    ∃ h', run (dgemmTN m n k a b c) h = some ((), h') ∧
      (∀ i j, i < m → j < n → h'.D (c + (i+m*j)) =
        .val (Spec.lsum k fun kp => A (kp+k*i) * B (kp+k*j))) ∧
      (∀ q, (∀ x, x < m*n → q ≠ c + x) → h'.D q = h.D q) ∧ h'.I = h.I := by
  obtain ⟨_, h', hr, H⟩ := run_of_wp (dgemmTN_wp hA hB hC hdA hdB)
  exact ⟨h', hr, fun i j hi hj => H.val (j, i) ⟨hj, hi⟩,
    fun q hq => H.frame q (fun p hp => hq _ (radix_lt' hp.1 hp.2)), H.int⟩

/-- **C05** `CINTdgemm_NT`: C = A Bᵀ. -/
theorem C05_gemm_NT [Zero α] [Add α] [Mul α] (m n k : Nat) (a b c : Ptr) (A B : Nat → α)
    (h : Heap α) (hA : HoldsD h a (m*k) A) (hB : HoldsD h b (k*n) B) (hC : AllocD h c (m*n))
    (hdA : Disj a (m*k) c (m*n)) (hdB : Disj b (k*n) c (m*n)) :
    ∃ h', run (dgemmNT m n k a b c) h = some ((), h') ∧
      (∀ i j, i < m → j < n → h'.D (c + (i+m*j)) =
        .val (Spec.lsum k fun kp => A (i+m*kp) * B (j+n*kp))) ∧
      (∀ q, (∀ x, x < m*n → q ≠ c + x) → h'.D q = h.D q) ∧ h'.I = h.I := by
  obtain ⟨_, h', hr, H⟩ := run_of_wp (gemmAcc_wp (m := m) (ldc := m) (c := c)
    (bidx := fun kp j => j+n*kp) (le_refl m) hA hB
    (fun kp j hk hj => by rw [Nat.mul_comm k n]; exact radix_lt' hk hj)
    (fun j i hj hi => hC _ (radix_lt' hj hi))
    (fun x j i hx hj hi => hdA _ _ hx (radix_lt' hj hi))
    (fun x j i hx hj hi => hdB _ _ hx (radix_lt' hj hi)))
  exact ⟨h', hr, fun i j hi hj => H.val (j, i) ⟨hj, hi⟩,
    fun q hq => H.frame q (fun p hp => hq _ (radix_lt' hp.1 hp.2)), H.int⟩

/-- column-major array read as a Mathlib matrix -/
def colMajor (m n : Nat) (A : Nat → α) : Matrix (Fin m) (Fin n) α :=
  Matrix.of fun i j => A (i.val + m * j.val)

/-- **C05** The three products are Mathlib's matrix products A*B, Aᵀ*B and A*Bᵀ of the
column-major operands. -/
theorem C05_gemm_is_matrix_mul [NonUnitalNonAssocSemiring α] (m n k : Nat) (a b c : Ptr)
    (A B : Nat → α) (h : Heap α) (hB : HoldsD h b (k*n) B) (hC : AllocD h c (m*n))
    (hdB : Disj b (k*n) c (m*n)) (hA : HoldsD h a (m*k) A) (hdA : Disj a (m*k) c (m*n)) :
    (∃ h', run (dgemmNN m n k a b c) h = some ((), h') ∧ ∀ (i : Fin m) (j : Fin n),
      h'.D (c + (i.val+m*j.val)) = .val ((colMajor m k A * colMajor k n B) i j)) ∧
    (∃ h', run (dgemmTN m n k a b c) h = some ((), h') ∧ ∀ (i : Fin m) (j : Fin n),
      h'.D (c + (i.val+m*j.val)) = .val (((colMajor k m A).transpose * colMajor k n B) i j)) ∧
    (∃ h', run (dgemmNT m n k a b c) h = some ((), h') ∧ ∀ (i : Fin m) (j : Fin n),
      h'.D (c + (i.val+m*j.val)) = .val ((colMajor m k A * (colMajor n k B).transpose) i j)) := by
  refine ⟨?_, ?_, ?_⟩
  · obtain ⟨h', hr, hv, _⟩ := C05_gemm_NN1 m n k m a b c A B h (le_refl m) hA hB
      (fun j i hj hi => hC _ (radix_lt' hj hi))
      (fun x j i hx hj hi => hdA _ _ hx (radix_lt' hj hi))
      (fun x j i hx hj hi => hdB _ _ hx (radix_lt' hj hi))
    refine ⟨h', hr, fun i j => ?_⟩
    rw [hv i j i.2 j.2, Spec.lsum_eq_sum, Finset.sum_range, Matrix.mul_apply]
    rfl
  · obtain ⟨h', hr, hv, _⟩ := C05_gemm_TN m n k a b c A B h (by rwa [Nat.mul_comm]) hB hC
      (by rwa [Nat.mul_comm k m]) hdB
    refine ⟨h', hr, fun i j => ?_⟩
    rw [hv i j i.2 j.2, Spec.lsum_eq_sum, Finset.sum_range, Matrix.mul_apply]
    rfl
  · obtain ⟨h', hr, hv, _⟩ := C05_gemm_NT m n k a b c A B h hA hB hC hdA hdB
    refine ⟨h', hr, fun i j => ?_⟩
    rw [hv i j i.2 j.2, Spec.lsum_eq_sum, Finset.sum_range, Matrix.mul_apply]
    rfl

/-- hypotheses met: 2x3 times 3x2 -/
example : ∃ h', run (dgemmNN 2 2 3 ⟨0, 0⟩ ⟨1, 0⟩ ⟨2, 0⟩) (dblHeap 6) = some ((), h') ∧
    h'.D ((⟨2, 0⟩ : Ptr) + (1 + 2*1)) = .val (1*3 + 3*4 + 5*5) := by
  obtain ⟨⟨h', hr, hv⟩, _⟩ := C05_gemm_is_matrix_mul 2 2 3 ⟨0, 0⟩ ⟨1, 0⟩ ⟨2, 0⟩ (fun i => i)
    (fun i => i) (dblHeap 6) (dblHeap_holds 1 (by omega)) (dblHeap_holds 2 (by omega)).alloc
    (disj_bufs (by omega) _ _) (dblHeap_holds 0 (by omega)) (disj_bufs (by omega) _ _)
  have h1 := hv 1 1
  rw [Matrix.mul_apply, Fin.sum_univ_three] at h1
  exact ⟨h', hr, h1⟩

end Verif.Props
