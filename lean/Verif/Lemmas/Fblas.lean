import Verif.Model.Fblas
import Verif.Core.Frame
import Verif.Spec.Sum

namespace Verif.Model
open Verif Prog

variable {α : Type}

section transpose
variable {at' a : Ptr} {m n : Nat} {A : Nat → α} {h : Heap α}

/-- address of element (column j, row i) of the transposed matrix -/
abbrev tAddr (at' : Ptr) (m : Nat) (p : Nat × Nat) : Ptr := at' + (p.1 * m + p.2)

theorem tAddr_inj {p q : Nat × Nat} (hp : p.2 < m) (hq : q.2 < m)
    (e : tAddr at' m p = tAddr at' m q) : p = q := by
  have := (Ptr.add_right_inj _ _ _).1 e
  obtain ⟨h1, h2⟩ := radix_inj hp hq this
  exact Prod.ext h1 h2

theorem transp_cpy (hA : HoldsD h a (m*n) A) (hat : AllocD h at' (n*m))
    (hd : Disj a (m*n) at' (n*m)) {h1 : Heap α} {P : Nat × Nat → Prop}
    (H : AssignedD h h1 P (tAddr at' m) (fun p => A (p.2*n+p.1)))
    (hP : ∀ p, P p → p.1 < n ∧ p.2 < m) {j i : Nat} (hj : j < n) (hi : i < m)
    {Q : Unit → Heap α → Prop}
    (hQ : ∀ h2, AssignedD h h2 (fun p => P p ∨ p = (j, i)) (tAddr at' m)
      (fun p => A (p.2*n+p.1)) → Q () h2) :
    wp (cpy (at' + (j*m+i)) (a + (i*n+j))) Q h1 := by
  refine H.cpy_step (j, i) rfl (hA _ (radix_lt hi hj)) ?_ (hat _ (radix_lt hj hi)) ?_ hQ
  · rintro ⟨j', i'⟩ hp
    obtain ⟨h3, h4⟩ := hP _ hp
    exact hd _ _ (radix_lt hi hj) (radix_lt h3 h4)
  · intro k' hk' e
    rw [tAddr_inj (hP _ hk').2 hi e]

theorem transp_add [Add α] (hA : HoldsD h a (m*n) A) {B : Nat → α} (hB : HoldsD h at' (n*m) B)
    (hd : Disj a (m*n) at' (n*m)) {h1 : Heap α} {P : Nat × Nat → Prop}
    (H : AssignedD h h1 P (tAddr at' m) (fun p => B (p.1*m+p.2) + A (p.2*n+p.1)))
    (hP : ∀ p, P p → p.1 < n ∧ p.2 < m) {j i : Nat} (hj : j < n) (hi : i < m)
    (hnew : ¬ P (j, i))
    {Q : Unit → Heap α → Prop}
    (hQ : ∀ h2, AssignedD h h2 (fun p => P p ∨ p = (j, i)) (tAddr at' m)
      (fun p => B (p.1*m+p.2) + A (p.2*n+p.1)) → Q () h2) :
    wp (addTo (at' + (j*m+i)) (a + (i*n+j))) Q h1 := by
  refine H.addTo_step (j, i) rfl (hA _ (radix_lt hi hj)) (hB _ (radix_lt hj hi)) rfl ?_ ?_ hQ
  · rintro ⟨j', i'⟩ hp
    obtain ⟨h3, h4⟩ := hP _ hp
    exact hd _ _ (radix_lt hi hj) (radix_lt h3 h4)
  · intro k' hk' e
    rw [tAddr_inj (hP _ hk').2 hi e] at hk'
    exact hnew hk'

theorem dmatTranspose_wp (hA : HoldsD h a (m*n) A) (hat : AllocD h at' (n*m))
    (hd : Disj a (m*n) at' (n*m)) :
    wp (dmatTranspose at' a m n) (fun _ h' =>
      AssignedD h h' (fun p : Nat × Nat => p.1 < n ∧ p.2 < m) (tAddr at' m)
        (fun p => A (p.2*n+p.1))) h := by
  unfold dmatTranspose forStep
  simp only [wp_mbind]
  refine wp_forN (fun t h1 => AssignedD h h1 (fun p : Nat × Nat => p.1 < t * 4 ∧ p.2 < m)
    (tAddr at' m) (fun p => A (p.2*n+p.1))) ?_ ?_ ?_
  · exact AssignedD.init _ _ _ (by intro k; omega)
  · intro t ht h1 H1
    refine wp_forN (fun i h2 => AssignedD h h2
      (fun p : Nat × Nat => (p.1 < t * 4 ∧ p.2 < m) ∨ (p.1 < t*4+4 ∧ p.2 < i))
      (tAddr at' m) (fun p => A (p.2*n+p.1))) ?_ ?_ ?_
    · exact H1.congr (by intro k; omega) (fun _ _ => rfl)
    · intro i hi h2 H2
      simp only [wp_mbind, Nat.add_zero]
      refine transp_cpy hA hat hd H2 (by intro p hp; omega) (by omega) hi (fun h3 H3 => ?_)
      refine transp_cpy hA hat hd H3 (j := t*4+1) ?_ (by omega) hi (fun h4 H4 => ?_)
      · rintro ⟨p1, p2⟩ hp; simp only [Prod.mk.injEq] at hp ⊢; omega
      refine transp_cpy hA hat hd H4 (j := t*4+2) ?_ (by omega) hi (fun h5 H5 => ?_)
      · rintro ⟨p1, p2⟩ hp; simp only [Prod.mk.injEq] at hp ⊢; omega
      refine transp_cpy hA hat hd H5 (j := t*4+3) ?_ (by omega) hi (fun h6 H6 => ?_)
      · rintro ⟨p1, p2⟩ hp; simp only [Prod.mk.injEq] at hp ⊢; omega
      refine H6.congr ?_ (fun _ _ => rfl)
      rintro ⟨p1, p2⟩; simp only [Prod.mk.injEq]; omega
    · intro h2 H2
      exact H2.congr (by intro k; omega) (fun _ _ => rfl)
  · intro h1 H1
    generalize hJ : ((n - 3) + 4 - 1) / 4 * 4 = J at H1 ⊢
    have hJn : J ≤ n ∧ n - J < 4 := by omega
    split
    · rename_i e
      refine wp_forN (fun i h2 => AssignedD h h2
        (fun p : Nat × Nat => (p.1 < J ∧ p.2 < m) ∨ (p.1 < J+1 ∧ p.2 < i))
        (tAddr at' m) (fun p => A (p.2*n+p.1))) ?_ ?_ ?_
      · exact H1.congr (by intro k; omega) (fun _ _ => rfl)
      · intro i hi h2 H2
        refine transp_cpy hA hat hd H2 (by intro p hp; omega) (by omega) hi (fun h3 H3 => ?_)
        refine H3.congr ?_ (fun _ _ => rfl)
        rintro ⟨p1, p2⟩; simp only [Prod.mk.injEq]; omega
      · intro h2 H2
        exact H2.congr (by intro k; omega) (fun _ _ => rfl)
    · rename_i e
      refine wp_forN (fun i h2 => AssignedD h h2
        (fun p : Nat × Nat => (p.1 < J ∧ p.2 < m) ∨ (p.1 < J+2 ∧ p.2 < i))
        (tAddr at' m) (fun p => A (p.2*n+p.1))) ?_ ?_ ?_
      · exact H1.congr (by intro k; omega) (fun _ _ => rfl)
      · intro i hi h2 H2
        simp only [wp_mbind, Nat.add_zero]
        refine transp_cpy hA hat hd H2 (by intro p hp; omega) (by omega) hi (fun h3 H3 => ?_)
        refine transp_cpy hA hat hd H3 (j := J+1) ?_ (by omega) hi (fun h4 H4 => ?_)
        · rintro ⟨p1, p2⟩ hp; simp only [Prod.mk.injEq] at hp ⊢; omega
        refine H4.congr ?_ (fun _ _ => rfl)
        rintro ⟨p1, p2⟩; simp only [Prod.mk.injEq]; omega
      · intro h2 H2
        exact H2.congr (by intro k; omega) (fun _ _ => rfl)
    · rename_i e
      refine wp_forN (fun i h2 => AssignedD h h2
        (fun p : Nat × Nat => (p.1 < J ∧ p.2 < m) ∨ (p.1 < J+3 ∧ p.2 < i))
        (tAddr at' m) (fun p => A (p.2*n+p.1))) ?_ ?_ ?_
      · exact H1.congr (by intro k; omega) (fun _ _ => rfl)
      · intro i hi h2 H2
        simp only [wp_mbind, Nat.add_zero]
        refine transp_cpy hA hat hd H2 (by intro p hp; omega) (by omega) hi (fun h3 H3 => ?_)
        refine transp_cpy hA hat hd H3 (j := J+1) ?_ (by omega) hi (fun h4 H4 => ?_)
        · rintro ⟨p1, p2⟩ hp; simp only [Prod.mk.injEq] at hp ⊢; omega
        refine transp_cpy hA hat hd H4 (j := J+2) ?_ (by omega) hi (fun h5 H5 => ?_)
        · rintro ⟨p1, p2⟩ hp; simp only [Prod.mk.injEq] at hp ⊢; omega
        refine H5.congr ?_ (fun _ _ => rfl)
        rintro ⟨p1, p2⟩; simp only [Prod.mk.injEq]; omega
      · intro h2 H2
        exact H2.congr (by intro k; omega) (fun _ _ => rfl)
    · rename_i e1 e2 e3
      simp only [wp_pure]
      have : n - J = 0 := by
        rcases h4 : n - J with _ | _ | _ | _ | _
        · rfl
        · exact absurd h4 e1
        · exact absurd h4 e2
        · exact absurd h4 e3
        · omega
      exact H1.congr (by intro k; omega) (fun _ _ => rfl)

theorem dplusTranspose_wp [Add α] (hA : HoldsD h a (m*n) A) {B : Nat → α}
    (hB : HoldsD h at' (n*m) B) (hd : Disj a (m*n) at' (n*m)) :
    wp (dplusTranspose at' a m n) (fun _ h' =>
      AssignedD h h' (fun p : Nat × Nat => p.1 < n ∧ p.2 < m) (tAddr at' m)
        (fun p => B (p.1*m+p.2) + A (p.2*n+p.1))) h := by
  unfold dplusTranspose forStep
  simp only [wp_mbind]
  refine wp_forN (fun t h1 => AssignedD h h1 (fun p : Nat × Nat => p.1 < t * 4 ∧ p.2 < m)
    (tAddr at' m) (fun p => B (p.1*m+p.2) + A (p.2*n+p.1))) ?_ ?_ ?_
  · exact AssignedD.init _ _ _ (by intro k; omega)
  · intro t ht h1 H1
    refine wp_forN (fun i h2 => AssignedD h h2
      (fun p : Nat × Nat => (p.1 < t * 4 ∧ p.2 < m) ∨ (p.1 < t*4+4 ∧ p.2 < i))
      (tAddr at' m) (fun p => B (p.1*m+p.2) + A (p.2*n+p.1))) ?_ ?_ ?_
    · exact H1.congr (by intro k; omega) (fun _ _ => rfl)
    · intro i hi h2 H2
      simp only [wp_mbind, Nat.add_zero]
      refine transp_add hA hB hd H2 (by intro p hp; omega) (by omega) hi
        (by simp) (fun h3 H3 => ?_)
      refine transp_add hA hB hd H3 (j := t*4+1) ?_ (by omega) hi
        (by simp) (fun h4 H4 => ?_)
      · rintro ⟨p1, p2⟩ hp; simp only [Prod.mk.injEq] at hp ⊢; omega
      refine transp_add hA hB hd H4 (j := t*4+2) ?_ (by omega) hi
        (by simp) (fun h5 H5 => ?_)
      · rintro ⟨p1, p2⟩ hp; simp only [Prod.mk.injEq] at hp ⊢; omega
      refine transp_add hA hB hd H5 (j := t*4+3) ?_ (by omega) hi
        (by simp) (fun h6 H6 => ?_)
      · rintro ⟨p1, p2⟩ hp; simp only [Prod.mk.injEq] at hp ⊢; omega
      refine H6.congr ?_ (fun _ _ => rfl)
      rintro ⟨p1, p2⟩; simp only [Prod.mk.injEq]; omega
    · intro h2 H2
      exact H2.congr (by intro k; omega) (fun _ _ => rfl)
  · intro h1 H1
    generalize hJ : ((n - 3) + 4 - 1) / 4 * 4 = J at H1 ⊢
    have hJn : J ≤ n ∧ n - J < 4 := by omega
    split
    · rename_i e
      refine wp_forN (fun i h2 => AssignedD h h2
        (fun p : Nat × Nat => (p.1 < J ∧ p.2 < m) ∨ (p.1 < J+1 ∧ p.2 < i))
        (tAddr at' m) (fun p => B (p.1*m+p.2) + A (p.2*n+p.1))) ?_ ?_ ?_
      · exact H1.congr (by intro k; omega) (fun _ _ => rfl)
      · intro i hi h2 H2
        refine transp_add hA hB hd H2 (by intro p hp; omega) (by omega) hi
          (by simp) (fun h3 H3 => ?_)
        refine H3.congr ?_ (fun _ _ => rfl)
        rintro ⟨p1, p2⟩; simp only [Prod.mk.injEq]; omega
      · intro h2 H2
        exact H2.congr (by intro k; omega) (fun _ _ => rfl)
    · rename_i e
      refine wp_forN (fun i h2 => AssignedD h h2
        (fun p : Nat × Nat => (p.1 < J ∧ p.2 < m) ∨ (p.1 < J+2 ∧ p.2 < i))
        (tAddr at' m) (fun p => B (p.1*m+p.2) + A (p.2*n+p.1))) ?_ ?_ ?_
      · exact H1.congr (by intro k; omega) (fun _ _ => rfl)
      · intro i hi h2 H2
        simp only [wp_mbind, Nat.add_zero]
        refine transp_add hA hB hd H2 (by intro p hp; omega) (by omega) hi
          (by simp) (fun h3 H3 => ?_)
        refine transp_add hA hB hd H3 (j := J+1) ?_ (by omega) hi
          (by simp) (fun h4 H4 => ?_)
        · rintro ⟨p1, p2⟩ hp; simp only [Prod.mk.injEq] at hp ⊢; omega
        refine H4.congr ?_ (fun _ _ => rfl)
        rintro ⟨p1, p2⟩; simp only [Prod.mk.injEq]; omega
      · intro h2 H2
        exact H2.congr (by intro k; omega) (fun _ _ => rfl)
    · rename_i e
      refine wp_forN (fun i h2 => AssignedD h h2
        (fun p : Nat × Nat => (p.1 < J ∧ p.2 < m) ∨ (p.1 < J+3 ∧ p.2 < i))
        (tAddr at' m) (fun p => B (p.1*m+p.2) + A (p.2*n+p.1))) ?_ ?_ ?_
      · exact H1.congr (by intro k; omega) (fun _ _ => rfl)
      · intro i hi h2 H2
        simp only [wp_mbind, Nat.add_zero]
        refine transp_add hA hB hd H2 (by intro p hp; omega) (by omega) hi
          (by simp) (fun h3 H3 => ?_)
        refine transp_add hA hB hd H3 (j := J+1) ?_ (by omega) hi
          (by simp) (fun h4 H4 => ?_)
        · rintro ⟨p1, p2⟩ hp; simp only [Prod.mk.injEq] at hp ⊢; omega
        refine transp_add hA hB hd H4 (j := J+2) ?_ (by omega) hi
          (by simp) (fun h5 H5 => ?_)
        · rintro ⟨p1, p2⟩ hp; simp only [Prod.mk.injEq] at hp ⊢; omega
        refine H5.congr ?_ (fun _ _ => rfl)
        rintro ⟨p1, p2⟩; simp only [Prod.mk.injEq]; omega
      · intro h2 H2
        exact H2.congr (by intro k; omega) (fun _ _ => rfl)
    · rename_i e1 e2 e3
      simp only [wp_pure]
      have : n - J = 0 := by
        rcases h4 : n - J with _ | _ | _ | _ | _
        · rfl
        · exact absurd h4 e1
        · exact absurd h4 e2
        · exact absurd h4 e3
        · omega
      exact H1.congr (by intro k; omega) (fun _ _ => rfl)

end transpose

section ztranspose
variable {at' a : Ptr} {m n : Nat} {A : Nat → α} {h : Heap α}

theorem zmatTranspose_wp (hA : HoldsD h a (m*n) A) (hat : AllocD h at' (n*m))
    (hd : Disj a (m*n) at' (n*m)) :
    wp (zmatTranspose at' a m n) (fun _ h' =>
      AssignedD h h' (fun p : Nat × Nat => p.1 < n ∧ p.2 < m) (tAddr at' m)
        (fun p => A (p.2*n+p.1))) h := by
  unfold zmatTranspose
  split
  · rename_i e; subst e
    refine wp_forN (fun i h2 => AssignedD h h2 (fun p : Nat × Nat => p.1 < 2 ∧ p.2 < i)
      (tAddr at' m) (fun p => A (p.2*2+p.1))) ?_ ?_ ?_
    · exact AssignedD.init _ _ _ (by intro k; omega)
    · intro i hi h2 H2
      simp only [wp_mbind]
      have e1 : at' + i = at' + (0*m+i) := by rw [Nat.zero_mul, Nat.zero_add]
      have e2 : at' + (i+m) = at' + (1*m+i) := by rw [Nat.one_mul, Nat.add_comm]
      rw [e1, e2, Nat.mul_comm 2 i]
      refine transp_cpy hA hat hd H2 (by intro p hp; omega) (by omega) hi (fun h3 H3 => ?_)
      refine transp_cpy hA hat hd H3 ?_ (by omega) hi (fun h4 H4 => ?_)
      · rintro ⟨p1, p2⟩ hp; simp only [Prod.mk.injEq] at hp ⊢; omega
      refine H4.congr ?_ (fun _ _ => rfl)
      rintro ⟨p1, p2⟩; simp only [Prod.mk.injEq]; omega
    · intro h2 H2; exact H2
  · split
    · rename_i hn2 e; subst e
      refine wp_forN (fun i h2 => AssignedD h h2 (fun p : Nat × Nat => p.1 < i ∧ p.2 < 2)
        (tAddr at' 2) (fun p => A (p.2*n+p.1))) ?_ ?_ ?_
      · exact AssignedD.init _ _ _ (by intro k; omega)
      · intro i hi h2 H2
        simp only [wp_mbind]
        have e1 : a + i = a + (0*n+i) := by rw [Nat.zero_mul, Nat.zero_add]
        have e2 : a + (i+n) = a + (1*n+i) := by rw [Nat.one_mul, Nat.add_comm]
        rw [e1, e2, Nat.mul_comm 2 i]
        refine transp_cpy hA hat hd H2 (by intro p hp; omega) hi (by omega) (fun h3 H3 => ?_)
        refine transp_cpy hA hat hd H3 ?_ hi (by omega) (fun h4 H4 => ?_)
        · rintro ⟨p1, p2⟩ hp; simp only [Prod.mk.injEq] at hp ⊢; omega
        refine H4.congr ?_ (fun _ _ => rfl)
        rintro ⟨p1, p2⟩; simp only [Prod.mk.injEq]; omega
      · intro h2 H2; exact H2
    · refine wp_forN (fun j h2 => AssignedD h h2 (fun p : Nat × Nat => p.1 < j ∧ p.2 < m)
        (tAddr at' m) (fun p => A (p.2*n+p.1))) ?_ ?_ ?_
      · exact AssignedD.init _ _ _ (by intro k; omega)
      · intro j hj h2 H2
        refine wp_forN (fun i h3 => AssignedD h h3
          (fun p : Nat × Nat => (p.1 < j ∧ p.2 < m) ∨ (p.1 < j+1 ∧ p.2 < i))
          (tAddr at' m) (fun p => A (p.2*n+p.1))) ?_ ?_ ?_
        · exact H2.congr (by intro k; omega) (fun _ _ => rfl)
        · intro i hi h3 H3
          refine transp_cpy hA hat hd H3 ?_ hj hi (fun h4 H4 => ?_)
          · rintro ⟨p1, p2⟩ hp; simp only at hp ⊢; omega
          refine H4.congr ?_ (fun _ _ => rfl)
          rintro ⟨p1, p2⟩; simp only [Prod.mk.injEq]; omega
        · intro h3 H3; exact H3.congr (by intro k; omega) (fun _ _ => rfl)
      · intro h2 H2; exact H2

theorem zmatDagger_wp (conj : α → α) (hA : HoldsD h a (m*n) A) (hat : AllocD h at' (n*m))
    (hd : Disj a (m*n) at' (n*m)) :
    wp (zmatDagger conj at' a m n) (fun _ h' =>
      AssignedD h h' (fun p : Nat × Nat => p.1 < n ∧ p.2 < m) (tAddr at' m)
        (fun p => conj (A (p.2*n+p.1)))) h := by
  unfold zmatDagger
  refine wp_forN (fun j h2 => AssignedD h h2 (fun p : Nat × Nat => p.1 < j ∧ p.2 < m)
    (tAddr at' m) (fun p => conj (A (p.2*n+p.1)))) ?_ ?_ ?_
  · exact AssignedD.init _ _ _ (by intro k; omega)
  · intro j hj h2 H2
    refine wp_forN (fun i h3 => AssignedD h h3
      (fun p : Nat × Nat => (p.1 < j ∧ p.2 < m) ∨ (p.1 < j+1 ∧ p.2 < i))
      (tAddr at' m) (fun p => conj (A (p.2*n+p.1)))) ?_ ?_ ?_
    · exact H2.congr (by intro k; omega) (fun _ _ => rfl)
    · intro i hi h3 H3
      simp only [wp_mbind, wp_ld, wp_st]
      refine ⟨A (i*n+j), ?_, H3.ne_oob (hat _ (radix_lt hj hi)), ?_⟩
      · rw [H3.frame, hA _ (radix_lt hi hj)]
        rintro ⟨p1, p2⟩ hp
        exact hd _ _ (radix_lt hi hj) (radix_lt (by simp only at hp; omega)
          (by simp only at hp; omega))
      · refine H3.set (j, i) (fun p hp e => ?_) ?_
        · rw [tAddr_inj (p := p) (q := (j, i)) (by omega) hi e]
        · rintro ⟨p1, p2⟩; simp only [Prod.mk.injEq]; omega
    · intro h3 H3; exact H3.congr (by intro k; omega) (fun _ _ => rfl)
  · intro h2 H2; exact H2

end ztranspose

section gemm
open Spec
variable [Zero α] [Add α] [Mul α] {h : Heap α}

/-- common shape of dgemm_NN1 and dgemm_NT, generic in where B is read -/
def gemmAcc (m n k : Nat) (a b c : Ptr) (ldc : Nat) (bidx : Nat → Nat → Nat) : Prog α Unit :=
  forN n fun j => do
    forN m fun i => st (c + (i+ldc*j)) 0
    forN k fun kp => do
      let bi ← ld (b + bidx kp j)
      forN m fun i => do
        let x ← ld (c + (i+ldc*j))
        let y ← ld (a + (i+m*kp))
        st (c + (i+ldc*j)) (x + y * bi)

/-- address of C(i,j), index pair = (column, row) -/
abbrev cAddr (c : Ptr) (ldc : Nat) (p : Nat × Nat) : Ptr := c + (p.2 + ldc * p.1)

theorem cAddr_inj {c : Ptr} {ldc : Nat} {p q : Nat × Nat} (hp : p.2 < ldc) (hq : q.2 < ldc)
    (e : cAddr c ldc p = cAddr c ldc q) : p = q := by
  have e' := (Ptr.add_right_inj _ _ _).1 e
  rw [Nat.add_comm, Nat.mul_comm, Nat.add_comm q.2, Nat.mul_comm ldc] at e'
  obtain ⟨h1, h2⟩ := radix_inj hp hq e'
  exact Prod.ext h1 h2

theorem radix_lt' {m n j i : Nat} (hj : j < n) (hi : i < m) : i + m * j < m * n := by
  have := radix_lt hj hi
  rw [Nat.mul_comm m j, Nat.add_comm, Nat.mul_comm m n]; exact this

theorem gemmAcc_wp {m n k : Nat} {a b c : Ptr} {ldc : Nat} {bidx : Nat → Nat → Nat}
    {A B : Nat → α} (hldc : m ≤ ldc) (hA : HoldsD h a (m*k) A) (hB : HoldsD h b (k*n) B)
    (hbidx : ∀ kp j, kp < k → j < n → bidx kp j < k*n)
    (hC : ∀ j i, j < n → i < m → h.D (c + (i+ldc*j)) ≠ .oob)
    (hdA : ∀ x j i, x < m*k → j < n → i < m → a + x ≠ c + (i+ldc*j))
    (hdB : ∀ x j i, x < k*n → j < n → i < m → b + x ≠ c + (i+ldc*j)) :
    wp (gemmAcc m n k a b c ldc bidx) (fun _ h' =>
      AssignedD h h' (fun p : Nat × Nat => p.1 < n ∧ p.2 < m) (cAddr c ldc)
        (fun p => lsum k fun kp => A (p.2+m*kp) * B (bidx kp p.1))) h := by
  unfold gemmAcc
  refine wp_forN (fun j h1 => AssignedD h h1 (fun p : Nat × Nat => p.1 < j ∧ p.2 < m)
    (cAddr c ldc) (fun p => lsum k fun kp => A (p.2+m*kp) * B (bidx kp p.1))) ?_ ?_ ?_
  · exact AssignedD.init _ _ _ (by intro k; omega)
  · intro j hj h1 H1
    simp only [wp_mbind]
    refine wp_forN (fun i h2 => AssignedD h h2
      (fun p : Nat × Nat => (p.1 < j ∧ p.2 < m) ∨ (p.1 = j ∧ p.2 < i)) (cAddr c ldc)
      (fun p => lsum (if p.1 = j then 0 else k) fun kp => A (p.2+m*kp) * B (bidx kp p.1)))
      ?_ ?_ ?_
    · refine H1.congr (by intro k; omega) ?_
      intro p hp; rw [if_neg (by omega)]
    · intro i hi h2 H2
      simp only [wp_st]
      refine ⟨H2.ne_oob (hC j i hj hi), ?_⟩
      have := H2.set (P' := fun p : Nat × Nat => (p.1 < j ∧ p.2 < m) ∨ (p.1 = j ∧ p.2 < i+1))
        (j, i) (fun p hp e => by
          rw [cAddr_inj (p := p) (q := (j, i)) (by omega) (by simp only; omega) e]) (by
          rintro ⟨p1, p2⟩; simp only [Prod.mk.injEq]; omega)
      simpa using this
    · intro h2 H2
      refine wp_forN (fun kp h3 => AssignedD h h3
        (fun p : Nat × Nat => (p.1 < j ∧ p.2 < m) ∨ (p.1 = j ∧ p.2 < m)) (cAddr c ldc)
        (fun p => lsum (if p.1 = j then kp else k) fun kp => A (p.2+m*kp) * B (bidx kp p.1)))
        H2 ?_ ?_
      · intro kp hkp h3 H3
        simp only [wp_mbind, wp_ld]
        refine ⟨B (bidx kp j), ?_, ?_⟩
        · rw [H3.frame, hB _ (hbidx _ _ hkp hj)]
          intro p hp
          exact hdB _ _ _ (hbidx _ _ hkp hj) (by omega) (by omega)
        · refine wp_forN (fun i h4 => AssignedD h h4
            (fun p : Nat × Nat => (p.1 < j ∧ p.2 < m) ∨ (p.1 = j ∧ p.2 < m)) (cAddr c ldc)
            (fun p => lsum (if p.1 = j then (if p.2 < i then kp+1 else kp) else k)
              fun kp => A (p.2+m*kp) * B (bidx kp p.1))) ?_ ?_ ?_
          · simpa using H3
          · intro i hi h4 H4
            simp only [wp_mbind, wp_ld, wp_st]
            have hval := H4.val (j, i) (Or.inr ⟨rfl, hi⟩)
            refine ⟨_, hval, A (i+m*kp), ?_, ?_, ?_⟩
            · rw [H4.frame, hA _ (radix_lt' hkp hi)]
              intro p hp
              exact hdA _ _ _ (radix_lt' hkp hi) (by omega) (by omega)
            · rw [show c + (i+ldc*j) = cAddr c ldc (j, i) from rfl, hval]; simp
            · refine H4.upd (j, i) _ (Or.inr ⟨rfl, hi⟩)
                (fun p hp e => cAddr_inj (by omega) (by simp only; omega) e) ?_ ?_
              · rintro ⟨p1, p2⟩ hp hne
                simp only [ne_eq, Prod.mk.injEq] at hne ⊢
                split
                · have h5 : p2 < i + 1 ↔ p2 < i := by omega
                  simp only [h5]
                · rfl
              · simp [lsum_succ]
          · intro h4 H4
            refine H4.congr (fun _ => Iff.rfl) ?_
            intro p hp
            have h5 : p.2 < m := by omega
            simp only [h5, if_true]
      · intro h3 H3
        refine H3.congr (by intro p; omega) ?_
        intro p _; simp
  · intro h1 H1; exact H1

theorem dgemmTN_wp {m n k : Nat} {a b c : Ptr} {A B : Nat → α}
    (hA : HoldsD h a (k*m) A) (hB : HoldsD h b (k*n) B) (hC : AllocD h c (m*n))
    (hdA : Disj a (k*m) c (m*n)) (hdB : Disj b (k*n) c (m*n)) :
    wp (dgemmTN m n k a b c) (fun _ h' =>
      AssignedD h h' (fun p : Nat × Nat => p.1 < n ∧ p.2 < m) (cAddr c m)
        (fun p => lsum k fun kp => A (kp+k*p.2) * B (kp+k*p.1))) h := by
  unfold dgemmTN
  refine wp_forN (fun j h1 => AssignedD h h1 (fun p : Nat × Nat => p.1 < j ∧ p.2 < m)
    (cAddr c m) (fun p => lsum k fun kp => A (kp+k*p.2) * B (kp+k*p.1))) ?_ ?_ ?_
  · exact AssignedD.init _ _ _ (by intro k; omega)
  · intro j hj h1 H1
    refine wp_forN (fun i h2 => AssignedD h h2
      (fun p : Nat × Nat => (p.1 < j ∧ p.2 < m) ∨ (p.1 = j ∧ p.2 < i)) (cAddr c m)
      (fun p => lsum k fun kp => A (kp+k*p.2) * B (kp+k*p.1))) ?_ ?_ ?_
    · exact H1.congr (by intro k; omega) (fun _ _ => rfl)
    · intro i hi h2 H2
      simp only [wp_mbind]
      refine wp_forS (fun kp s h3 => h3 = h2 ∧
        s = lsum kp fun kp => A (kp+k*i) * B (kp+k*j)) ⟨rfl, rfl⟩ ?_ ?_
      · rintro kp hkp s h3 ⟨rfl, rfl⟩
        simp only [wp_mbind, wp_ld, wp_pure]
        refine ⟨A (kp+k*i), ?_, B (kp+k*j), ?_, True.intro, ?_⟩
        · rw [H2.frame, hA _ (radix_lt' hi hkp)]
          intro p hp
          exact hdA _ _ (radix_lt' hi hkp) (radix_lt' (by omega) (by omega))
        · rw [H2.frame, hB _ (radix_lt' hj hkp)]
          intro p hp
          exact hdB _ _ (radix_lt' hj hkp) (radix_lt' (by omega) (by omega))
        · rfl
      · rintro s h3 ⟨rfl, rfl⟩
        simp only [wp_st]
        refine ⟨H2.ne_oob (hC _ (radix_lt' hj hi)), ?_⟩
        exact H2.set (j, i) (fun p hp e => by
          rw [cAddr_inj (p := p) (q := (j, i)) (by omega) hi e]) (by
          rintro ⟨p1, p2⟩; simp only [Prod.mk.injEq]; omega)
    · intro h2 H2; exact H2.congr (by intro k; omega) (fun _ _ => rfl)
  · intro h1 H1; exact H1

end gemm

end Verif.Model
