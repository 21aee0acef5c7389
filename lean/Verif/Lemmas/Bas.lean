import Verif.Core.Assign
import Verif.Model.Bas

namespace Verif.Model
open Verif Prog

variable {α : Type}

theorem accum_mono (f : Nat → Nat) {a b : Nat} (h : a ≤ b) : accum f a ≤ accum f b := by
  induction h with
  | refl => exact Nat.le_refl _
  | step _ ih => simp only [accum]; omega

theorem accum_locate (f : Nat → Nat) (n mu : Nat) (h : mu < accum f n) :
    ∃ i, i < n ∧ accum f i ≤ mu ∧ mu < accum f i + f i := by
  induction n with
  | zero => simp [accum] at h
  | succ n ih =>
    simp only [accum] at h
    rcases Nat.lt_or_ge mu (accum f n) with h1 | h1
    · obtain ⟨i, hi, h2⟩ := ih h1
      exact ⟨i, by omega, h2⟩
    · exact ⟨n, by omega, h1, h⟩

theorem accum_locate_unique (f : Nat → Nat) {i j mu : Nat}
    (hi : accum f i ≤ mu ∧ mu < accum f i + f i) (hj : accum f j ≤ mu ∧ mu < accum f j + f j) :
    i = j := by
  rcases Nat.lt_trichotomy i j with h | h | h
  · have := accum_mono f (a := i + 1) (b := j) h
    simp only [accum] at this; omega
  · exact h
  · have := accum_mono f (a := j + 1) (b := i) h
    simp only [accum] at this; omega

theorem shellsCgtoOffset_wp (f : Shell → Nat) (loc : Ptr) (bas : Nat → Shell) (nbas : Nat)
    (h : Heap α) (hn : 0 < nbas) (ha : ∀ i, i < nbas → h.I (loc + i) ≠ .oob) :
    wp (shellsCgtoOffset f loc bas nbas) (fun _ h' =>
      AssignedI h h' (fun i : Nat => i < nbas) (fun i => loc + i)
        (fun i => (accum (fun s => f (bas s)) i : Int))) h := by
  unfold shellsCgtoOffset
  simp only [wp_mbind, wp_stI]
  refine ⟨by simpa using ha 0 hn, ?_⟩
  refine wp_forN (fun a h' => AssignedI h h' (fun i : Nat => i < a + 1) (fun i => loc + i)
        (fun i => (accum (fun s => f (bas s)) i : Int))) ?_ ?_ ?_
  · have := (AssignedI.init h (fun i : Nat => loc + i)
      (fun i => (accum (fun s => f (bas s)) i : Int)) (P := fun i => i < 0) (by simp)).set
      (P' := fun i => i < 0 + 1) 0 (by simp) (by intro k; omega)
    simpa [accum] using this
  · intro a ha' h1 H1
    simp only [wp_mbind, wp_ldI, wp_stI]
    refine ⟨_, H1.val a (by omega), H1.ne_oob (ha (a + 1) (by omega)), ?_⟩
    have := H1.set (P' := fun i => i < a + 1 + 1) (a + 1)
      (by intro k' hk' e; have := (Ptr.add_right_inj _ _ _).1 e; omega) (by intro k; omega)
    simpa [accum, Int.natCast_add] using this
  · intro h' H
    have e : nbas - 1 + 1 = nbas := by omega
    rw [e] at H
    exact H

end Verif.Model
