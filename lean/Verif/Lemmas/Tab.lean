import Verif.Core.Frame

/-!
Filling a table of intermediates: the cells `addr k`, `S k`, of a scratch region `Gs` hold `v k`;
the rest of the region is arbitrary and nothing outside has changed.
-/
namespace Verif
open Prog

variable {α ι : Type}

structure Tab (h h' : Heap α) (Gs : Ptr → Prop) (S : ι → Prop) (addr : ι → Ptr) (v : ι → α) : Prop where
  val : ∀ k, S k → h'.D (addr k) = .val (v k)
  alloc : ∀ q, Gs q → h'.D q ≠ .oob
  frame : AgreeD h h' Gs
  int : h'.I = h.I

namespace Tab
variable {h h' : Heap α} {Gs : Ptr → Prop} {S S' : ι → Prop} {addr : ι → Ptr} {v v' : ι → α}

theorem init (ha : ∀ q, Gs q → h.D q ≠ .oob) (hS : ∀ k, ¬ S k) : Tab h h Gs S addr v :=
  ⟨fun k hk => absurd hk (hS k), ha, AgreeD.refl _ _, rfl⟩

theorem set (H : Tab h h' Gs S addr v) {k : ι} (hk : Gs (addr k))
    (hS : ∀ k', S' k' → k' = k ∨ (S k' ∧ addr k' ≠ addr k)) :
    Tab h (h'.setD (addr k) (v k)) Gs S' addr v := by
  refine ⟨fun k' hk' => ?_, fun q hq => ?_, fun q hq => ?_, H.int⟩
  · rcases hS k' hk' with rfl | ⟨h1, h2⟩
    · rw [Heap.setD_D_self]
    · rw [Heap.setD_D_ne _ _ h2, H.val k' h1]
  · rw [Heap.setD_D]
    split
    · simp
    · exact H.alloc q hq
  · rw [Heap.setD_D_ne _ _ (fun e => hq (by rw [e]; exact hk)), H.frame q hq]

theorem mono (H : Tab h h' Gs S addr v) (hS : ∀ k, S' k → S k) : Tab h h' Gs S' addr v :=
  ⟨fun k hk => H.val k (hS k hk), H.alloc, H.frame, H.int⟩

theorem congr (H : Tab h h' Gs S addr v) (hS : ∀ k, S' k → S k ∧ v' k = v k) : Tab h h' Gs S' addr v' :=
  ⟨fun k hk => by rw [H.val k (hS k hk).1, (hS k hk).2], H.alloc, H.frame, H.int⟩

/-- a store of the right value -/
theorem wp_st (H : Tab h h' Gs S addr v) {k : ι} (hk : Gs (addr k)) {x : α} (hx : x = v k)
    (hS : ∀ k', S' k' → k' = k ∨ (S k' ∧ addr k' ≠ addr k)) {p : Ptr} (hp : p = addr k) :
    wp (st p x) (fun _ h2 => Tab h h2 Gs S' addr v) h' := by
  subst hp hx
  rw [Prog.wp_st]
  exact ⟨H.alloc _ hk, H.set hk hS⟩

end Tab
end Verif
