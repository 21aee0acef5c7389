import Verif.Core.Frame

/-!
Programs that fill tables.  `V` says which value each cell may receive.  A program fills `S` (pairs of
a cell and its value) when, started with the cells of `P` already filled, it only stores pairs of `V`
and leaves all of `P` and `S` filled.
-/
namespace Verif
open Prog

variable {α A : Type}

/-- memory in which nothing but cells of `V` has changed, and those to their values -/
structure FillInv (h0 : Heap α) (V : Ptr → α → Prop) (h : Heap α) : Prop where
  D : ∀ q, h.D q = h0.D q ∨ ∃ x, V q x ∧ h.D q = .val x
  I : h.I = h0.I

/-- the cells of `S` (that are cells of `V`) hold their values -/
def Filled (V : Ptr → α → Prop) (h : Heap α) (S : Ptr → α → Prop) : Prop := ∀ q x, S q x → V q x → h.D q = .val x

def Fill (h0 : Heap α) (V P S : Ptr → α → Prop) (p : Prog α Unit) : Prop :=
  ∀ h, FillInv h0 V h → Filled V h P → wp p (fun _ h' => FillInv h0 V h' ∧ Filled V h' P ∧ Filled V h' S) h

namespace Fill
variable {h0 : Heap α} {V P S S' P' : Ptr → α → Prop} {p p' : Prog α Unit}

theorem refl (h0 : Heap α) (V : Ptr → α → Prop) : FillInv h0 V h0 := ⟨fun _ => Or.inl rfl, rfl⟩

theorem alloc {h : Heap α} (H : FillInv h0 V h) {q : Ptr} (hq : h0.D q ≠ .oob) : h.D q ≠ .oob := by
  rcases H.D q with e | ⟨x, _, e⟩
  · rw [e]; exact hq
  · rw [e]; simp

theorem keep {h : Heap α} (H : FillInv h0 V h) {q : Ptr} (hq : ∀ x, ¬ V q x) : h.D q = h0.D q := by
  rcases H.D q with e | ⟨x, hx, _⟩
  · exact e
  · exact absurd hx (hq x)

theorem agree {h : Heap α} (H : FillInv h0 V h) {W : Ptr → Prop} (hW : ∀ q x, V q x → W q) : AgreeD h0 h W :=
  fun _ hq => keep H (fun x hx => hq (hW _ x hx))

/-- storing a value of `V` -/
theorem set (hV : ∀ q x y, V q x → V q y → x = y) {h : Heap α} (H : FillInv h0 V h) (HP : Filled V h P)
    {q : Ptr} {x : α} (hq : V q x) (hS : ∀ q' x', S q' x' → V q' x' → P q' x' ∨ q' = q) :
    FillInv h0 V (h.setD q x) ∧ Filled V (h.setD q x) P ∧ Filled V (h.setD q x) S := by
  have key : ∀ q' y, V q' y → h.D q' = .val y ∨ q' = q → (h.setD q x).D q' = .val y := by
    intro q' y hy h1
    rw [Heap.setD_D]; split
    · rename_i e; subst e; rw [hV _ _ _ hq hy]
    · rename_i e; exact h1.resolve_right e
  refine ⟨⟨fun q' => ?_, H.I⟩, fun q' y hy hv => ?_, fun q' y hy hv => ?_⟩
  · rw [Heap.setD_D]; split
    · rename_i e; subst e; exact Or.inr ⟨x, hq, rfl⟩
    · exact H.D q'
  · exact key q' y hv (Or.inl (HP q' y hy hv))
  · exact key q' y hv ((hS q' y hy hv).imp (fun z => HP q' y z hv) id)

theorem mono (H : Fill h0 V P S p) (hS : ∀ q x, S' q x → V q x → P q x ∨ S q x) : Fill h0 V P S' p := by
  intro h h1 h2
  refine wp_mono (H h h1 h2) ?_
  rintro _ h' ⟨a, b, c⟩
  refine ⟨a, b, fun q x hx hv => ?_⟩
  rcases hS q x hx hv with h | h
  · exact b q x h hv
  · exact c q x h hv

theorem nothing (hS : ∀ q x, S q x → V q x → P q x) : Fill h0 V P S (pure ()) := by
  intro h h1 h2
  rw [wp_pure]
  exact ⟨h1, h2, fun q x hx hv => h2 q x (hS q x hx hv) hv⟩

theorem seq (H : Fill h0 V P S p) (H' : Fill h0 V (fun q x => P q x ∨ S q x) S' p') :
    Fill h0 V P (fun q x => S q x ∨ S' q x) (p >>= fun _ => p') := by
  intro h h1 h2
  rw [wp_mbind]
  refine wp_mono (H h h1 h2) ?_
  rintro _ h' ⟨a, b, c⟩
  refine wp_mono (H' h' a (fun q x hx => hx.elim (b q x) (c q x))) ?_
  rintro _ h'' ⟨a', b', c'⟩
  exact ⟨a', fun q x hx => b' q x (Or.inl hx), fun q x hx => hx.elim (fun y => b' q x (Or.inr y)) (c' q x)⟩

theorem forN {n : Nat} {f : Nat → Prog α Unit} {S : Nat → Ptr → α → Prop}
    (H : ∀ i, i < n → Fill h0 V (fun q x => P q x ∨ ∃ j, j < i ∧ S j q x) (S i) (f i)) :
    Fill h0 V P (fun q x => ∃ j, j < n ∧ S j q x) (forN n f) := by
  intro h h1 h2
  refine wp_forN (fun i h' => FillInv h0 V h' ∧ Filled V h' P ∧ Filled V h' (fun q x => ∃ j, j < i ∧ S j q x))
    ⟨h1, h2, fun q x ⟨j, hj, _⟩ => by omega⟩ ?_ (fun _ => id)
  rintro i hi h' ⟨a, b, c⟩
  refine wp_mono (H i hi h' a (fun q x hx => hx.elim (b q x) (c q x))) ?_
  rintro _ h'' ⟨a', b', c'⟩
  refine ⟨a', fun q x hx => b' q x (Or.inl hx), ?_⟩
  rintro q x ⟨j, hj, hx⟩
  rcases Nat.lt_or_ge j i with hlt | hge
  · exact b' q x (Or.inr ⟨j, hlt, hx⟩)
  · have : j = i := by omega
    subst this
    exact c' q x hx

/-- loops whose steps do not depend on each other -/
theorem forN' {n : Nat} {f : Nat → Prog α Unit} {S : Nat → Ptr → α → Prop}
    (H : ∀ i P', (∀ q x, P q x → P' q x) → i < n → Fill h0 V P' (S i) (f i)) :
    Fill h0 V P (fun q x => ∃ j, j < n ∧ S j q x) (Prog.forN n f) :=
  forN (fun i hi => H i _ (fun _ _ hx => Or.inl hx) hi)

theorem start (H : Fill h0 V P S p) (hP : Filled V h0 P) :
    wp p (fun _ h' => FillInv h0 V h' ∧ Filled V h' P ∧ Filled V h' S) h0 := H h0 (refl h0 V) hP

end Fill
end Verif
