import Mathlib.Logic.Relation
import Mathlib.Logic.Function.Basic
import Verif.Core.Prog

/-!
Which buffers a program may store to and load from, and interleaved execution of several programs on one memory.
-/
namespace Verif
open Prog

variable {α A B S : Type}

/-- Every store of `p` goes to a buffer of `W`, every load is from a buffer of `W` or `R`, whatever the loads yield, and
every result satisfies `post`. -/
def Touch (W R : Nat → Prop) (post : A → Prop) : Prog α A → Prop
  | .ret a => post a
  | .fail => True
  | .rdD p k => (W p.buf ∨ R p.buf) ∧ ∀ v, Touch W R post (k v)
  | .wrD p _ k => W p.buf ∧ Touch W R post k
  | .rdI p k => (W p.buf ∨ R p.buf) ∧ ∀ v, Touch W R post (k v)
  | .wrI p _ k => W p.buf ∧ Touch W R post k

namespace Touch
variable {W R : Nat → Prop} {post post' : A → Prop} {postB : B → Prop} {p : Prog α A}

theorem mono (H : Touch W R post p) (h : ∀ a, post a → post' a) : Touch W R post' p := by
  induction p with
  | ret a => exact h a H
  | fail => trivial
  | rdD p k ih => exact ⟨H.1, fun v => ih v (H.2 v)⟩
  | wrD p v k ih => exact ⟨H.1, ih H.2⟩
  | rdI p k ih => exact ⟨H.1, fun v => ih v (H.2 v)⟩
  | wrI p v k ih => exact ⟨H.1, ih H.2⟩

theorem weaken {W' R' : Nat → Prop} (H : Touch W R post p) (hW : ∀ b, W b → W' b) (hR : ∀ b, R b → W' b ∨ R' b) :
    Touch W' R' post p := by
  have hr : ∀ {b}, W b ∨ R b → W' b ∨ R' b := fun x => x.elim (fun y => Or.inl (hW _ y)) (hR _)
  induction p with
  | ret a => exact H
  | fail => trivial
  | rdD p k ih => exact ⟨hr H.1, fun v => ih v (H.2 v)⟩
  | wrD p v k ih => exact ⟨hW _ H.1, ih H.2⟩
  | rdI p k ih => exact ⟨hr H.1, fun v => ih v (H.2 v)⟩
  | wrI p v k ih => exact ⟨hW _ H.1, ih H.2⟩

theorem bind' {f : A → Prog α B} (H : Touch W R post p) (Hf : ∀ a, post a → Touch W R postB (f a)) :
    Touch W R postB (p >>= f) := by
  show Touch W R postB (Prog.bind p f)
  induction p with
  | ret a => exact Hf a H
  | fail => trivial
  | rdD p k ih => exact ⟨H.1, fun v => ih v (H.2 v)⟩
  | wrD p v k ih => exact ⟨H.1, ih H.2⟩
  | rdI p k ih => exact ⟨H.1, fun v => ih v (H.2 v)⟩
  | wrI p v k ih => exact ⟨H.1, ih H.2⟩

theorem bind {f : A → Prog α B} (H : Touch W R (fun _ => True) p) (Hf : ∀ a, Touch W R postB (f a)) :
    Touch W R postB (p >>= f) := bind' H fun a _ => Hf a

theorem pure {a : A} (H : post a) : Touch W R post (pure a : Prog α A) := H

theorem ld {q : Ptr} (h : W q.buf ∨ R q.buf) : Touch W R (fun _ => True) (Prog.ld q : Prog α α) := ⟨h, fun _ => trivial⟩
theorem st {q : Ptr} {v : α} (h : W q.buf) : Touch W R (fun _ => True) (Prog.st q v) := ⟨h, trivial⟩
theorem ldI {q : Ptr} (h : W q.buf ∨ R q.buf) : Touch W R (fun _ => True) (Prog.ldI q : Prog α Int) := ⟨h, fun _ => trivial⟩
theorem stI {q : Ptr} {v : Int} (h : W q.buf) : Touch W R (fun _ => True) (Prog.stI q v : Prog α Unit) := ⟨h, trivial⟩

theorem forS' {n : Nat} {s : S} {f : Nat → S → Prog α S} (inv : S → Prop) (h0 : inv s)
    (H : ∀ i s, inv s → Touch W R inv (f i s)) : Touch W R inv (Prog.forS n s f) := by
  induction n with
  | zero => exact h0
  | succ n ih => exact bind' (p := Prog.forS n s f) (f := fun s' => f n s') ih fun s hs => H n s hs

theorem forS {n : Nat} {s : S} {f : Nat → S → Prog α S} (H : ∀ i s, Touch W R (fun _ => True) (f i s)) :
    Touch W R (fun _ => True) (Prog.forS n s f) := forS' (fun _ => True) trivial fun i s _ => H i s

theorem forN {n : Nat} {f : Nat → Prog α Unit} (H : ∀ i, Touch W R (fun _ => True) (f i)) :
    Touch W R (fun _ => True) (Prog.forN n f) := forS fun i _ => H i

theorem ite {c : Prop} [Decidable c] {p q : Prog α A} (h1 : c → Touch W R post p) (h2 : ¬c → Touch W R post q) :
    Touch W R post (if c then p else q) := by
  split
  · exact h1 ‹_›
  · exact h2 ‹_›

end Touch

/-! ### Interleaving -/

/-- one memory access -/
inductive Step : Prog α A → Heap α → Prog α A → Heap α → Prop
  | rdD {p k h v} (e : h.D p = .val v) : Step (.rdD p k) h (k v) h
  | wrD {p v k h} (e : h.D p ≠ .oob) : Step (.wrD p v k) h k (h.setD p v)
  | rdI {p k h v} (e : h.I p = .val v) : Step (.rdI p k) h (k v) h
  | wrI {p v k h} (e : h.I p ≠ .oob) : Step (.wrI p v k) h k (h.setI p v)

/-- threads with what each has left to do -/
abbrev Pool (T α A : Type) := T → Prog α A

variable {T : Type} [DecidableEq T]

/-- some thread makes one memory access -/
def PStep (x y : Pool T α A × Heap α) : Prop :=
  ∃ t p, Step (x.1 t) x.2 p y.2 ∧ y.1 = Function.update x.1 t p

/-- some interleaving leads from `x` to `y` -/
def Reach : Pool T α A × Heap α → Pool T α A × Heap α → Prop := Relation.ReflTransGen PStep

/-- what a thread does next: an address, whether it is a `double`, and whether it is a store -/
def access : Prog α A → Option (Ptr × Bool × Bool)
  | .rdD p _ => some (p, true, false)
  | .wrD p _ _ => some (p, true, true)
  | .rdI p _ => some (p, false, false)
  | .wrI p _ _ => some (p, false, true)
  | _ => none

/-- `v` is a part of the memory `h`: what is accessible in `v` has the same content in `h` -/
def View (v h : Heap α) : Prop :=
  (∀ q, v.D q ≠ .oob → h.D q = v.D q) ∧ (∀ q, v.I q ≠ .oob → h.I q = v.I q)

/-- the same cells are accessible -/
def SameDom (v w : Heap α) : Prop := (∀ q, v.D q = .oob ↔ w.D q = .oob) ∧ (∀ q, v.I q = .oob ↔ w.I q = .oob)

omit [DecidableEq T] in
theorem SameDom.setD {v : Heap α} {p : Ptr} {x : α} (h : v.D p ≠ .oob) : SameDom v (v.setD p x) :=
  ⟨fun q => by
    by_cases c : q = p
    · subst c; rw [Heap.setD_D_self]; exact ⟨fun e => absurd e h, fun e => by cases e⟩
    · rw [Heap.setD_D_ne _ _ c], fun _ => Iff.rfl⟩

omit [DecidableEq T] in
theorem SameDom.setI {v : Heap α} {p : Ptr} {x : Int} (h : v.I p ≠ .oob) : SameDom v (v.setI p x) :=
  ⟨fun _ => Iff.rfl, fun q => by
    by_cases c : q = p
    · subst c; rw [Heap.setI_I_self]; exact ⟨fun e => absurd e h, fun e => by cases e⟩
    · rw [Heap.setI_I_ne _ _ c]⟩

/-- the cells that thread `t` may store to are not accessible to thread `u`; `W` are the buffers `t` may store to -/
def Apart (W : Nat → Prop) (v w : Heap α) : Prop :=
  ∀ q : Ptr, W q.buf → (v.D q ≠ .oob → w.D q = .oob) ∧ (v.I q ≠ .oob → w.I q = .oob)

/-- a program whose run succeeds is finished or can make its next access -/
theorem progress {p : Prog α A} {h h1 : Heap α} {a : A} (e : run p h = some (a, h1)) :
    p = .ret a ∧ h1 = h ∨ ∃ p' h', Step p h p' h' := by
  cases p with
  | ret a' =>
    simp only [run, Option.some.injEq, Prod.mk.injEq] at e
    exact Or.inl ⟨by rw [e.1], e.2.symm⟩
  | fail => simp [run] at e
  | rdD q k =>
    simp only [run] at e
    split at e
    · exact Or.inr ⟨_, _, .rdD ‹_›⟩
    · cases e
  | rdI q k =>
    simp only [run] at e
    split at e
    · exact Or.inr ⟨_, _, .rdI ‹_›⟩
    · cases e
  | wrD q v k =>
    simp only [run] at e
    split at e
    · cases e
    · exact Or.inr ⟨_, _, .wrD ‹_›⟩
  | wrI q v k =>
    simp only [run] at e
    split at e
    · cases e
    · exact Or.inr ⟨_, _, .wrI ‹_›⟩

/-- One step of a thread whose run succeeds on its part `v` of the memory. -/
theorem Step.view {W R : Nat → Prop} {post : A → Prop} {p p' : Prog α A} {v v1 h h' : Heap α} {a : A} (s : Step p h p' h')
    (hT : Touch W R post p) (hv : View v h) (e : run p v = some (a, v1)) :
    Touch W R post p' ∧ (∃ v', SameDom v v' ∧ View v' h' ∧ run p' v' = some (a, v1)) ∧
    (∀ q, ¬ (W q.buf ∧ v.D q ≠ .oob) → h'.D q = h.D q) ∧ (∀ q, ¬ (W q.buf ∧ v.I q ≠ .oob) → h'.I q = h.I q) := by
  cases s with
  | rdD ed =>
    simp only [run] at e
    split at e
    · rename_i x hx
      have := (hv.1 _ (by rw [hx]; intro c; cases c)).symm.trans ed
      rw [hx] at this
      cases this
      exact ⟨hT.2 _, ⟨v, ⟨fun _ => Iff.rfl, fun _ => Iff.rfl⟩, hv, e⟩, fun _ _ => rfl, fun _ _ => rfl⟩
    · cases e
  | rdI ed =>
    simp only [run] at e
    split at e
    · rename_i x hx
      have := (hv.2 _ (by rw [hx]; intro c; cases c)).symm.trans ed
      rw [hx] at this
      cases this
      exact ⟨hT.2 _, ⟨v, ⟨fun _ => Iff.rfl, fun _ => Iff.rfl⟩, hv, e⟩, fun _ _ => rfl, fun _ _ => rfl⟩
    · cases e
  | @wrD q x k _ ed =>
    simp only [run] at e
    split at e
    · cases e
    · rename_i hne
      have hne' : v.D q ≠ .oob := fun c => hne c
      refine ⟨hT.2, ⟨v.setD q x, SameDom.setD hne', ⟨fun q' hq' => ?_, hv.2⟩, e⟩, fun q' hq' => ?_, fun _ _ => rfl⟩
      · rw [Heap.setD_D, Heap.setD_D]
        split
        · rfl
        · rename_i c
          rw [Heap.setD_D_ne _ _ c] at hq'
          exact hv.1 _ hq'
      · exact Heap.setD_D_ne _ _ fun c => hq' (by subst c; exact ⟨hT.1, hne'⟩)
  | @wrI q x k _ ed =>
    simp only [run] at e
    split at e
    · cases e
    · rename_i hne
      have hne' : v.I q ≠ .oob := fun c => hne c
      refine ⟨hT.2, ⟨v.setI q x, SameDom.setI hne', ⟨hv.1, fun q' hq' => ?_⟩, e⟩, fun _ _ => rfl, fun q' hq' => ?_⟩
      · rw [Heap.setI_I, Heap.setI_I]
        split
        · rfl
        · rename_i c
          rw [Heap.setI_I_ne _ _ c] at hq'
          exact hv.2 _ hq'
      · exact Heap.setI_I_ne _ _ fun c => hq' (by subst c; exact ⟨hT.1, hne'⟩)

/-- a program whose run succeeds on its part of the memory succeeds on all of it -/
theorem run_view {p : Prog α A} {v v1 h : Heap α} {a : A} (hv : View v h) (e : run p v = some (a, v1)) :
    ∃ h1, run p h = some (a, h1) ∧ View v1 h1 := by
  induction p generalizing v h with
  | ret a' =>
    simp only [run, Option.some.injEq, Prod.mk.injEq] at e
    exact ⟨h, by simp only [run, Option.some.injEq, Prod.mk.injEq, and_true]; exact e.1, e.2 ▸ hv⟩
  | fail => simp [run] at e
  | rdD q k ih =>
    simp only [run] at e ⊢
    split at e
    · rename_i x hx
      rw [hv.1 q (by rw [hx]; intro c; cases c), hx]
      exact ih x hv e
    · cases e
  | rdI q k ih =>
    simp only [run] at e ⊢
    split at e
    · rename_i x hx
      rw [hv.2 q (by rw [hx]; intro c; cases c), hx]
      exact ih x hv e
    · cases e
  | wrD q x k ih =>
    simp only [run] at e ⊢
    split at e
    · cases e
    · rename_i hne
      have hne' : v.D q ≠ .oob := fun c => hne c
      obtain ⟨h1, e1, e2⟩ := ih (v := v.setD q x) (h := h.setD q x) ⟨fun q' hq' => by
        rw [Heap.setD_D, Heap.setD_D]
        split
        · rfl
        · rename_i c
          rw [Heap.setD_D_ne _ _ c] at hq'
          exact hv.1 _ hq', hv.2⟩ e
      refine ⟨h1, ?_, e2⟩
      split
      · rename_i c
        exact absurd ((hv.1 q hne').symm.trans c) hne'
      · exact e1
  | wrI q x k ih =>
    simp only [run] at e ⊢
    split at e
    · cases e
    · rename_i hne
      have hne' : v.I q ≠ .oob := fun c => hne c
      obtain ⟨h1, e1, e2⟩ := ih (v := v.setI q x) (h := h.setI q x) ⟨hv.1, fun q' hq' => by
        rw [Heap.setI_I, Heap.setI_I]
        split
        · rfl
        · rename_i c
          rw [Heap.setI_I_ne _ _ c] at hq'
          exact hv.2 _ hq'⟩ e
      refine ⟨h1, ?_, e2⟩
      split
      · rename_i c
        exact absurd ((hv.2 q hne').symm.trans c) hne'
      · exact e1

/-- the state of a thread in an interleaving: its part of the memory is as in a run on its own -/
structure Alone (W : Nat → Prop) (v0 : Heap α) (a : A) (v1 : Heap α) (p : Prog α A) (h : Heap α) : Prop where
  touch : Touch W (fun _ => True) (fun _ => True) p
  view : ∃ v, SameDom v0 v ∧ View v h ∧ run p v = some (a, v1)

/-- Invariant of all interleavings. -/
theorem reach_inv {P : Pool T α A} {h : Heap α} {W : T → Nat → Prop} {v v1 : T → Heap α} {a : T → A}
    (ht : ∀ t, Touch (W t) (fun _ => True) (fun _ => True) (P t)) (hv : ∀ t, View (v t) h)
    (hd : ∀ t u, t ≠ u → Apart (W t) (v t) (v u))
    (hr : ∀ t, run (P t) (v t) = some (a t, v1 t)) {y : Pool T α A × Heap α} (hy : Reach (P, h) y) :
    (∀ t, Alone (W t) (v t) (a t) (v1 t) (y.1 t) y.2) ∧
    (∀ q : Ptr, (∀ t, ¬ (W t q.buf ∧ (v t).D q ≠ .oob)) → y.2.D q = h.D q) ∧
    (∀ q : Ptr, (∀ t, ¬ (W t q.buf ∧ (v t).I q ≠ .oob)) → y.2.I q = h.I q) := by
  induction hy with
  | refl => exact ⟨fun t => ⟨ht t, v t, ⟨fun _ => Iff.rfl, fun _ => Iff.rfl⟩, hv t, hr t⟩, fun _ _ => rfl, fun _ _ => rfl⟩
  | @tail y z _ hs ih =>
    obtain ⟨s, p, st, e⟩ := hs
    obtain ⟨ih1, ih2, ih3⟩ := ih
    obtain ⟨w, d1, d2, d3⟩ := (ih1 s).view
    obtain ⟨f1, ⟨w', g1, g2, g3⟩, f3, f4⟩ := st.view (ih1 s).touch d2 d3
    refine ⟨fun t => ?_, fun q hq => ?_, fun q hq => ?_⟩
    · rw [e]
      by_cases c : t = s
      · subst c
        rw [Function.update_self]
        exact ⟨f1, w', ⟨fun q => (d1.1 q).trans (g1.1 q), fun q => (d1.2 q).trans (g1.2 q)⟩, g2, g3⟩
      · rw [Function.update_of_ne c]
        obtain ⟨x, x1, x2, x3⟩ := (ih1 t).view
        refine ⟨(ih1 t).touch, x, x1, ⟨fun q hq => ?_, fun q hq => ?_⟩, x3⟩
        · rw [f3 q ?_]
          · exact x2.1 q hq
          · rintro ⟨k1, k2⟩
            exact hq ((x1.1 q).1 ((hd s t (Ne.symm c) q k1).1 fun k => k2 ((d1.1 q).1 k)))
        · rw [f4 q ?_]
          · exact x2.2 q hq
          · rintro ⟨k1, k2⟩
            exact hq ((x1.2 q).1 ((hd s t (Ne.symm c) q k1).2 fun k => k2 ((d1.2 q).1 k)))
    · rw [f3 q ?_]
      · exact ih2 q hq
      · exact fun k => hq s ⟨k.1, fun c => k.2 ((d1.1 q).1 c)⟩
    · rw [f4 q ?_]
      · exact ih3 q hq
      · exact fun k => hq s ⟨k.1, fun c => k.2 ((d1.2 q).1 c)⟩

/-- a thread whose run succeeds can be run to its end while the others wait -/
theorem reach_finish {P : Pool T α A} {h h1 : Heap α} {t : T} {a : A} (e : run (P t) h = some (a, h1)) :
    Reach (P, h) (Function.update P t (.ret a), h1) := by
  obtain ⟨p, hp⟩ : ∃ p, P t = p := ⟨_, rfl⟩
  rw [hp] at e
  induction p generalizing P h with
  | ret a' =>
    simp only [run, Option.some.injEq, Prod.mk.injEq] at e
    have : Function.update P t (.ret a) = P := by rw [← e.1, ← hp]; exact Function.update_eq_self t P
    rw [this, ← e.2]
    exact Relation.ReflTransGen.refl
  | fail => simp [run] at e
  | rdD q k ih =>
    simp only [run] at e
    split at e
    · rename_i x hx
      have := ih x (P := Function.update P t (k x)) (h := h) e (Function.update_self ..)
      rw [Function.update_idem] at this
      exact Relation.ReflTransGen.head ⟨t, k x, by rw [show (P, h).1 t = _ from hp]; exact .rdD hx, rfl⟩ this
    · cases e
  | rdI q k ih =>
    simp only [run] at e
    split at e
    · rename_i x hx
      have := ih x (P := Function.update P t (k x)) (h := h) e (Function.update_self ..)
      rw [Function.update_idem] at this
      exact Relation.ReflTransGen.head ⟨t, k x, by rw [show (P, h).1 t = _ from hp]; exact .rdI hx, rfl⟩ this
    · cases e
  | wrD q x k ih =>
    simp only [run] at e
    split at e
    · cases e
    · have := ih (P := Function.update P t k) (h := h.setD q x) e (Function.update_self ..)
      rw [Function.update_idem] at this
      exact Relation.ReflTransGen.head ⟨t, k, by rw [show (P, h).1 t = _ from hp]; exact .wrD ‹_›, rfl⟩ this
  | wrI q x k ih =>
    simp only [run] at e
    split at e
    · cases e
    · have := ih (P := Function.update P t k) (h := h.setI q x) e (Function.update_self ..)
      rw [Function.update_idem] at this
      exact Relation.ReflTransGen.head ⟨t, k, by rw [show (P, h).1 t = _ from hp]; exact .wrI ‹_›, rfl⟩ this

end Verif
