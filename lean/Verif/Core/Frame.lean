import Verif.Core.Assign

/-
Framing: what a program leaves unchanged, preservation of allocation, read-only memory.
-/
namespace Verif
open Prog
variable {α A : Type}

/-- blocks `p[0..m)` and `q[0..n)` do not overlap -/
def Disj (p : Ptr) (m : Nat) (q : Ptr) (n : Nat) : Prop := ∀ i j, i < m → j < n → p + i ≠ q + j

theorem Disj.symm {p q : Ptr} {m n : Nat} (H : Disj p m q n) : Disj q n p m :=
  fun i j hi hj e => H j i hj hi e.symm

theorem Disj.mono {p q : Ptr} {m n m' n' : Nat} (H : Disj p m q n) (hm : m' ≤ m) (hn : n' ≤ n) :
    Disj p m' q n' := fun i j hi hj => H i j (by omega) (by omega)

/-- all cells of the block are writable -/
def AllocD (h : Heap α) (p : Ptr) (n : Nat) : Prop := ∀ i, i < n → h.D (p + i) ≠ .oob

/-- the block holds the values `f` -/
def HoldsD (h : Heap α) (p : Ptr) (n : Nat) (f : Nat → α) : Prop :=
  ∀ i, i < n → h.D (p + i) = .val (f i)

theorem HoldsD.alloc {h : Heap α} {p : Ptr} {n : Nat} {f : Nat → α} (H : HoldsD h p n f) :
    AllocD h p n := fun i hi => by rw [H i hi]; simp

/-- the cells of a block -/
def Blk (p : Ptr) (n : Nat) : Ptr → Prop := fun q => ∃ i, i < n ∧ q = p + i

theorem Disj.not_blk {p q : Ptr} {m n : Nat} (H : Disj p m q n) {i : Nat} (hi : i < m) :
    ¬ Blk q n (p + i) := fun ⟨j, hj, e⟩ => H i j hi hj e

/-- double memory outside `W` is unchanged -/
def AgreeD (h h' : Heap α) (W : Ptr → Prop) : Prop := ∀ q, ¬ W q → h'.D q = h.D q
/-- integer memory outside `W` is unchanged -/
def AgreeI (h h' : Heap α) (W : Ptr → Prop) : Prop := ∀ q, ¬ W q → h'.I q = h.I q

theorem AgreeD.refl (h : Heap α) (W : Ptr → Prop) : AgreeD h h W := fun _ _ => rfl
theorem AgreeI.refl (h : Heap α) (W : Ptr → Prop) : AgreeI h h W := fun _ _ => rfl
theorem AgreeD.of_eq {h h' : Heap α} (e : h'.D = h.D) (W : Ptr → Prop) : AgreeD h h' W :=
  fun _ _ => by rw [e]
theorem AgreeI.of_eq {h h' : Heap α} (e : h'.I = h.I) (W : Ptr → Prop) : AgreeI h h' W :=
  fun _ _ => by rw [e]
theorem AgreeD.trans {h h1 h2 : Heap α} {W1 W2 W : Ptr → Prop} (H1 : AgreeD h h1 W1)
    (H2 : AgreeD h1 h2 W2) (hw1 : ∀ q, W1 q → W q) (hw2 : ∀ q, W2 q → W q) : AgreeD h h2 W :=
  fun q hq => by rw [H2 q (fun x => hq (hw2 q x)), H1 q (fun x => hq (hw1 q x))]
theorem AgreeI.trans {h h1 h2 : Heap α} {W1 W2 W : Ptr → Prop} (H1 : AgreeI h h1 W1)
    (H2 : AgreeI h1 h2 W2) (hw1 : ∀ q, W1 q → W q) (hw2 : ∀ q, W2 q → W q) : AgreeI h h2 W :=
  fun q hq => by rw [H2 q (fun x => hq (hw2 q x)), H1 q (fun x => hq (hw1 q x))]
theorem AgreeD.mono {h h1 : Heap α} {W1 W : Ptr → Prop} (H1 : AgreeD h h1 W1)
    (hw1 : ∀ q, W1 q → W q) : AgreeD h h1 W := fun q hq => H1 q (fun x => hq (hw1 q x))
theorem AgreeI.mono {h h1 : Heap α} {W1 W : Ptr → Prop} (H1 : AgreeI h h1 W1)
    (hw1 : ∀ q, W1 q → W q) : AgreeI h h1 W := fun q hq => H1 q (fun x => hq (hw1 q x))

theorem HoldsD.agree {h h' : Heap α} {p : Ptr} {n : Nat} {f : Nat → α} (H : HoldsD h p n f)
    {W : Ptr → Prop} (ha : AgreeD h h' W) (hd : ∀ i, i < n → ¬ W (p + i)) : HoldsD h' p n f :=
  fun i hi => by rw [ha _ (hd i hi), H i hi]

theorem AssignedD.agree {ι : Type} {h h' : Heap α} {P : ι → Prop} {addr : ι → Ptr} {v : ι → α}
    (H : AssignedD h h' P addr v) {W : Ptr → Prop} (hw : ∀ k, P k → W (addr k)) :
    AgreeD h h' W := fun q hq => H.frame q (fun k hk e => hq (e ▸ hw k hk))

theorem AssignedI.agree {ι : Type} {h h' : Heap α} {P : ι → Prop} {addr : ι → Ptr} {v : ι → Int}
    (H : AssignedI h h' P addr v) {W : Ptr → Prop} (hw : ∀ k, P k → W (addr k)) :
    AgreeI h h' W := fun q hq => H.frame q (fun k hk e => hq (e ▸ hw k hk))

/-- Programs never deallocate: writable cells stay writable. -/
structure AllocMono (h h' : Heap α) : Prop where
  D : ∀ q, h.D q ≠ .oob → h'.D q ≠ .oob
  I : ∀ q, h.I q ≠ .oob → h'.I q ≠ .oob

theorem AllocMono.refl (h : Heap α) : AllocMono h h := ⟨fun _ x => x, fun _ x => x⟩
theorem AllocMono.trans {h h1 h2 : Heap α} (a : AllocMono h h1) (b : AllocMono h1 h2) :
    AllocMono h h2 := ⟨fun q x => b.D q (a.D q x), fun q x => b.I q (a.I q x)⟩

theorem wp_allocMono {p : Prog α A} {Q : A → Heap α → Prop} {h : Heap α} (H : wp p Q h) :
    wp p (fun a h' => Q a h' ∧ AllocMono h h') h := by
  induction p generalizing h with
  | ret a => exact ⟨H, AllocMono.refl h⟩
  | fail => exact H
  | rdD p k ih => obtain ⟨v, hv, hw⟩ := H; exact ⟨v, hv, ih v hw⟩
  | rdI p k ih => obtain ⟨v, hv, hw⟩ := H; exact ⟨v, hv, ih v hw⟩
  | wrD p v k ih =>
    obtain ⟨hv, hw⟩ := H
    refine ⟨hv, wp_mono (ih hw) ?_⟩
    rintro a h' ⟨hq, hm⟩
    refine ⟨hq, AllocMono.trans (h1 := h.setD p v) ⟨fun q hq => ?_, fun q hq => hq⟩ hm⟩
    rw [Heap.setD_D]; split
    · simp
    · exact hq
  | wrI p v k ih =>
    obtain ⟨hv, hw⟩ := H
    refine ⟨hv, wp_mono (ih hw) ?_⟩
    rintro a h' ⟨hq, hm⟩
    refine ⟨hq, AllocMono.trans (h1 := h.setI p v) ⟨fun q hq => hq, fun q hq => ?_⟩ hm⟩
    rw [Heap.setI_I]; split
    · simp
    · exact hq

/-- `T` describes read-only integer memory (index tables). -/
def RO (T : Ptr → Option Int) (h : Heap α) : Prop := ∀ q x, T q = some x → h.I q = .val x

theorem RO.agree {T : Ptr → Option Int} {h h' : Heap α} (H : RO T h) {W : Ptr → Prop}
    (ha : AgreeI h h' W) (hT : ∀ q, W q → T q = none) : RO T h' := by
  intro q x hq
  rw [ha q (fun hw => by rw [hT q hw] at hq; cases hq), H q x hq]

end Verif
