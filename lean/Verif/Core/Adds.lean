import Mathlib.Algebra.BigOperators.Group.Finset.Basic
import Verif.Core.Writes

/-!
Programs that add to a family of cells.
-/
namespace Verif
open Prog

variable {α ι A : Type}

/-- `h` is `h0` except for the region `Reg` -/
structure From (h0 : Heap α) (Reg : Ptr → Prop) (h : Heap α) : Prop where
  D : AgreeD h0 h Reg
  al : ∀ q, h0.D q ≠ .oob → h.D q ≠ .oob
  I : h.I = h0.I

namespace From
variable {h0 h h' : Heap α} {Reg : Ptr → Prop} {P : ι → Prop} {addr : ι → Ptr} {v : ι → α}

theorem refl (h0 : Heap α) (Reg : Ptr → Prop) : From h0 Reg h0 := ⟨AgreeD.refl _ _, fun _ x => x, rfl⟩

theorem val (H : From h0 Reg h) {q : Ptr} {x : α} (hq : h0.D q = .val x) (hr : ¬ Reg q) : h.D q = .val x := by
  rw [H.D q hr, hq]

theorem wr (H : From h0 Reg h) (hP : ∀ k, P k → Reg (addr k)) (W : Wr (fun _ => False) h h' P addr v) : From h0 Reg h' :=
  ⟨fun q hq => by rw [W.frame q (fun x => x) (fun k hk e => hq (e ▸ hP k hk)), H.D q hq],
   fun q hq => W.alloc q (H.al q hq), by rw [W.int, H.I]⟩

theorem stable (hP : ∀ k, P k → Reg (addr k)) : Stable (fun _ => False) (From h0 Reg) P addr v :=
  fun _ _ _ hP' hok H => hok.wr (fun k hk => hP k (hP' k hk)) H

theorem wp_ld {q : Ptr} {x : α} {f : α → Prog α A} {Q : A → Heap α → Prop} (H : From h0 Reg h) (hq : h0.D q = .val x)
    (hr : ¬ Reg q) (hf : wp (f x) Q h) : wp (Prog.ld q >>= f) Q h := by
  rw [wp_mbind, Prog.wp_ld]
  exact ⟨x, H.val hq hr, hf⟩

end From

/-- `f` adds `t k` to every cell `addr k` with `P k` and changes nothing else -/
def Adds [Add α] (h0 : Heap α) (Reg : Ptr → Prop) (P : ι → Prop) (addr : ι → Ptr) (f : Prog α Unit) (t : ι → α) : Prop :=
  ∀ (h : Heap α) (y : ι → α), From h0 Reg h → (∀ k, P k → h.D (addr k) = .val (y k)) →
    wp f (fun _ h' => AssignedD h h' P addr (fun k => y k + t k)) h

namespace Adds
variable {h0 : Heap α} {Reg : Ptr → Prop} {P : ι → Prop} {addr : ι → Ptr}

theorem trans' {h h1 h2 : Heap α} {v1 v2 : ι → α} (H1 : AssignedD h h1 P addr v1) (H2 : AssignedD h1 h2 P addr v2) :
    AssignedD h h2 P addr v2 :=
  ⟨H2.val, fun q hq => by rw [H2.frame q hq, H1.frame q hq], by rw [H2.int, H1.int]⟩

theorem from' {h h1 : Heap α} {v1 : ι → α} (hP : ∀ k, P k → Reg (addr k)) (H : From h0 Reg h)
    (H1 : AssignedD h h1 P addr v1) : From h0 Reg h1 := H.wr hP (Wr.of_assigned H1)

theorem congr [Add α] {f : Prog α Unit} {t t' : ι → α} (H : Adds h0 Reg P addr f t) (ht : ∀ k, P k → t' k = t k) :
    Adds h0 Reg P addr f t' := fun h y h1 h2 =>
  wp_mono (H h y h1 h2) fun _ _ H' => H'.congr (fun _ => Iff.rfl) fun k hk => by rw [ht k hk]

theorem forN [AddCommMonoid α] {n : Nat} {f : Nat → Prog α Unit} {t : Nat → ι → α} (hP : ∀ k, P k → Reg (addr k))
    (H : ∀ i, i < n → Adds h0 Reg P addr (f i) (t i)) :
    Adds h0 Reg P addr (Prog.forN n f) (fun k => ∑ i ∈ Finset.range n, t i k) := by
  intro h y h1 h2
  refine wp_forN (fun m h' => AssignedD h h' P addr (fun k => y k + ∑ i ∈ Finset.range m, t i k)) ?_ ?_ (fun _ x => x)
  · exact ⟨fun k hk => by rw [h2 k hk]; simp, fun _ _ => rfl, rfl⟩
  · intro i hi h' H1
    refine wp_mono (H i hi h' _ (from' hP h1 H1) H1.val) ?_
    intro _ h2 H2
    refine (trans' H1 H2).congr (fun _ => Iff.rfl) (fun k _ => ?_)
    rw [Finset.sum_range_succ, add_assoc]

theorem seq [AddSemigroup α] {f g : Prog α Unit} {t u : ι → α} (hP : ∀ k, P k → Reg (addr k))
    (H : Adds h0 Reg P addr f t) (H' : Adds h0 Reg P addr g u) :
    Adds h0 Reg P addr (do f; g) (fun k => t k + u k) := by
  intro h y h1 h2
  rw [wp_mbind]
  refine wp_mono (H h y h1 h2) ?_
  intro _ h3 H1
  refine wp_mono (H' h3 _ (from' hP h1 H1) H1.val) ?_
  intro _ h4 H2
  exact (trans' H1 H2).congr (fun _ => Iff.rfl) (fun k _ => by rw [add_assoc])

theorem skip [AddMonoid α] : Adds h0 Reg P addr (pure ()) (fun _ => 0) := by
  intro h y _ h2
  rw [wp_pure]
  exact ⟨fun k hk => by rw [h2 k hk]; simp, fun _ _ => rfl, rfl⟩

theorem ld [Add α] {q : Ptr} {x : α} {f : α → Prog α Unit} {t : ι → α} (hq : h0.D q = .val x) (hr : ¬ Reg q)
    (H : Adds h0 Reg P addr (f x) t) : Adds h0 Reg P addr (Prog.ld q >>= f) t :=
  fun h y h1 h2 => h1.wp_ld hq hr (H h y h1 h2)

/-- `*p += e` -/
theorem add [AddMonoid α] [DecidableEq ι] {p : Ptr} {e : α} (k0 : ι) (hk : P k0) (hp : p = addr k0)
    (hinj : ∀ k, P k → addr k = addr k0 → k = k0) :
    Adds h0 Reg P addr (do let x ← Prog.ld p; Prog.st p (x + e)) (fun k => if k = k0 then e else 0) := by
  subst hp
  intro h y _ h2
  rw [wp_mbind, Prog.wp_ld]
  refine ⟨_, h2 k0 hk, ?_⟩
  rw [wp_st]
  refine ⟨by rw [h2 k0 hk]; simp, ?_⟩
  have H : AssignedD h h P addr y := ⟨h2, fun _ _ => rfl, rfl⟩
  exact H.upd k0 _ hk hinj (fun k _ hne => by beta_reduce; rw [if_neg hne, add_zero]) (by beta_reduce; rw [if_pos rfl])

/-- clearing followed by adding -/
theorem zero [AddMonoid α] {f g : Prog α Unit} {t : ι → α} (hP : ∀ k, P k → Reg (addr k))
    (H0 : Writes (fun _ => False) (From h0 Reg) f (fun _ => True) P addr (fun _ => 0))
    (H : Adds h0 Reg P addr g t) :
    Writes (fun _ => False) (From h0 Reg) (do f; g) (fun _ => True) P addr t := by
  intro h hok
  rw [wp_mbind]
  refine wp_mono (H0 h hok) ?_
  rintro _ h1 ⟨_, W⟩
  refine wp_mono (H h1 _ (hok.wr hP W) W.val) ?_
  intro _ h2 H2
  refine ⟨trivial, fun k hk => ?_, fun q _ hq => ?_, fun q hq => H2.ne_oob (W.alloc q hq), by rw [H2.int, W.int]⟩
  · rw [H2.val k hk, zero_add]
  · rw [H2.frame q hq, W.frame q (fun x => x) hq]

end Adds

/-- two programs one after the other -/
theorem Writes.seq {W : Ptr → Prop} {ok : Heap α → Prop} {P P1 P2 : ι → Prop} {addr : ι → Ptr} {v : ι → α}
    {f g : Prog α Unit} (H1 : Writes W ok f (fun _ => True) P1 addr v) (H2 : Writes W ok g (fun _ => True) P2 addr v)
    (hst : Stable W ok P1 addr v) (hW : ∀ k, P1 k → ¬ W (addr k))
    (hinj : ∀ k k', P1 k → P2 k' → addr k = addr k' → v k = v k') (hP : ∀ k, P k ↔ (P1 k ∨ P2 k)) :
    Writes W ok (do f; g) (fun _ => True) P addr v := by
  intro h hok
  rw [wp_mbind]
  refine wp_mono (H1 h hok) ?_
  rintro _ h1 ⟨_, W1⟩
  refine wp_mono (H2 h1 (hst h h1 P1 (fun _ x => x) hok W1)) ?_
  rintro _ h2 ⟨_, W2⟩
  exact ⟨trivial, W1.comp W2 hW hinj hP⟩

end Verif
