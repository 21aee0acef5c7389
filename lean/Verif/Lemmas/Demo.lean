import Verif.Lemmas.Contrib

/-
A concrete primitive evaluator that meets `KernelSpec`, used to show that the hypotheses of the
loop theorems can be met.
-/
namespace Verif.Model
open Verif Prog

variable {α : Type} [CommRing α] [DecidableEq α]

/-- writes one scratch cell, keeps the quartet -/
def demoG0 (g : Ptr) (fac : α) : Prog α Bool := do st g fac; pure true

/-- stores or adds `fac * w n` -/
def demoGout (N : Nat) (w : Nat → α) (fac : α) (p : Ptr) (e : Int) : Prog α Unit :=
  forN N fun n => if e = 0 then do let x ← ld (p + n); st (p + n) (x + fac * w n)
    else st (p + n) (fac * w n)

theorem demo_kernel {T : Ptr → Option Int} {g : Ptr} {leng N : Nat} {w : Nat → α} (hg : 0 < leng) :
    KernelSpec T (demoG0 g) (demoGout N w) (Blk g leng) N true w := by
  intro fac gout e u h hR hGs hA hd hE
  unfold demoG0
  simp only [wp_mbind, wp_st, wp_pure]
  have hgG : Blk g leng g := ⟨0, hg, rfl⟩
  refine ⟨hGs g hgG, True.intro, ?_, rfl, fun _ => ?_⟩
  · intro q hq; exact Heap.setD_D_ne _ _ (fun e => hq (e ▸ hgG))
  have hne : ∀ i, i < N → gout + i ≠ g := fun i hi e => hd i hi (by rw [e]; exact hgG)
  refine wp_forN (fun n h' => AssignedD (h.setD g fac) h' (fun k => k < n) (fun k => gout + k)
    (fun n => if e = 0 then u n + fac * w n else fac * w n))
    (AssignedD.init _ _ _ (fun k hk => by omega)) ?_ ?_
  · intro n hn h' H
    have hal : h'.D (gout + n) ≠ .oob := H.ne_oob (by
      rw [Heap.setD_D_ne _ _ (hne n hn)]; exact hA n hn)
    have key : AssignedD (h.setD g fac) (h'.setD (gout + n) (if e = 0 then u n + fac * w n else fac * w n))
        (fun k => k < n + 1) (fun k => gout + k) (fun n => if e = 0 then u n + fac * w n else fac * w n) :=
      H.set n (fun k' _ e => by rw [(Ptr.add_right_inj _ _ _).1 e]) (fun k' => by omega)
    by_cases he : e = 0
    · simp only [he, if_true] at key ⊢
      simp only [wp_mbind, wp_ld, wp_st]
      refine ⟨u n, ?_, hal, key⟩
      rw [H.frame _ (fun k hk e => by have := (Ptr.add_right_inj _ _ _).1 e; omega),
        Heap.setD_D_ne _ _ (hne n hn)]
      exact hE he n hn
    · simp only [he, if_false] at key ⊢
      simp only [wp_st]
      exact ⟨hal, key⟩
  · intro h' H
    refine ⟨fun i hi => H.val i hi, ?_, H.int⟩
    intro q hq
    rw [H.frame q (fun k hk e => hq (Or.inr ⟨k, hk, e⟩)),
      Heap.setD_D_ne _ _ (fun e => hq (Or.inl (by rw [e]; exact hgG)))]

/-- memory where everything is allocated and uninitialised, except the caller's flag at
`flag`, which says "empty" -/
def blankHeap (flag : Ptr) : Heap α := ⟨fun _ => .undef, fun q => if q = flag then .val 1 else .undef⟩

theorem blankHeap_D (flag q : Ptr) : (blankHeap flag : Heap α).D q ≠ .oob := by simp [blankHeap]
theorem blankHeap_I (flag q : Ptr) : (blankHeap flag : Heap α).I q ≠ .oob := by
  unfold blankHeap; dsimp only; split <;> simp
theorem blankHeap_flag (flag : Ptr) : (blankHeap flag : Heap α).I flag = .val 1 := by simp [blankHeap]

/-- blocks in different buffers -/
theorem disj_of_buf {p q : Ptr} {m n : Nat} (h : p.buf ≠ q.buf) : Disj p m q n :=
  fun _ _ _ _ e => h (by simpa using congrArg Ptr.buf e)

/-- an empty accumulator -/
theorem blankHeap_acc (flag p : Ptr) (N : Nat) :
    AccSt (blankHeap flag : Heap α) flag p N false (fun _ => 0) :=
  ⟨by rw [blankHeap_flag]; rfl, fun _ _ => blankHeap_D _ _, fun h => by simp at h, fun _ _ _ => rfl⟩

end Verif.Model
