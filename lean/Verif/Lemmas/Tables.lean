import Verif.Lemmas.Contrib

/-
Building several sparsity tables one after the other in one block of memory.
-/
namespace Verif.Model
open Verif Prog

variable {α : Type} [CommRing α] [DecidableEq α]

/-- `h` holds the sparsity tables of a shell -/
def TblIn (h : Heap α) (non0ctr non0idx : Ptr) (c : Nat → α) (prim ctr : Nat) : Prop :=
  ∀ x, tblDom prim ctr x → h.I (tblAddr non0idx non0ctr ctr x) = .val (tblVal c prim ctr x)

theorem tblAddr_blk {non0ctr non0idx : Ptr} {prim ctr : Nat} {x : (Nat × Nat) ⊕ Nat}
    (hx : tblDom prim ctr x) :
    Blk non0idx (prim*ctr) (tblAddr non0idx non0ctr ctr x) ∨
    Blk non0ctr prim (tblAddr non0idx non0ctr ctr x) := by
  rcases x with ⟨a, b⟩ | a
  · exact Or.inl ⟨_, radix_lt hx.1 hx.2, rfl⟩
  · exact Or.inr ⟨_, hx, rfl⟩

theorem TblIn.agree {h h' : Heap α} {non0ctr non0idx : Ptr} {c : Nat → α} {prim ctr : Nat}
    (H : TblIn h non0ctr non0idx c prim ctr) {W : Ptr → Prop} (ha : AgreeI h h' W)
    (h1 : ∀ i, i < prim*ctr → ¬ W (non0idx + i)) (h2 : ∀ i, i < prim → ¬ W (non0ctr + i)) :
    TblIn h' non0ctr non0idx c prim ctr := by
  intro x hx
  rw [ha _ ?_, H x hx]
  rcases tblAddr_blk (non0ctr := non0ctr) (non0idx := non0idx) hx with ⟨i, hi, e⟩ | ⟨i, hi, e⟩
  · rw [e]; exact h1 i hi
  · rw [e]; exact h2 i hi

/-- one table, built inside the block `base[0..size)` at the given offsets -/
theorem non0coeff_blk {base : Ptr} {size oc oi : Nat} {c : Nat → α} {prim ctr : Nat} {h : Heap α}
    (ha : ∀ i, i < size → h.I (base + i) ≠ .oob) (h1 : oc + prim ≤ oi) (h2 : oi + prim*ctr ≤ size) :
    wp (non0coeffByshell (base + oi) (base + oc) c prim ctr) (fun _ h' =>
      TblIn h' (base + oc) (base + oi) c prim ctr ∧
      AgreeI h h' (fun q => ∃ i, q = base + i ∧ ((oc ≤ i ∧ i < oc + prim) ∨
        (oi ≤ i ∧ i < oi + prim*ctr))) ∧ h'.D = h.D ∧
      (∀ i, i < size → h'.I (base + i) ≠ .oob)) h := by
  refine wp_mono (wp_allocMono (non0coeff_wp (base+oi) (base+oc) c prim ctr h ?_ ?_ ?_)) ?_
  · intro i hi; rw [Ptr.add_assoc]; exact ha _ (by omega)
  · intro i hi; rw [Ptr.add_assoc]; exact ha _ (by omega)
  · intro i j hi hj e
    rw [Ptr.add_assoc, Ptr.add_assoc] at e
    have := (Ptr.add_right_inj _ _ _).1 e
    omega
  · rintro _ h' ⟨H, hm⟩
    refine ⟨H.val, H.agree (fun x hx => ?_), H.dbl, fun i hi => hm.I _ (ha i hi)⟩
    rcases tblAddr_blk (non0ctr := base+oc) (non0idx := base+oi) hx with ⟨i, hi, e⟩ | ⟨i, hi, e⟩
    · exact ⟨oi + i, by rw [e, Ptr.add_assoc], Or.inr ⟨by omega, by omega⟩⟩
    · exact ⟨oc + i, by rw [e, Ptr.add_assoc], Or.inl ⟨by omega, by omega⟩⟩

/-- read-only view of a memory block -/
noncomputable def roBlk (T : Ptr → Option Int) (base : Ptr) (n : Nat) (h : Heap α) :
    Ptr → Option Int := fun q =>
  open Classical in
  if Blk base n q then (match h.I q with | .val x => some x | _ => none) else T q

theorem roBlk_ro {T : Ptr → Option Int} {base : Ptr} {n : Nat} {h : Heap α} (hT : RO T h) :
    RO (roBlk T base n h) h := by
  intro q x hq
  unfold roBlk at hq
  split at hq
  · split at hq
    · rename_i e; cases hq; exact e
    · cases hq
  · exact hT q x hq

theorem roBlk_none {T : Ptr → Option Int} {base : Ptr} {n : Nat} {h : Heap α} {q : Ptr}
    (h1 : T q = none) (h2 : ¬ Blk base n q) : roBlk T base n h q = none := by
  unfold roBlk; rw [if_neg h2, h1]

theorem roBlk_ext {T : Ptr → Option Int} {base : Ptr} {n : Nat} {h : Heap α}
    (hT : ∀ i, i < n → T (base + i) = none) {q : Ptr} {x : Int} (hq : T q = some x) :
    roBlk T base n h q = some x := by
  unfold roBlk
  rw [if_neg, hq]
  rintro ⟨i, hi, rfl⟩
  rw [hT i hi] at hq; cases hq

theorem TblIn.ro {T : Ptr → Option Int} {base : Ptr} {n oc oi : Nat} {h : Heap α} {c : Nat → α}
    {prim ctr : Nat} (H : TblIn h (base+oc) (base+oi) c prim ctr) (h1 : oc + prim ≤ n)
    (h2 : oi + prim*ctr ≤ n) : TblRO (roBlk T base n h) (base+oc) (base+oi) c prim ctr := by
  intro x hx
  have hb : Blk base n (tblAddr (base+oi) (base+oc) ctr x) := by
    rcases tblAddr_blk (non0ctr := base+oc) (non0idx := base+oi) hx with ⟨i, hi, e⟩ | ⟨i, hi, e⟩
    · exact ⟨oi + i, by omega, by rw [e, Ptr.add_assoc]⟩
    · exact ⟨oc + i, by omega, by rw [e, Ptr.add_assoc]⟩
  unfold roBlk
  rw [if_pos hb, H x hx]

end Verif.Model
