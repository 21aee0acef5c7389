import Verif.Core.Prog

/-
Describing the effect of loops: `AssignedD h h' P addr v` says that `h'` is `h`
after storing `v k` at `addr k` for every index `k` with `P k`; everything else
is unchanged.
-/

namespace Verif
open Prog

variable {α ι : Type}

structure AssignedD (h h' : Heap α) (P : ι → Prop) (addr : ι → Ptr) (v : ι → α) : Prop where
  val : ∀ k, P k → h'.D (addr k) = .val (v k)
  frame : ∀ q, (∀ k, P k → q ≠ addr k) → h'.D q = h.D q
  int : h'.I = h.I

structure AssignedI (h h' : Heap α) (P : ι → Prop) (addr : ι → Ptr) (v : ι → Int) : Prop where
  val : ∀ k, P k → h'.I (addr k) = .val (v k)
  frame : ∀ q, (∀ k, P k → q ≠ addr k) → h'.I q = h.I q
  dbl : h'.D = h.D

namespace AssignedD

theorem init (h : Heap α) {P : ι → Prop} (addr : ι → Ptr) (v : ι → α) (hP : ∀ k, ¬ P k) :
    AssignedD h h P addr v :=
  ⟨fun k hk => absurd hk (hP k), fun _ _ => rfl, rfl⟩

theorem ne_oob {h h' : Heap α} {P : ι → Prop} {addr : ι → Ptr} {v : ι → α}
    (H : AssignedD h h' P addr v) {q : Ptr} (hq : h.D q ≠ .oob) : h'.D q ≠ .oob := by
  by_cases hex : ∃ k, P k ∧ q = addr k
  · obtain ⟨k, hk, rfl⟩ := hex
    rw [H.val k hk]; simp
  · rw [H.frame q (fun k hk hqa => hex ⟨k, hk, hqa⟩)]; exact hq

/-- Store one more cell; the address may coincide with earlier ones only if the
value is then the same. -/
theorem set {h h' : Heap α} {P P' : ι → Prop} {addr : ι → Ptr} {v : ι → α}
    (H : AssignedD h h' P addr v) (k : ι)
    (hinj : ∀ k', P k' → addr k' = addr k → v k' = v k)
    (hP' : ∀ k', P' k' ↔ (P k' ∨ k' = k)) :
    AssignedD h (h'.setD (addr k) (v k)) P' addr v := by
  refine ⟨?_, ?_, ?_⟩
  · intro k' hk'
    rw [Heap.setD_D]
    by_cases hq : addr k' = addr k
    · rw [if_pos hq]
      rcases (hP' k').1 hk' with h1 | h1
      · rw [hinj k' h1 hq]
      · rw [h1]
    · rw [if_neg hq]
      rcases (hP' k').1 hk' with h1 | h1
      · exact H.val k' h1
      · exact absurd (by rw [h1]) hq
  · intro q hq
    rw [Heap.setD_D_ne _ _ (hq k ((hP' k).2 (Or.inr rfl)))]
    exact H.frame q (fun k' hk' => hq k' ((hP' k').2 (Or.inl hk')))
  · rw [Heap.setD_I]; exact H.int

/-- Overwrite one cell of an injective family with a new value. -/
theorem upd {h h' : Heap α} {P : ι → Prop} {addr : ι → Ptr} {v v' : ι → α}
    (H : AssignedD h h' P addr v) (k : ι) (x : α) (hk : P k)
    (hinj : ∀ k', P k' → addr k' = addr k → k' = k)
    (hv : ∀ k', P k' → k' ≠ k → v' k' = v k') (hvk : v' k = x) :
    AssignedD h (h'.setD (addr k) x) P addr v' := by
  refine ⟨?_, ?_, ?_⟩
  · intro k' hk'
    rw [Heap.setD_D]
    by_cases hq : addr k' = addr k
    · rw [if_pos hq, hinj k' hk' hq, hvk]
    · rw [if_neg hq, H.val k' hk', hv k' hk' (fun e => hq (by rw [e]))]
  · intro q hq
    rw [Heap.setD_D_ne _ _ (hq k hk)]
    exact H.frame q hq
  · rw [Heap.setD_I]; exact H.int

theorem congr {h h' : Heap α} {P P' : ι → Prop} {addr : ι → Ptr} {v v' : ι → α}
    (H : AssignedD h h' P addr v) (hP : ∀ k, P' k ↔ P k) (hv : ∀ k, P k → v' k = v k) :
    AssignedD h h' P' addr v' :=
  ⟨fun k hk => by rw [H.val k ((hP k).1 hk), hv k ((hP k).1 hk)],
   fun q hq => H.frame q (fun k hk => hq k ((hP k).2 hk)), H.int⟩

/-- Change of index type. -/
theorem reindex {κ : Type} {h h' : Heap α} {P : ι → Prop} {addr : ι → Ptr} {v : ι → α}
    (H : AssignedD h h' P addr v) {P' : κ → Prop} {addr' : κ → Ptr} {v' : κ → α}
    (hto : ∀ k', P' k' → ∃ k, P k ∧ addr k = addr' k' ∧ v k = v' k')
    (hfrom : ∀ k, P k → ∃ k', P' k' ∧ addr k = addr' k') :
    AssignedD h h' P' addr' v' := by
  refine ⟨?_, ?_, H.int⟩
  · intro k' hk'
    obtain ⟨k, hk, ha, hv⟩ := hto k' hk'
    rw [← ha, ← hv]; exact H.val k hk
  · intro q hq
    refine H.frame q (fun k hk e => ?_)
    obtain ⟨k', hk', ha⟩ := hfrom k hk
    exact hq k' hk' (e.trans ha)

/-- Two consecutive assignments over disjoint or compatible index sets. -/
theorem comp {h h1 h2 : Heap α} {P1 P2 P : ι → Prop} {addr : ι → Ptr} {v : ι → α}
    (H1 : AssignedD h h1 P1 addr v) (H2 : AssignedD h1 h2 P2 addr v)
    (hinj : ∀ k k', P1 k → P2 k' → addr k = addr k' → v k = v k')
    (hP : ∀ k, P k ↔ (P1 k ∨ P2 k)) :
    AssignedD h h2 P addr v := by
  refine ⟨?_, ?_, by rw [H2.int, H1.int]⟩
  · intro k hk
    by_cases hex : ∃ k', P2 k' ∧ addr k = addr k'
    · obtain ⟨k', hk', e⟩ := hex
      rw [e, H2.val k' hk']
      rcases (hP k).1 hk with h1 | h1
      · rw [hinj k k' h1 hk' e]
      · have := H2.val k h1
        rw [e, H2.val k' hk'] at this
        exact this
    · rcases (hP k).1 hk with h1 | h1
      · rw [H2.frame _ (fun k' hk' e => hex ⟨k', hk', e⟩)]
        exact H1.val k h1
      · exact absurd ⟨k, h1, rfl⟩ hex
  · intro q hq
    rw [H2.frame q (fun k hk => hq k ((hP k).2 (Or.inr hk)))]
    exact H1.frame q (fun k hk => hq k ((hP k).2 (Or.inl hk)))

end AssignedD

namespace AssignedI

theorem init (h : Heap α) {P : ι → Prop} (addr : ι → Ptr) (v : ι → Int) (hP : ∀ k, ¬ P k) :
    AssignedI h h P addr v :=
  ⟨fun k hk => absurd hk (hP k), fun _ _ => rfl, rfl⟩

theorem ne_oob {h h' : Heap α} {P : ι → Prop} {addr : ι → Ptr} {v : ι → Int}
    (H : AssignedI h h' P addr v) {q : Ptr} (hq : h.I q ≠ .oob) : h'.I q ≠ .oob := by
  by_cases hex : ∃ k, P k ∧ q = addr k
  · obtain ⟨k, hk, rfl⟩ := hex
    rw [H.val k hk]; simp
  · rw [H.frame q (fun k hk hqa => hex ⟨k, hk, hqa⟩)]; exact hq

theorem set {h h' : Heap α} {P P' : ι → Prop} {addr : ι → Ptr} {v : ι → Int}
    (H : AssignedI h h' P addr v) (k : ι)
    (hinj : ∀ k', P k' → addr k' = addr k → v k' = v k)
    (hP' : ∀ k', P' k' ↔ (P k' ∨ k' = k)) :
    AssignedI h (h'.setI (addr k) (v k)) P' addr v := by
  refine ⟨?_, ?_, ?_⟩
  · intro k' hk'
    rw [Heap.setI_I]
    by_cases hq : addr k' = addr k
    · rw [if_pos hq]
      rcases (hP' k').1 hk' with h1 | h1
      · rw [hinj k' h1 hq]
      · rw [h1]
    · rw [if_neg hq]
      rcases (hP' k').1 hk' with h1 | h1
      · exact H.val k' h1
      · exact absurd (by rw [h1]) hq
  · intro q hq
    rw [Heap.setI_I_ne _ _ (hq k ((hP' k).2 (Or.inr rfl)))]
    exact H.frame q (fun k' hk' => hq k' ((hP' k').2 (Or.inl hk')))
  · rw [Heap.setI_D]; exact H.dbl

theorem congr {h h' : Heap α} {P P' : ι → Prop} {addr : ι → Ptr} {v v' : ι → Int}
    (H : AssignedI h h' P addr v) (hP : ∀ k, P' k ↔ P k) (hv : ∀ k, P k → v' k = v k) :
    AssignedI h h' P' addr v' :=
  ⟨fun k hk => by rw [H.val k ((hP k).1 hk), hv k ((hP k).1 hk)],
   fun q hq => H.frame q (fun k hk => hq k ((hP k).2 hk)), H.dbl⟩

theorem reindex {κ : Type} {h h' : Heap α} {P : ι → Prop} {addr : ι → Ptr} {v : ι → Int}
    (H : AssignedI h h' P addr v) {P' : κ → Prop} {addr' : κ → Ptr} {v' : κ → Int}
    (hto : ∀ k', P' k' → ∃ k, P k ∧ addr k = addr' k' ∧ v k = v' k')
    (hfrom : ∀ k, P k → ∃ k', P' k' ∧ addr k = addr' k') :
    AssignedI h h' P' addr' v' := by
  refine ⟨?_, ?_, H.dbl⟩
  · intro k' hk'
    obtain ⟨k, hk, ha, hv⟩ := hto k' hk'
    rw [← ha, ← hv]; exact H.val k hk
  · intro q hq
    refine H.frame q (fun k hk e => ?_)
    obtain ⟨k', hk', ha⟩ := hfrom k hk
    exact hq k' hk' (e.trans ha)

end AssignedI

end Verif

namespace Verif
open Prog
variable {α ι : Type}

namespace Prog
/-- C statement `*dst = *src` -/
def cpy (dst src : Ptr) : Prog α Unit := do
  let x ← ld src
  st dst x

/-- C statement `*dst += *src` -/
def addTo [Add α] (dst src : Ptr) : Prog α Unit := do
  let x ← ld src
  let y ← ld dst
  st dst (y + x)

/-- `for (j = 0; j < bound; j += step) f j` (truncated subtraction in `bound` plays the
role of a negative bound: no iteration) -/
def forStep (bound step : Nat) (f : Nat → Prog α Unit) : Prog α Unit :=
  forN ((bound + step - 1) / step) (fun t => f (t * step))
end Prog

theorem AssignedD.cpy_step {h h1 : Heap α} {P : ι → Prop} {addr : ι → Ptr} {v : ι → α}
    (H : AssignedD h h1 P addr v) (k : ι) {dst src : Ptr} (hdst : dst = addr k)
    (hsrc : h.D src = .val (v k))
    (hdisj : ∀ k', P k' → src ≠ addr k') (halloc : h.D (addr k) ≠ .oob)
    (hinj : ∀ k', P k' → addr k' = addr k → v k' = v k) {Q : Unit → Heap α → Prop}
    (hQ : ∀ h2, AssignedD h h2 (fun k' => P k' ∨ k' = k) addr v → Q () h2) :
    wp (cpy dst src) Q h1 := by
  subst hdst
  unfold cpy
  simp only [wp_mbind, wp_ld, wp_st]
  refine ⟨v k, by rw [H.frame src hdisj, hsrc], H.ne_oob halloc, ?_⟩
  exact hQ _ (H.set k hinj (fun _ => Iff.rfl))

theorem AssignedD.addTo_step [Add α] {h h1 : Heap α} {P : ι → Prop} {addr : ι → Ptr} {v : ι → α}
    (H : AssignedD h h1 P addr v) (k : ι) {dst src : Ptr} (hdst : dst = addr k) {x y : α}
    (hsrc : h.D src = .val x) (hold : h.D (addr k) = .val y) (hv : v k = y + x)
    (hdisj : ∀ k', P k' → src ≠ addr k')
    (hinj : ∀ k', P k' → addr k' ≠ addr k) {Q : Unit → Heap α → Prop}
    (hQ : ∀ h2, AssignedD h h2 (fun k' => P k' ∨ k' = k) addr v → Q () h2) :
    wp (addTo dst src) Q h1 := by
  subst hdst
  unfold addTo
  simp only [wp_mbind, wp_ld, wp_st]
  refine ⟨x, by rw [H.frame src hdisj, hsrc], y, ?_, ?_, ?_⟩
  · rw [H.frame _ (fun k' hk' e => hinj k' hk' e.symm), hold]
  · exact H.ne_oob (by rw [hold]; simp)
  · rw [← hv]
    exact hQ _ (H.set k (fun k' hk' e => absurd e (hinj k' hk')) (fun _ => Iff.rfl))

/-- two-digit mixed radix representation is unique -/
theorem radix_inj {m j i j' i' : Nat} (hi : i < m) (hi' : i' < m) (e : j * m + i = j' * m + i') :
    j = j' ∧ i = i' := by
  have h1 : (j * m + i) / m = j := by
    rw [Nat.mul_comm, Nat.mul_add_div (by omega), Nat.div_eq_of_lt hi]; omega
  have h2 : (j' * m + i') / m = j' := by
    rw [Nat.mul_comm, Nat.mul_add_div (by omega), Nat.div_eq_of_lt hi']; omega
  have hj : j = j' := by rw [← h1, ← h2, e]
  subst hj
  exact ⟨rfl, by omega⟩

theorem radix_lt {m n j i : Nat} (hj : j < n) (hi : i < m) : j * m + i < n * m := by
  have : (j + 1) * m ≤ n * m := Nat.mul_le_mul_right m hj
  rw [Nat.add_mul] at this
  omega

end Verif
