import Verif.Model.OptLife
import Mathlib.Data.List.Nodup
import Mathlib.Data.Finset.Erase
import Mathlib.Tactic.Tauto

namespace Verif.Model.OptLife

theorem iter_inv {S : Type} (f : Nat → S → S) (J : Nat → S → Prop) (n : Nat) (s : S) (h0 : J 0 s)
    (hs : ∀ i s, i < n → J i s → J (i+1) (f i s)) : J n (iter f n s) := by
  have : ∀ m, m ≤ n → J m (iter f m s) := by
    intro m
    induction m with
    | zero => intro _; exact h0
    | succ m ih => intro hm; exact hs m _ (by omega) (ih (by omega))
  exact this n (Nat.le_refl _)

theorem pieces_zero (pool n : Nat) (len : Nat → Nat) : pieces pool n len 0 = .at pool 0 := by
  unfold pieces
  refine (iter_inv _ (fun i (s : (Nat → PV) × Nat) => s.1 0 = .at pool 0 ∧ (i = 0 → s.2 = 0)) n _ ⟨by simp [setSlot], fun _ => rfl⟩ ?_).1
  rintro i s _ ⟨h1, h2⟩
  refine ⟨?_, fun h => by omega⟩
  by_cases hi : i = 0
  · subst hi; simp [setSlot, h2 rfl]
  · simp [setSlot, Ne.symm hi, h1]

theorem setij_zero (B : Bas) (pool : Nat) :
    (iter (fun i s => iter (fun j s => setijBody B pool i j s) (i+1) s) B.nbas
      (setSlot (fun _ => .null) 0 (.at pool 0), 0)).1 0 = .at pool 0 := by
  refine (iter_inv _ (fun i (s : (Nat → PV) × Nat) => s.1 0 = .at pool 0 ∧ (i = 0 → s.2 = 0)) _ _
    ⟨by simp [setSlot], fun _ => rfl⟩ ?_).1
  rintro i s hi ⟨h1, h2⟩
  have := iter_inv (fun j s => setijBody B pool i j s)
    (fun j (s : (Nat → PV) × Nat) => s.1 0 = .at pool 0 ∧ (i = 0 → j = 0 → s.2 = 0)) (i+1) s
    ⟨h1, fun h _ => h2 h⟩ ?_
  · exact ⟨this.1, fun h => by omega⟩
  · rintro j s hj ⟨h3, h4⟩
    refine ⟨?_, fun _ h => by omega⟩
    unfold setijBody
    by_cases h00 : i = 0 ∧ j = 0
    · simp only [h00, and_self, if_true, setSlot]
      rw [h4 h00.1 h00.2]
    · have hn : 0 < B.nbas := by omega
      have e1 : i*B.nbas + j ≠ 0 := by
        intro e
        have hj0 : j = 0 := by omega
        have : i*B.nbas = 0 := by omega
        rcases Nat.mul_eq_zero.1 this with h | h
        · exact h00 ⟨h, hj0⟩
        · omega
      have e2 : j*B.nbas + i ≠ 0 := by
        intro e
        have hi0 : i = 0 := by omega
        have : j*B.nbas = 0 := by omega
        rcases Nat.mul_eq_zero.1 this with h | h
        · exact h00 ⟨hi0, h⟩
        · omega
      simp only [h00, if_false]
      split
      · split <;> simp [setSlot, Ne.symm e1, Ne.symm e2, h3]
      · simp [setSlot, Ne.symm e1, Ne.symm e2, h3]

theorem genLoop_zero (order la buf : Nat) (nf : Nat → Nat → Nat → Nat → Nat) :
    (genLoop order la buf nf (setSlot (fun _ => .null) 0 (.at buf 0), 0)).1 0 = .at buf 0 := by
  have key : ∀ (z : Prop) (ptr n : Nat) (s : (Nat → PV) × Nat), (ptr = 0 → z) →
      (s.1 0 = .at buf 0 ∧ (z → s.2 = 0)) →
      setSlot s.1 ptr (.at buf s.2) 0 = .at buf 0 := by
    rintro z ptr n s hz ⟨h1, h2⟩
    by_cases hp : ptr = 0
    · simp [setSlot, hp, h2 (hz hp)]
    · simp [setSlot, Ne.symm hp, h1]
  unfold genLoop
  split
  · refine (iter_inv _ (fun i (s : (Nat → PV) × Nat) => s.1 0 = .at buf 0 ∧ (i = 0 → s.2 = 0)) _ _
      ⟨by simp [setSlot], fun _ => rfl⟩ ?_).1
    rintro i s _ ⟨h1, h2⟩
    refine ⟨(iter_inv _ (fun j (s : (Nat → PV) × Nat) => s.1 0 = .at buf 0 ∧ (i = 0 ∧ j = 0 → s.2 = 0)) _ s
      ⟨h1, fun h => h2 h.1⟩ ?_).1, fun h => by omega⟩
    · rintro j s _ h
      exact ⟨key _ _ 0 s (fun e => by omega) h, fun h => by omega⟩
  · split
    · refine (iter_inv _ (fun i (s : (Nat → PV) × Nat) => s.1 0 = .at buf 0 ∧ (i = 0 → s.2 = 0)) _ _
        ⟨by simp [setSlot], fun _ => rfl⟩ ?_).1
      rintro i s _ ⟨h1, h2⟩
      refine ⟨(iter_inv _ (fun j (s : (Nat → PV) × Nat) => s.1 0 = .at buf 0 ∧ (i = 0 ∧ j = 0 → s.2 = 0)) _ s
        ⟨h1, fun h => h2 h.1⟩ ?_).1, fun h => by omega⟩
      rintro j s _ ⟨h1, h2⟩
      refine ⟨(iter_inv _ (fun k (s : (Nat → PV) × Nat) => s.1 0 = .at buf 0 ∧ (i = 0 ∧ j = 0 ∧ k = 0 → s.2 = 0)) _ s
        ⟨h1, fun h => h2 ⟨h.1, h.2.1⟩⟩ ?_).1, fun h => by omega⟩
      rintro k s _ h
      exact ⟨key _ _ 0 s (fun e => by omega) h, fun h => by omega⟩
    · refine (iter_inv _ (fun i (s : (Nat → PV) × Nat) => s.1 0 = .at buf 0 ∧ (i = 0 → s.2 = 0)) _ _
        ⟨by simp [setSlot], fun _ => rfl⟩ ?_).1
      rintro i s _ ⟨h1, h2⟩
      refine ⟨(iter_inv _ (fun j (s : (Nat → PV) × Nat) => s.1 0 = .at buf 0 ∧ (i = 0 ∧ j = 0 → s.2 = 0)) _ s
        ⟨h1, fun h => h2 h.1⟩ ?_).1, fun h => by omega⟩
      rintro j s _ ⟨h1, h2⟩
      refine ⟨(iter_inv _ (fun k (s : (Nat → PV) × Nat) => s.1 0 = .at buf 0 ∧ (i = 0 ∧ j = 0 ∧ k = 0 → s.2 = 0)) _ s
        ⟨h1, fun h => h2 ⟨h.1, h.2.1⟩⟩ ?_).1, fun h => by omega⟩
      rintro k s _ ⟨h1, h2⟩
      refine ⟨(iter_inv _ (fun l (s : (Nat → PV) × Nat) => s.1 0 = .at buf 0 ∧
        (i = 0 ∧ j = 0 ∧ k = 0 ∧ l = 0 → s.2 = 0)) _ s
        ⟨h1, fun h => h2 ⟨h.1, h.2.1, h.2.2.1⟩⟩ ?_).1, fun h => by omega⟩
      rintro l s _ h
      exact ⟨key _ _ 0 s (fun e => by omega) h, fun h => by omega⟩

/-- blocks reached through a pointer array: the pool element 0 points to, and the array -/
def arrBlks : Option Arr → List Nat
  | none => []
  | some a => match a.slot 0 with
    | .at b _ => [b, a.blk]
    | _ => [a.blk]

def ArrOK : Option Arr → Prop
  | none => True
  | some a => ∃ b, a.slot 0 = .at b 0

/-- all blocks of an optimizer -/
def blocks (o : Opt) : List Nat :=
  arrBlks o.index ++ (arrBlks o.sorted ++ (arrBlks o.non0 ++ (arrBlks o.logc ++ (arrBlks o.pair ++ [o.self]))))

structure OptOK (o : Opt) : Prop where
  index : ArrOK o.index
  sorted : ArrOK o.sorted
  non0 : ArrOK o.non0
  logc : ArrOK o.logc
  pair : ArrOK o.pair
  both : o.sorted.isSome = o.non0.isSome
  nodup : (blocks o).Nodup

/-- `o` was allocated on top of the live blocks `s0`, giving `s` -/
structure Built (s0 : Live) (o : Opt) (s : Live) : Prop where
  ok : OptOK o
  fresh : ∀ b, b ∈ blocks o → b ∉ s0
  live : ∀ b, b ∈ s ↔ b ∈ s0 ∨ b ∈ blocks o

theorem nodup_ins {l1 l2 : List Nat} {p a : Nat} (h : (l1 ++ l2).Nodup) (hp : p ∉ l1 ++ l2)
    (ha : a ∉ l1 ++ l2) (hpa : p ≠ a) : (l1 ++ ([p, a] ++ l2)).Nodup := by
  show (l1 ++ p :: a :: l2).Nodup
  rw [List.nodup_middle, List.nodup_cons, List.nodup_middle, List.nodup_cons]
  refine ⟨?_, ha, h⟩
  simp only [List.mem_append, List.mem_cons, not_or] at *
  exact ⟨hp.1, hpa, hp.2⟩

variable {A : Live → Nat}

theorem built_init (hA : ∀ s, A s ∉ s) (s : Live) : Built s (init A s).1 (init A s).2 := by
  refine ⟨⟨trivial, trivial, trivial, trivial, trivial, rfl, by simp [init, blocks, arrBlks]⟩, ?_, ?_⟩
  · intro b hb
    have : b = A s := by simpa [init, blocks, arrBlks, malloc] using hb
    rw [this]; exact hA s
  · intro b
    simp [init, blocks, arrBlks, malloc, or_comm]

/-- what two allocations give -/
theorem two_fresh (hA : ∀ s, A s ∉ s) {s0 s : Live} {o : Opt} (H : Built s0 o s) :
    let x := A s
    let y := A (insert x s)
    x ∉ blocks o ∧ y ∉ blocks o ∧ x ∉ s0 ∧ y ∉ s0 ∧ x ≠ y := by
  intro x y
  have hx := hA s
  have hy := hA (insert x s)
  change x ∉ s at hx
  change y ∉ _ at hy
  rw [Finset.mem_insert, not_or] at hy
  rw [H.live] at hx
  rw [H.live] at hy
  tauto

theorem arrBlks_some {arr : Nat} {sl : Nat → PV} {b : Nat} (h : sl 0 = .at b 0) :
    arrBlks (some ⟨arr, sl⟩) = [b, arr] := by
  simp [arrBlks, h]

theorem built_add (hA : ∀ s, A s ∉ s) {s0 s : Live} {o o' : Opt} (H : Built s0 o s)
    {p a : Nat} (hpa : (p = A s ∧ a = A (insert (A s) s)) ∨ (a = A s ∧ p = A (insert (A s) s)))
    {l1 l2 : List Nat} (hb : blocks o = l1 ++ l2) (hb' : blocks o' = l1 ++ ([p, a] ++ l2))
    (ho : (blocks o').Nodup → OptOK o') : Built s0 o' (insert (A (insert (A s) s)) (insert (A s) s)) := by
  obtain ⟨h1, h2, h3, h4, h5⟩ := two_fresh hA H
  have hmem : ∀ b, b ∈ blocks o' ↔ b ∈ blocks o ∨ b = A s ∨ b = A (insert (A s) s) := by
    intro b
    rw [hb, hb']
    simp only [List.mem_append, List.mem_cons, List.not_mem_nil, or_false]
    rcases hpa with ⟨rfl, rfl⟩ | ⟨rfl, rfl⟩ <;> tauto
  refine ⟨ho ?_, ?_, ?_⟩
  · rw [hb']
    have hn := H.ok.nodup
    rw [hb] at hn h1 h2
    rcases hpa with ⟨rfl, rfl⟩ | ⟨rfl, rfl⟩
    · exact nodup_ins hn h1 h2 h5
    · exact nodup_ins hn h2 h1 h5.symm
  · intro b hb2
    rcases (hmem b).1 hb2 with h | h | h
    · exact H.fresh b h
    · rw [h]; exact h3
    · rw [h]; exact h4
  · intro b
    rw [hmem, Finset.mem_insert, Finset.mem_insert, H.live]
    tauto

theorem built_logc (hA : ∀ s, A s ∉ s) {s0 s : Live} {o : Opt} (H : Built s0 o s) (B : Bas)
    (hn : o.logc = none) : Built s0 (setLogMaxc A B o s).1 (setLogMaxc A B o s).2 ∧
      (setLogMaxc A B o s).1.pair = o.pair ∧ (setLogMaxc A B o s).1.index = o.index ∧
      (setLogMaxc A B o s).1.non0 = o.non0 := by
  unfold setLogMaxc
  split
  · exact ⟨H, rfl, rfl, rfl⟩
  · refine ⟨?_, rfl, rfl, rfl⟩
    refine built_add hA H (Or.inr ⟨rfl, rfl⟩)
      (l1 := arrBlks o.index ++ (arrBlks o.sorted ++ arrBlks o.non0)) (l2 := arrBlks o.pair ++ [o.self]) ?_ ?_ ?_
    · simp [blocks, hn, arrBlks]
    · simp only [blocks, malloc, arrBlks_some (pieces_zero _ _ _), List.append_assoc]
    · exact fun h => ⟨H.ok.index, H.ok.sorted, H.ok.non0, ⟨_, pieces_zero _ _ _⟩, H.ok.pair, H.ok.both, h⟩

theorem built_setij (hA : ∀ s, A s ∉ s) {s0 s : Live} {o : Opt} (H : Built s0 o s) (B : Bas)
    (hn : o.logc = none) (hp : o.pair = none) : Built s0 (setij A B o s).1 (setij A B o s).2 ∧
      (setij A B o s).1.index = o.index ∧ (setij A B o s).1.non0 = o.non0 := by
  obtain ⟨H1, e1, e2, e3⟩ := built_logc hA H B hn
  unfold setij
  simp only [hn, Option.isNone_none, if_true]
  split
  · exact ⟨H1, e2, e3⟩
  · refine ⟨?_, e2, e3⟩
    have hp' := e1.trans hp
    revert H1 hp'
    generalize setLogMaxc A B o s = r
    obtain ⟨o1, s1⟩ := r
    intro H1 hp'
    dsimp only at hp' H1 ⊢
    refine built_add hA H1 (Or.inr ⟨rfl, rfl⟩)
      (l1 := arrBlks o1.index ++ (arrBlks o1.sorted ++ (arrBlks o1.non0 ++ arrBlks o1.logc)))
      (l2 := [o1.self]) ?_ ?_ ?_
    · simp [blocks, hp', arrBlks]
    · simp only [blocks, malloc, arrBlks_some (setij_zero _ _), List.append_assoc]
    · exact fun h => ⟨H1.ok.index, H1.ok.sorted, H1.ok.non0, H1.ok.logc, ⟨_, setij_zero _ _⟩, H1.ok.both, h⟩

theorem both_none {o : Opt} (h : OptOK o) (hn : o.non0 = none) : o.sorted = none := by
  have := h.both
  rw [hn] at this
  cases hs : o.sorted with
  | none => rfl
  | some x => rw [hs] at this; cases this

theorem built_non0 (hA : ∀ s, A s ∉ s) {s0 s : Live} {o : Opt} (H : Built s0 o s) (B : Bas)
    (hn : o.non0 = none) : Built s0 (setNon0 A B o s).1 (setNon0 A B o s).2 ∧
      (setNon0 A B o s).1.index = o.index := by
  have hs := both_none H.ok hn
  unfold setNon0
  split
  · exact ⟨H, rfl⟩
  · refine ⟨?_, rfl⟩
    dsimp only [malloc]
    let x1 := A s
    let s1 := insert x1 s
    let x2 := A s1
    let s2 := insert x2 s1
    let x3 := A s2
    let s3 := insert x3 s2
    let x4 := A s3
    let s4 := insert x4 s3
    have f1 : x1 ∉ s := hA s
    have f2 : x2 ∉ s1 := hA s1
    have f3 : x3 ∉ s2 := hA s2
    have f4 : x4 ∉ s3 := hA s3
    simp only [s3, s2, s1, Finset.mem_insert, not_or] at f2 f3 f4
    change Built s0 _ s4
    let o' : Opt := { o with non0 := some ⟨x1, pieces x3 B.nbas B.nprim⟩,
                             sorted := some ⟨x2, pieces x4 B.nbas (fun i => B.nprim i * B.nctr i)⟩ }
    change Built s0 o' s4
    let l1 := arrBlks o.index
    let l2 := arrBlks o.logc ++ (arrBlks o.pair ++ [o.self])
    have hb : blocks o = l1 ++ l2 := by simp [blocks, hn, hs, arrBlks, l1, l2]
    have hb' : blocks o' = l1 ++ ([x4, x2] ++ ([x3, x1] ++ l2)) := by
      simp only [blocks, o', arrBlks_some (pieces_zero _ _ _), l1, l2]
    have hmem : ∀ b, b ∈ blocks o' ↔ b ∈ blocks o ∨ b = x1 ∨ b = x2 ∨ b = x3 ∨ b = x4 := by
      intro b
      rw [hb, hb']
      simp only [List.mem_append, List.mem_cons, List.not_mem_nil, or_false]
      tauto
    have nb : ∀ b, b ∉ s → b ∉ blocks o := fun b hb h => hb ((H.live b).2 (Or.inr h))
    have n0 : ∀ b, b ∉ s → b ∉ s0 := fun b hb h => hb ((H.live b).2 (Or.inl h))
    refine ⟨⟨H.ok.index, ⟨_, pieces_zero _ _ _⟩, ⟨_, pieces_zero _ _ _⟩, H.ok.logc, H.ok.pair, rfl, ?_⟩, ?_, ?_⟩
    · have hn1 := H.ok.nodup
      rw [hb] at hn1
      have nb1 := nb x1 f1
      have nb2 := nb x2 f2.2
      have nb3 := nb x3 f3.2.2
      have nb4 := nb x4 f4.2.2.2
      rw [hb] at nb1 nb2 nb3 nb4
      rw [hb']
      refine nodup_ins (nodup_ins hn1 nb3 nb1 f3.2.1) ?_ ?_ f4.2.1
      · simp only [List.mem_append, List.mem_cons, List.not_mem_nil, or_false, not_or] at nb4 ⊢
        exact ⟨nb4.1, ⟨f4.1, f4.2.2.1⟩, nb4.2⟩
      · simp only [List.mem_append, List.mem_cons, List.not_mem_nil, or_false, not_or] at nb2 ⊢
        exact ⟨nb2.1, ⟨fun e => f3.1 e.symm, f2.1⟩, nb2.2⟩
    · intro b hb2
      rcases (hmem b).1 hb2 with h | h | h | h | h
      · exact H.fresh b h
      · rw [h]; exact n0 _ f1
      · rw [h]; exact n0 _ f2.2
      · rw [h]; exact n0 _ f3.2.2
      · rw [h]; exact n0 _ f4.2.2.2
    · intro b
      rw [hmem]
      simp only [s4, s3, s2, s1, Finset.mem_insert, H.live]
      tauto

theorem built_genIdx (hA : ∀ s, A s ∉ s) {s0 s : Live} {o : Opt} (H : Built s0 o s) (B : Bas)
    (order allow : Nat) (nf : Nat → Nat → Nat → Nat → Nat) (hn : o.index = none) :
    Built s0 (genIdx A B order allow nf o s).1 (genIdx A B order allow nf o s).2 := by
  unfold genIdx
  refine built_add hA H (Or.inl ⟨rfl, rfl⟩) (l1 := [])
    (l2 := arrBlks o.sorted ++ (arrBlks o.non0 ++ (arrBlks o.logc ++ (arrBlks o.pair ++ [o.self])))) ?_ ?_ ?_
  · simp [blocks, hn, arrBlks]
  · simp only [blocks, malloc, arrBlks_some (genLoop_zero _ _ _ _), List.nil_append]
  · exact fun h => ⟨⟨_, genLoop_zero _ _ _ _⟩, H.ok.sorted, H.ok.non0, H.ok.logc, H.ok.pair, H.ok.both, h⟩

theorem built_build (hA : ∀ s, A s ∉ s) (K : Kind) (B : Bas) (s : Live) :
    Built s (build A K B s).1 (build A K B s).2 := by
  have H0 := built_init hA s
  have e0 : (init A s).1.logc = none ∧ (init A s).1.pair = none ∧ (init A s).1.index = none ∧
    (init A s).1.non0 = none := ⟨rfl, rfl, rfl, rfl⟩
  unfold build
  revert H0 e0
  generalize init A s = r0
  obtain ⟨o0, s1⟩ := r0
  rintro H0 ⟨e1, e2, e3, e4⟩
  dsimp only at H0 e1 e2 e3 e4 ⊢
  have H1 : Built s (if K.pairs = true then setij A B o0 s1 else setLogMaxc A B o0 s1).1
      (if K.pairs = true then setij A B o0 s1 else setLogMaxc A B o0 s1).2 ∧
      (if K.pairs = true then setij A B o0 s1 else setLogMaxc A B o0 s1).1.index = none ∧
      (if K.pairs = true then setij A B o0 s1 else setLogMaxc A B o0 s1).1.non0 = none := by
    split
    · obtain ⟨h1, h2, h3⟩ := built_setij hA H0 B e1 e2
      exact ⟨h1, h2.trans e3, h3.trans e4⟩
    · obtain ⟨h1, h2, h3, h4⟩ := built_logc hA H0 B e1
      exact ⟨h1, h3.trans e3, h4.trans e4⟩
  revert H1
  generalize (if K.pairs = true then setij A B o0 s1 else setLogMaxc A B o0 s1) = r1
  obtain ⟨o1, s2⟩ := r1
  rintro ⟨H1, e5, e6⟩
  dsimp only at H1 e5 e6 ⊢
  obtain ⟨H2, e7⟩ := built_non0 hA H1 B e6
  revert H2 e7
  generalize setNon0 A B o1 s2 = r2
  obtain ⟨o2, s3⟩ := r2
  intro H2 e7
  exact built_genIdx hA H2 B _ _ _ (e7.trans e5)

/-- blocks released one after the other -/
def minus (s : Live) (l : List Nat) : Live := l.foldl Finset.erase s

theorem mem_minus (s : Live) (l : List Nat) (b : Nat) : b ∈ minus s l ↔ b ∈ s ∧ b ∉ l := by
  induction l generalizing s with
  | nil => simp [minus]
  | cons x l ih =>
    have : minus s (x :: l) = minus (s.erase x) l := rfl
    rw [this, ih, Finset.mem_erase, List.mem_cons]
    tauto

theorem minus_append (s : Live) (l1 l2 : List Nat) : minus s (l1 ++ l2) = minus (minus s l1) l2 := by
  unfold minus; rw [List.foldl_append]

theorem freeArr_ok {s : Live} {a : Option Arr} (h : ArrOK a) (hn : (arrBlks a).Nodup)
    (hs : ∀ b, b ∈ arrBlks a → b ∈ s) : freeArr s a = some (minus s (arrBlks a)) := by
  cases a with
  | none => rfl
  | some a =>
    obtain ⟨b, hb⟩ := h
    have e : arrBlks (some a) = [b, a.blk] := by simp [arrBlks, hb]
    rw [e] at hn hs ⊢
    have h1 := hs b (by simp)
    have h2 := hs a.blk (by simp)
    have h3 : a.blk ≠ b := by
      intro e; rw [e] at hn; simp at hn
    simp [freeArr, hb, free, h1, minus, h2, h3]

theorem delPair_ok {o : Opt} {s : Live} (h : OptOK o) (hs : ∀ b, b ∈ arrBlks o.pair → b ∈ s) :
    delPair o s = some ({ o with pair := none }, minus s (arrBlks o.pair)) := by
  have hn := h.nodup
  unfold blocks at hn
  simp only [List.nodup_append] at hn
  unfold delPair
  rw [freeArr_ok h.pair (by tauto) hs]
  rfl

theorem delPair_keeps {o : Opt} (h : OptOK o) : OptOK { o with pair := none } ∧
    ∀ b, b ∈ blocks o ↔ (b ∈ blocks { o with pair := none } ∨ b ∈ arrBlks o.pair) := by
  refine ⟨⟨h.index, h.sorted, h.non0, h.logc, trivial, h.both, ?_⟩, ?_⟩
  · have hn := h.nodup
    refine List.Nodup.sublist ?_ hn
    unfold blocks
    simp only [arrBlks, List.nil_append]
    refine List.Sublist.append_left (List.Sublist.append_left (List.Sublist.append_left
      (List.Sublist.append_left (List.sublist_append_right _ _) _) _) _) _
  · intro b
    simp only [blocks, arrBlks, List.nil_append, List.mem_append]
    tauto

theorem del_ok {o : Opt} {s : Live} (h : OptOK o) (hs : ∀ b, b ∈ blocks o → b ∈ s) :
    del (some o) s = some (none, minus s (blocks o)) := by
  have hn := h.nodup
  unfold blocks at hn hs
  simp only [List.nodup_append, List.mem_append] at hn hs
  obtain ⟨n1, ⟨n2, ⟨n3, ⟨n4, ⟨n5, n6, d5⟩, d4⟩, d3⟩, d2⟩, d1⟩ := hn
  have hmid : ∀ t : Live, (∀ b, b ∈ arrBlks o.sorted ∨ b ∈ arrBlks o.non0 → b ∈ t) →
      delTables o t = some (minus (minus t (arrBlks o.sorted)) (arrBlks o.non0)) := by
    intro t ht
    unfold delTables
    cases hno : o.non0 with
    | none =>
      have := both_none h hno
      rw [this]; rfl
    | some n =>
      cases hso : o.sorted with
      | none =>
        have := h.both
        rw [hno, hso] at this; cases this
      | some x =>
        have hx := h.sorted
        have hn0 := h.non0
        rw [hno] at hn0 ht n3 d2
        rw [hso] at hx ht n2 d2
        dsimp only
        rw [freeArr_ok hx n2 (fun b hb => ht b (Or.inl hb))]
        rw [Option.bind_some, freeArr_ok hn0 n3]
        intro b hb
        rw [mem_minus]
        exact ⟨ht b (Or.inr hb), fun hb2 => d2 b hb2 b (Or.inl hb) rfl⟩
  unfold del
  dsimp only
  rw [freeArr_ok h.index n1 (fun b hb => hs b (Or.inl hb))]
  show Option.bind _ _ = _
  rw [Option.bind_some]
  rw [hmid _ (fun b hb => by
    rw [mem_minus]
    refine ⟨hs b (by tauto), fun hb2 => d1 b hb2 b (by tauto) rfl⟩)]
  show Option.bind _ _ = _
  rw [Option.bind_some]
  rw [freeArr_ok h.logc n4 (fun b hb => by
    simp only [mem_minus]
    refine ⟨⟨⟨hs b (by tauto), fun hb2 => d1 b hb2 b (by tauto) rfl⟩,
      fun hb2 => d2 b hb2 b (by tauto) rfl⟩, fun hb2 => d3 b hb2 b (by tauto) rfl⟩)]
  show Option.bind _ _ = _
  rw [Option.bind_some]
  rw [delPair_ok h (fun b hb => by
    simp only [mem_minus]
    refine ⟨⟨⟨⟨hs b (by tauto), fun hb2 => d1 b hb2 b (by tauto) rfl⟩,
      fun hb2 => d2 b hb2 b (by tauto) rfl⟩, fun hb2 => d3 b hb2 b (by tauto) rfl⟩,
      fun hb2 => d4 b hb2 b (by tauto) rfl⟩)]
  show Option.bind _ _ = _
  rw [Option.bind_some]
  have hself : o.self ∈ minus (minus (minus (minus (minus s (arrBlks o.index)) (arrBlks o.sorted)) (arrBlks o.non0))
      (arrBlks o.logc)) (arrBlks o.pair) := by
    have hm : o.self ∈ [o.self] := by simp
    simp only [mem_minus]
    refine ⟨⟨⟨⟨⟨hs _ (by tauto), fun hb2 => d1 _ hb2 _ (by tauto) rfl⟩,
      fun hb2 => d2 _ hb2 _ (by tauto) rfl⟩, fun hb2 => d3 _ hb2 _ (by tauto) rfl⟩,
      fun hb2 => d4 _ hb2 _ (by tauto) rfl⟩, fun hb2 => d5 _ hb2 _ hm rfl⟩
  dsimp only [free]
  rw [if_pos ⟨rfl, hself⟩]
  unfold blocks
  simp only [minus_append]
  rfl

end Verif.Model.OptLife
