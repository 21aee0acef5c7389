import Verif.Lemmas.OptLife
import Mathlib.Data.Finset.Lattice.Fold

/-
Property C34: optimizer lifecycle.
-/
namespace Verif.Props
open Verif.Model.OptLife

/-- the handles holding an optimizer after a history -/
def openAfter : List Op → Finset Nat → Finset Nat
  | [], s => s
  | .create h _ _ :: ops, s => openAfter ops (insert h s)
  | .createEmpty h :: ops, s => openAfter ops (insert h s)
  | .noOpt _ :: ops, s => openAfter ops s
  | .delPairs _ :: ops, s => openAfter ops s
  | .delete h :: ops, s => openAfter ops (s.erase h)

/-- a handle that holds an optimizer is not overwritten; everything else is allowed, in any
order: deleting twice, deleting or trimming NULL handles, creating again after deletion -/
def NoOverwrite : List Op → Finset Nat → Prop
  | [], _ => True
  | .create h _ _ :: ops, s => h ∉ s ∧ NoOverwrite ops (insert h s)
  | .createEmpty h :: ops, s => h ∉ s ∧ NoOverwrite ops (insert h s)
  | .noOpt h :: ops, s => h ∉ s ∧ NoOverwrite ops s
  | .delPairs _ :: ops, s => NoOverwrite ops s
  | .delete h :: ops, s => NoOverwrite ops (s.erase h)

/-- the state before any optimizer exists -/
def start : State := ⟨fun _ => none, ∅⟩

structure Inv (s : Finset Nat) (S : State) : Prop where
  opn : ∀ h, (S.hnd h).isSome = true ↔ h ∈ s
  ok : ∀ h o, S.hnd h = some o → OptOK o
  live : ∀ h o, S.hnd h = some o → ∀ b, b ∈ blocks o → b ∈ S.live
  disj : ∀ h h' o o', S.hnd h = some o → S.hnd h' = some o' → ∀ b, b ∈ blocks o → b ∈ blocks o' → h = h'
  owned : ∀ b, b ∈ S.live → ∃ h o, S.hnd h = some o ∧ b ∈ blocks o

theorem inv_start : Inv ∅ start :=
  ⟨by simp [start], by simp [start], by simp [start], by simp [start], by simp [start]⟩

theorem inv_create {s : Finset Nat} {S : State} (I : Inv s S) {h : Nat} {o : Opt} {l : Live} (hh : h ∉ s)
    (B : Built S.live o l) : Inv (insert h s) (S.set h (some o) l) := by
  have hn : S.hnd h = none := by
    cases e : S.hnd h with
    | none => rfl
    | some x => exact absurd ((I.opn h).1 (by rw [e]; rfl)) hh
  refine ⟨?_, ?_, ?_, ?_, ?_⟩
  · intro k
    by_cases e : k = h
    · simp [State.set, e]
    · simp [State.set, e, I.opn k]
  · intro k o' hk
    by_cases e : k = h
    · simp [State.set, e] at hk; subst hk; exact B.ok
    · simp [State.set, e] at hk; exact I.ok k o' hk
  · intro k o' hk b hb
    show b ∈ l
    rw [B.live]
    by_cases e : k = h
    · simp [State.set, e] at hk; subst hk; exact Or.inr hb
    · simp [State.set, e] at hk; exact Or.inl (I.live k o' hk b hb)
  · intro k k' o1 o2 hk hk' b hb hb'
    by_cases e : k = h
    · by_cases e' : k' = h
      · rw [e, e']
      · simp [State.set, e] at hk; subst hk
        simp [State.set, e'] at hk'
        exact absurd (I.live k' o2 hk' b hb') (B.fresh b hb)
    · by_cases e' : k' = h
      · simp [State.set, e'] at hk'; subst hk'
        simp [State.set, e] at hk
        exact absurd (I.live k o1 hk b hb) (B.fresh b hb')
      · simp [State.set, e] at hk
        simp [State.set, e'] at hk'
        exact I.disj k k' o1 o2 hk hk' b hb hb'
  · intro b hb
    rcases (B.live b).1 hb with h1 | h1
    · obtain ⟨k, o', hk, hb'⟩ := I.owned b h1
      have e : k ≠ h := by intro e; rw [e, hn] at hk; cases hk
      exact ⟨k, o', by simp [State.set, e, hk], hb'⟩
    · exact ⟨h, o, by simp [State.set], h1⟩

/-- **C34** Every history of optimizer creations (of any kind, for any basis), trimmings and
deletions that overwrites no live handle runs without undefined behaviour: every release is of a
live block, through its base address.  At every point (take a prefix of the history) the live
blocks are exactly the blocks of the optimizers still held, each belonging to one of them, and
none remains once all optimizers have been deleted. -/
theorem C34_history {A : Live → Nat} (hA : ∀ s, A s ∉ s) (ops : List Op) (hd : NoOverwrite ops ∅) :
    ∃ S, exec A ops start = some S ∧
      (∀ h, (S.hnd h).isSome = true ↔ h ∈ openAfter ops ∅) ∧
      (∀ h o, S.hnd h = some o → (blocks o).Nodup ∧ ∀ b, b ∈ blocks o → b ∈ S.live) ∧
      (∀ b, b ∈ S.live → ∃ h o, S.hnd h = some o ∧ b ∈ blocks o ∧
        ∀ h' o', S.hnd h' = some o' → b ∈ blocks o' → h' = h) ∧
      (openAfter ops ∅ = ∅ → S.live = ∅) := by
  have key : ∀ (ops : List Op) (s : Finset Nat) (S : State), Inv s S → NoOverwrite ops s →
      ∃ S', exec A ops S = some S' ∧ Inv (openAfter ops s) S' := by
    intro ops
    induction ops with
    | nil => intro s S I _; exact ⟨S, rfl, I⟩
    | cons op ops ih =>
      intro s S I hd
      cases op with
      | create h K B => exact ih _ _ (inv_create I hd.1 (built_build hA K B S.live)) hd.2
      | createEmpty h => exact ih _ _ (inv_create I hd.1 (built_init hA S.live)) hd.2
      | noOpt h =>
        have hn : S.hnd h = none := by
          cases e : S.hnd h with
          | none => rfl
          | some x => exact absurd ((I.opn h).1 (by rw [e]; rfl)) hd.1
        have : S.set h none S.live = S := by
          cases S with
          | mk hnd live =>
            unfold State.set
            congr 1
            funext k
            split
            · next e => rw [e]; exact hn.symm
            · rfl
        have := ih s (S.set h none S.live) (by rw [this]; exact I) hd.2
        exact this
      | delPairs h =>
        cases e : S.hnd h with
        | none =>
          obtain ⟨S', h1, h2⟩ := ih s S I hd
          refine ⟨S', ?_, h2⟩
          show (step A S (.delPairs h)).bind _ = _
          simp only [step, e]
          exact h1
        | some o =>
          have hp : ∀ b, b ∈ arrBlks o.pair → b ∈ S.live := fun b hb =>
            I.live h o e b (((delPair_keeps (I.ok h o e)).2 b).2 (Or.inr hb))
          let o1 : Opt := { o with pair := none }
          let l1 := minus S.live (arrBlks o.pair)
          have hstep : step A S (.delPairs h) = some (S.set h (some o1) l1) := by
            simp only [step, e]
            rw [delPair_ok (I.ok h o e) hp]
            rfl
          obtain ⟨k1, k2⟩ := delPair_keeps (I.ok h o e)
          have kd : ∀ b, b ∈ blocks o1 → b ∉ arrBlks o.pair := by
            intro b hb hb2
            have hn := (I.ok h o e).nodup
            unfold blocks at hn
            simp only [List.nodup_append, List.mem_append] at hn
            have hb3 : b ∈ blocks o1 := hb
            simp only [blocks, o1, arrBlks, List.nil_append, List.mem_append] at hb3
            obtain ⟨n1, ⟨n2, ⟨n3, ⟨n4, ⟨n5, n6, d5⟩, d4⟩, d3⟩, d2⟩, d1⟩ := hn
            rcases hb3 with x | x | x | x | x
            · exact d1 b x b (by tauto) rfl
            · exact d2 b x b (by tauto) rfl
            · exact d3 b x b (by tauto) rfl
            · exact d4 b x b (by tauto) rfl
            · exact d5 b hb2 b x rfl
          have I1 : Inv s (S.set h (some o1) l1) := by
            refine ⟨?_, ?_, ?_, ?_, ?_⟩
            · intro k
              by_cases ek : k = h
              · have := I.opn h
                rw [e] at this
                simpa [State.set, ek] using this
              · simp [State.set, ek, I.opn k]
            · intro k o' hk
              by_cases ek : k = h
              · simp [State.set, ek] at hk; subst hk; exact k1
              · simp [State.set, ek] at hk; exact I.ok k o' hk
            · intro k o' hk b hb
              show b ∈ minus _ _
              rw [mem_minus]
              by_cases ek : k = h
              · simp [State.set, ek] at hk; subst hk
                exact ⟨I.live h o e b ((k2 b).2 (Or.inl hb)), kd b hb⟩
              · simp [State.set, ek] at hk
                exact ⟨I.live k o' hk b hb, fun hb2 => ek (I.disj k h o' o hk e b hb ((k2 b).2 (Or.inr hb2)))⟩
            · intro k k' p p' hk hk' b hb hb'
              have lift : ∀ k p, (S.set h (some o1) l1).hnd k = some p → ∀ b, b ∈ blocks p →
                  ∃ q, S.hnd k = some q ∧ b ∈ blocks q := by
                intro k p hk b hb
                by_cases ek : k = h
                · simp [State.set, ek] at hk; subst hk
                  exact ⟨o, by rw [ek]; exact e, (k2 b).2 (Or.inl hb)⟩
                · simp [State.set, ek] at hk; exact ⟨p, hk, hb⟩
              obtain ⟨q, hq, hbq⟩ := lift k p hk b hb
              obtain ⟨q', hq', hbq'⟩ := lift k' p' hk' b hb'
              exact I.disj k k' q q' hq hq' b hbq hbq'
            · intro b hb
              change b ∈ minus _ _ at hb
              rw [mem_minus] at hb
              obtain ⟨k, o', hk, hb'⟩ := I.owned b hb.1
              by_cases ek : k = h
              · rw [ek, e] at hk; cases hk
                refine ⟨h, o1, by simp [State.set], ?_⟩
                rcases (k2 b).1 hb' with x | x
                · exact x
                · exact absurd x hb.2
              · exact ⟨k, o', by simp [State.set, ek, hk], hb'⟩
          obtain ⟨S', h1, h2⟩ := ih s _ I1 hd
          refine ⟨S', ?_, h2⟩
          show (step A S (.delPairs h)).bind _ = _
          rw [hstep]; exact h1
      | delete h =>
        cases e : S.hnd h with
        | none =>
          have hs : h ∉ s := by
            rw [← I.opn h, e]; simp
          have heq : S.set h none S.live = S := by
            cases S with
            | mk hnd live =>
              unfold State.set
              congr 1
              funext k
              split
              · next ek => rw [ek]; exact e.symm
              · rfl
          have hd' : NoOverwrite ops (s.erase h) := hd
          rw [Finset.erase_eq_of_notMem hs] at hd'
          obtain ⟨S', h1, h2⟩ := ih s S I hd'
          refine ⟨S', ?_, ?_⟩
          · show (step A S (.delete h)).bind _ = _
            simp only [step, e, del]
            show exec A ops (S.set h none S.live) = _
            rw [heq]; exact h1
          · show Inv (openAfter ops (s.erase h)) S'
            rw [Finset.erase_eq_of_notMem hs]; exact h2
        | some o =>
          have hstep : step A S (.delete h) = some (S.set h none (minus S.live (blocks o))) := by
            simp only [step, e]
            rw [del_ok (I.ok h o e) (I.live h o e)]
            rfl
          have I1 : Inv (s.erase h) (S.set h none (minus S.live (blocks o))) := by
            refine ⟨?_, ?_, ?_, ?_, ?_⟩
            · intro k
              by_cases ek : k = h
              · simp [State.set, ek]
              · simp [State.set, ek, I.opn k]
            · intro k o' hk
              by_cases ek : k = h
              · simp [State.set, ek] at hk
              · simp [State.set, ek] at hk; exact I.ok k o' hk
            · intro k o' hk b hb
              show b ∈ minus _ _
              rw [mem_minus]
              by_cases ek : k = h
              · simp [State.set, ek] at hk
              · simp [State.set, ek] at hk
                exact ⟨I.live k o' hk b hb, fun hb2 => ek (I.disj k h o' o hk e b hb hb2)⟩
            · intro k k' p p' hk hk' b hb hb'
              by_cases ek : k = h
              · simp [State.set, ek] at hk
              · by_cases ek' : k' = h
                · simp [State.set, ek'] at hk'
                · simp [State.set, ek] at hk
                  simp [State.set, ek'] at hk'
                  exact I.disj k k' p p' hk hk' b hb hb'
            · intro b hb
              change b ∈ minus _ _ at hb
              rw [mem_minus] at hb
              obtain ⟨k, o', hk, hb'⟩ := I.owned b hb.1
              by_cases ek : k = h
              · rw [ek, e] at hk; cases hk; exact absurd hb' hb.2
              · exact ⟨k, o', by simp [State.set, ek, hk], hb'⟩
          obtain ⟨S', h1, h2⟩ := ih _ _ I1 hd
          refine ⟨S', ?_, h2⟩
          show (step A S (.delete h)).bind _ = _
          rw [hstep]; exact h1
  obtain ⟨S, h1, I⟩ := key ops ∅ start inv_start hd
  refine ⟨S, h1, I.opn, fun h o ho => ⟨(I.ok h o ho).nodup, I.live h o ho⟩, ?_, ?_⟩
  · intro b hb
    obtain ⟨h, o, ho, hbo⟩ := I.owned b hb
    exact ⟨h, o, ho, hbo, fun h' o' ho' hb' => I.disj h' h o' o ho' ho b hb' hbo⟩
  · intro he
    rw [Finset.eq_empty_iff_forall_notMem]
    intro b hb
    obtain ⟨h, o, ho, _⟩ := I.owned b hb
    have := (I.opn h).1 (by rw [ho]; rfl)
    rw [he] at this
    simp at this

/-- **C34** Deleting a NULL handle changes nothing. -/
theorem C34_delete_null (A : Live → Nat) (S : State) (h : Nat) (hn : S.hnd h = none) :
    ∃ S', step A S (.delete h) = some S' ∧ S'.live = S.live ∧ ∀ k, S'.hnd k = S.hnd k := by
  refine ⟨S.set h none S.live, by simp [step, hn, del], rfl, fun k => ?_⟩
  unfold State.set
  dsimp only
  split
  · next e => rw [e, hn]
  · rfl

/-- **C34** After a deletion the handle is NULL. -/
theorem C34_delete_clears (A : Live → Nat) (S S' : State) (h : Nat) (hs : step A S (.delete h) = some S') :
    S'.hnd h = none := by
  unfold step at hs
  cases hd : del (S.hnd h) S.live with
  | none => simp [hd] at hs
  | some r =>
    obtain ⟨o, l⟩ := r
    simp [hd] at hs
    subst hs
    have : o = none := by
      cases e : S.hnd h with
      | none => rw [e] at hd; simp [del] at hd; exact hd.1.symm
      | some x =>
        rw [e] at hd
        simp only [del, Option.bind_eq_bind, Option.bind_eq_some_iff, Option.pure_def] at hd
        obtain ⟨_, _, _, _, _, _, _, _, _, _, hd⟩ := hd
        simp at hd
        exact hd.1.symm
    simp [State.set, this]

/-- an allocator that reuses released blocks: the smallest identity above the live ones -/
def bump (s : Live) : Nat := s.sup id + 1
theorem bump_fresh (s : Live) : bump s ∉ s := by
  intro h
  have : bump s ≤ s.sup id := Finset.le_sup (f := id) h
  unfold bump at this
  omega

def demoBas : Bas := ⟨2, fun i => i + 1, fun _ => 2, fun i => i, fun i j => decide (i = 1 ∧ j = 0)⟩
def demoOps : List Op :=
  [.createEmpty 7, .create 0 ⟨true, 4, 6, fun _ _ _ _ => 1⟩ demoBas, .create 1 ⟨false, 2, 15, fun _ _ _ _ => 1⟩ demoBas,
   .delPairs 0, .delete 0, .delete 0, .create 0 ⟨true, 3, 12, fun _ _ _ _ => 1⟩ demoBas, .delete 1, .noOpt 1,
   .delete 1, .delete 0, .delete 7]

example : ∃ S, exec bump demoOps start = some S ∧ S.live = ∅ := by
  obtain ⟨S, h1, _, _, _, h2⟩ := C34_history bump_fresh demoOps (by
    simp [demoOps, NoOverwrite])
  exact ⟨S, h1, h2 (by decide)⟩

end Verif.Props
