import Verif.Core.Frame

/-!
Programs that perform a given family of stores: `Wr W h h' P addr v` says that `h'` is `h` after
storing `v k` at `addr k` for all `k` with `P k`, except that the scratch region `W` may have
changed arbitrarily.
-/
namespace Verif
open Prog

variable {α ι A : Type}

structure Wr (W : Ptr → Prop) (h h' : Heap α) (P : ι → Prop) (addr : ι → Ptr) (v : ι → α) : Prop where
  val : ∀ k, P k → h'.D (addr k) = .val (v k)
  frame : ∀ q, ¬ W q → (∀ k, P k → q ≠ addr k) → h'.D q = h.D q
  alloc : ∀ q, h.D q ≠ .oob → h'.D q ≠ .oob
  int : h'.I = h.I

namespace Wr
variable {W W' : Ptr → Prop} {h h1 h' : Heap α} {P P' : ι → Prop} {addr : ι → Ptr} {v v' : ι → α}

theorem init (h : Heap α) (hP : ∀ k, ¬ P k) : Wr W h h P addr v :=
  ⟨fun k hk => absurd hk (hP k), fun _ _ _ => rfl, fun _ x => x, rfl⟩

theorem of_assigned (H : AssignedD h h' P addr v) : Wr W h h' P addr v :=
  ⟨H.val, fun q _ hq => H.frame q hq, fun _ hq => H.ne_oob hq, H.int⟩

theorem congr (H : Wr W h h' P addr v) (hP : ∀ k, P' k ↔ P k) (hv : ∀ k, P k → v' k = v k) :
    Wr W h h' P' addr v' :=
  ⟨fun k hk => by rw [H.val k ((hP k).1 hk), hv k ((hP k).1 hk)],
   fun q hw hq => H.frame q hw (fun k hk => hq k ((hP k).2 hk)), H.alloc, H.int⟩

theorem mono (H : Wr W h h' P addr v) (hW : ∀ q, W q → W' q) : Wr W' h h' P addr v :=
  ⟨H.val, fun q hw hq => H.frame q (fun x => hw (hW q x)) hq, H.alloc, H.int⟩

theorem reindex {κ : Type} (H : Wr W h h' P addr v) {P' : κ → Prop} {addr' : κ → Ptr} {v' : κ → α}
    (hto : ∀ k', P' k' → ∃ k, P k ∧ addr k = addr' k' ∧ v k = v' k')
    (hfrom : ∀ k, P k → ∃ k', P' k' ∧ addr k = addr' k') : Wr W h h' P' addr' v' := by
  refine ⟨?_, ?_, H.alloc, H.int⟩
  · intro k' hk'
    obtain ⟨k, hk, ha, hv⟩ := hto k' hk'
    rw [← ha, ← hv]; exact H.val k hk
  · intro q hw hq
    refine H.frame q hw (fun k hk e => ?_)
    obtain ⟨k', hk', ha⟩ := hfrom k hk
    exact hq k' hk' (e.trans ha)

theorem comp {h2 : Heap α} {P1 P2 : ι → Prop} (H1 : Wr W h h1 P1 addr v) (H2 : Wr W h1 h2 P2 addr v)
    (hW : ∀ k, P1 k → ¬ W (addr k))
    (hinj : ∀ k k', P1 k → P2 k' → addr k = addr k' → v k = v k')
    (hP : ∀ k, P k ↔ (P1 k ∨ P2 k)) : Wr W h h2 P addr v := by
  refine ⟨?_, ?_, fun q hq => H2.alloc q (H1.alloc q hq), by rw [H2.int, H1.int]⟩
  · intro k hk
    by_cases hex : ∃ k', P2 k' ∧ addr k = addr k'
    · obtain ⟨k', hk', e⟩ := hex
      rw [e, H2.val k' hk']
      rcases (hP k).1 hk with h1 | h1
      · rw [hinj k k' h1 hk' e]
      · have := H2.val k h1
        rw [e, H2.val k' hk'] at this
        exact this
    · rcases (hP k).1 hk with h1 | h1
      · rw [H2.frame _ (hW k h1) (fun k' hk' e => hex ⟨k', hk', e⟩)]
        exact H1.val k h1
      · exact absurd ⟨k, h1, rfl⟩ hex
  · intro q hw hq
    rw [H2.frame q hw (fun k hk => hq k ((hP k).2 (Or.inr hk)))]
    exact H1.frame q hw (fun k hk => hq k ((hP k).2 (Or.inl hk)))

theorem agree (H : Wr W h h' P addr v) : AgreeD h h' (fun q => W q ∨ ∃ k, P k ∧ q = addr k) :=
  fun q hq => H.frame q (fun x => hq (Or.inl x)) (fun k hk e => hq (Or.inr ⟨k, hk, e⟩))
end Wr

/-- from every heap satisfying `ok`, `f` returns a value satisfying `r` and performs the stores -/
def Writes (W : Ptr → Prop) (ok : Heap α → Prop) (f : Prog α A) (r : A → Prop) (P : ι → Prop)
    (addr : ι → Ptr) (v : ι → α) : Prop :=
  ∀ h, ok h → wp f (fun a h' => r a ∧ Wr W h h' P addr v) h

/-- `ok` survives the stores -/
def Stable (W : Ptr → Prop) (ok : Heap α → Prop) (P : ι → Prop) (addr : ι → Ptr) (v : ι → α) : Prop :=
  ∀ h h' (P' : ι → Prop), (∀ k, P' k → P k) → ok h → Wr W h h' P' addr v → ok h'

namespace Writes
variable {W : Ptr → Prop} {ok : Heap α → Prop} {P P' : ι → Prop} {addr : ι → Ptr} {v v' : ι → α}

theorem congr {f : Prog α A} {r : A → Prop} (H : Writes W ok f r P addr v) (hP : ∀ k, P' k ↔ P k)
    (hv : ∀ k, P k → v' k = v k) : Writes W ok f r P' addr v' :=
  fun h hok => wp_mono (H h hok) (fun _ _ ⟨h1, h2⟩ => ⟨h1, h2.congr hP hv⟩)

theorem weaken {f : Prog α A} {r r' : A → Prop} {ok' : Heap α → Prop} {W' : Ptr → Prop}
    (H : Writes W ok f r P addr v) (hok : ∀ h, ok' h → ok h)
    (hr : ∀ a, r a → r' a) (hW : ∀ q, W q → W' q) : Writes W' ok' f r' P addr v :=
  fun h h1 => wp_mono (H h (hok h h1)) (fun a _ ⟨h1, h2⟩ => ⟨hr a h1, h2.mono hW⟩)

/-- a loop with a local state whose successive values are known -/
theorem forS {S : Type} {n : Nat} {f : Nat → S → Prog α S} {s : Nat → S} {d : ι → Nat}
    (hst : Stable W ok P addr v) (hW : ∀ k, P k → ¬ W (addr k))
    (hinj : ∀ k k', P k → P k' → addr k = addr k' → v k = v k')
    (H : ∀ t, t < n → Writes W ok (f t (s t)) (· = s (t+1)) (fun k => P k ∧ d k = t) addr v) :
    Writes W ok (Prog.forS n (s 0) f) (· = s n) (fun k => P k ∧ d k < n) addr v := by
  intro h hok
  refine wp_forS (fun t x h' => x = s t ∧ Wr W h h' (fun k => P k ∧ d k < t) addr v)
    ⟨rfl, Wr.init _ (fun k hk => by omega)⟩ ?_ (fun _ _ hh => hh)
  rintro t ht x h1 ⟨rfl, H1⟩
  refine wp_mono (H t ht h1 (hst h h1 _ (fun k hk => hk.1) hok H1)) ?_
  rintro a h2 ⟨rfl, H2⟩
  refine ⟨rfl, H1.comp H2 (fun k hk => hW k hk.1) (fun k k' a b => hinj k k' a.1 b.1) (fun k => ?_)⟩
  constructor
  · rintro ⟨a, b⟩
    rcases Nat.lt_succ_iff_lt_or_eq.1 b with b | b
    · exact Or.inl ⟨a, b⟩
    · exact Or.inr ⟨a, b⟩
  · rintro (⟨a, b⟩ | ⟨a, b⟩)
    · exact ⟨a, by omega⟩
    · exact ⟨a, by omega⟩

/-- a loop without local state -/
theorem forN {n : Nat} {f : Nat → Prog α Unit} {d : ι → Nat} (hst : Stable W ok P addr v)
    (hW : ∀ k, P k → ¬ W (addr k))
    (hinj : ∀ k k', P k → P k' → addr k = addr k' → v k = v k')
    (H : ∀ t, t < n → Writes W ok (f t) (fun _ => True) (fun k => P k ∧ d k = t) addr v) :
    Writes W ok (Prog.forN n f) (fun _ => True) (fun k => P k ∧ d k < n) addr v :=
  (forS (s := fun _ => ()) (f := fun i _ => f i) hst hW hinj
    (fun t ht => (H t ht).weaken (fun _ x => x) (fun _ _ => rfl) (fun _ x => x))).weaken
    (fun _ x => x) (fun _ _ => True.intro) (fun _ x => x)

/-- a store -/
theorem st {k0 : ι} {p : Ptr} {x : α} (hp : p = addr k0) (hx : x = v k0)
    (ha : ∀ h, ok h → h.D (addr k0) ≠ .oob) (hP : ∀ k, P k ↔ k = k0) :
    Writes W ok (Prog.st p x) (fun _ => True) P addr v := by
  subst hp hx
  intro h hok
  rw [wp_st]
  refine ⟨ha h hok, True.intro, Wr.of_assigned ?_⟩
  exact (AssignedD.init (P := fun _ => False) h addr v (fun _ h => h)).set k0 (fun _ h => h.elim)
    (fun k => by rw [hP k]; simp)

/-- a copied cell -/
theorem cpy {k0 : ι} {p q : Ptr} (hp : p = addr k0) (hq : ∀ h, ok h → h.D q = .val (v k0))
    (ha : ∀ h, ok h → h.D (addr k0) ≠ .oob) (hP : ∀ k, P k ↔ k = k0) :
    Writes W ok (Prog.cpy p q) (fun _ => True) P addr v := by
  intro h hok
  unfold Prog.cpy
  simp only [wp_mbind, wp_ld]
  exact ⟨v k0, hq h hok, st hp rfl ha hP h hok⟩

end Writes
end Verif
