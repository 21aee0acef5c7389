/-
Memory model and imperative core language.

A C function that works on arrays is modelled by a `Prog`: a tree of memory
accesses. Double-precision arrays and `FINT` arrays live in two typed heaps.
Every cell is out of bounds, uninitialised, or holds a value.  Accessing an
out-of-bounds cell and reading an uninitialised cell is undefined behaviour and
makes the run fail (`none`).
-/

namespace Verif

/-- A C pointer: a buffer number and an element offset in it. -/
structure Ptr where
  buf : Nat
  off : Nat
deriving DecidableEq, Repr

/-- Pointer arithmetic `p + n`. -/
instance : HAdd Ptr Nat Ptr := ⟨fun p n => ⟨p.buf, p.off + n⟩⟩

theorem Ptr.add_def (p : Ptr) (n : Nat) : p + n = ⟨p.buf, p.off + n⟩ := rfl

@[simp] theorem Ptr.add_buf (p : Ptr) (n : Nat) : (p + n).buf = p.buf := rfl
@[simp] theorem Ptr.add_off (p : Ptr) (n : Nat) : (p + n).off = p.off + n := rfl

theorem Ptr.add_assoc (p : Ptr) (m n : Nat) : p + m + n = p + (m + n) := by
  simp [Ptr.add_def, Nat.add_assoc]

@[simp] theorem Ptr.add_zero (p : Ptr) : p + 0 = p := rfl

@[simp] theorem Ptr.add_right_inj (p : Ptr) (m n : Nat) : p + m = p + n ↔ m = n := by
  simp [Ptr.add_def]

theorem Ptr.ext_iff' {p q : Ptr} : p = q ↔ p.buf = q.buf ∧ p.off = q.off := by
  cases p; cases q; simp

/-- State of one memory cell. -/
inductive Cell (V : Type) where
  | oob            -- not part of any allocated buffer
  | undef          -- allocated, contents indeterminate
  | val (v : V)    -- allocated and initialised
deriving Repr

/-- Heap: double cells and integer cells. -/
structure Heap (α : Type) where
  D : Ptr → Cell α
  I : Ptr → Cell Int

namespace Heap
variable {α : Type}

def setD (h : Heap α) (p : Ptr) (v : α) : Heap α :=
  { h with D := fun q => if q = p then .val v else h.D q }

def setI (h : Heap α) (p : Ptr) (v : Int) : Heap α :=
  { h with I := fun q => if q = p then .val v else h.I q }

@[simp] theorem setD_D_self (h : Heap α) (p : Ptr) (v : α) : (h.setD p v).D p = .val v := by
  simp [setD]
theorem setD_D (h : Heap α) (p q : Ptr) (v : α) :
    (h.setD p v).D q = if q = p then .val v else h.D q := rfl
theorem setD_D_ne (h : Heap α) {p q : Ptr} (v : α) (hq : q ≠ p) : (h.setD p v).D q = h.D q := by
  simp [setD, hq]
@[simp] theorem setD_I (h : Heap α) (p : Ptr) (v : α) : (h.setD p v).I = h.I := rfl
@[simp] theorem setI_I_self (h : Heap α) (p : Ptr) (v : Int) : (h.setI p v).I p = .val v := by
  simp [setI]
theorem setI_I (h : Heap α) (p q : Ptr) (v : Int) :
    (h.setI p v).I q = if q = p then .val v else h.I q := rfl
theorem setI_I_ne (h : Heap α) {p q : Ptr} (v : Int) (hq : q ≠ p) : (h.setI p v).I q = h.I q := by
  simp [setI, hq]
@[simp] theorem setI_D (h : Heap α) (p : Ptr) (v : Int) : (h.setI p v).D = h.D := rfl

theorem ext' {h h' : Heap α} (hD : ∀ q, h.D q = h'.D q) (hI : ∀ q, h.I q = h'.I q) : h = h' := by
  cases h; cases h'
  simp only [Heap.mk.injEq]
  exact ⟨funext hD, funext hI⟩

end Heap

/-- Programs over the heap (free monad of memory accesses). -/
inductive Prog (α : Type) (A : Type) where
  | ret (a : A)
  | fail
  | rdD (p : Ptr) (k : α → Prog α A)
  | wrD (p : Ptr) (v : α) (k : Prog α A)
  | rdI (p : Ptr) (k : Int → Prog α A)
  | wrI (p : Ptr) (v : Int) (k : Prog α A)

namespace Prog
variable {α A B C S : Type}

def bind : Prog α A → (A → Prog α B) → Prog α B
  | ret a, f => f a
  | fail, _ => fail
  | rdD p k, f => rdD p (fun v => bind (k v) f)
  | wrD p v k, f => wrD p v (bind k f)
  | rdI p k, f => rdI p (fun v => bind (k v) f)
  | wrI p v k, f => wrI p v (bind k f)

instance : Monad (Prog α) where
  pure := ret
  bind := bind

/-- Big-step semantics; `none` is undefined behaviour. -/
def run : Prog α A → Heap α → Option (A × Heap α)
  | ret a, h => some (a, h)
  | fail, _ => none
  | rdD p k, h => match h.D p with
    | .val v => run (k v) h
    | _ => none
  | wrD p v k, h => match h.D p with
    | .oob => none
    | _ => run k (h.setD p v)
  | rdI p k, h => match h.I p with
    | .val v => run (k v) h
    | _ => none
  | wrI p v k, h => match h.I p with
    | .oob => none
    | _ => run k (h.setI p v)

/-- `x = *p` -/
def ld (p : Ptr) : Prog α α := rdD p ret
/-- `*p = v` -/
def st (p : Ptr) (v : α) : Prog α Unit := wrD p v (ret ())
/-- integer load -/
def ldI (p : Ptr) : Prog α Int := rdI p ret
/-- integer store -/
def stI (p : Ptr) (v : Int) : Prog α Unit := wrI p v (ret ())

/-- `for (i = 0; i < n; i++) s = f i s` -/
def forS : Nat → S → (Nat → S → Prog α S) → Prog α S
  | 0, s, _ => ret s
  | n+1, s, f => bind (forS n s f) (fun s' => f n s')

/-- `for (i = 0; i < n; i++) f i` -/
def forN (n : Nat) (f : Nat → Prog α Unit) : Prog α Unit :=
  forS n () (fun i _ => f i)

/-- Weakest precondition: the run succeeds and ends in `Q`. -/
def wp : Prog α A → (A → Heap α → Prop) → Heap α → Prop
  | ret a, Q, h => Q a h
  | fail, _, _ => False
  | rdD p k, Q, h => ∃ v, h.D p = .val v ∧ wp (k v) Q h
  | wrD p v k, Q, h => h.D p ≠ .oob ∧ wp k Q (h.setD p v)
  | rdI p k, Q, h => ∃ v, h.I p = .val v ∧ wp (k v) Q h
  | wrI p v k, Q, h => h.I p ≠ .oob ∧ wp k Q (h.setI p v)

theorem wp_iff_run (p : Prog α A) (Q : A → Heap α → Prop) (h : Heap α) :
    wp p Q h ↔ ∃ a h', run p h = some (a, h') ∧ Q a h' := by
  induction p generalizing h with
  | ret a =>
    simp only [wp, run, Option.some.injEq, Prod.mk.injEq]
    exact ⟨fun hq => ⟨a, h, ⟨rfl, rfl⟩, hq⟩, fun ⟨_, _, ⟨h1, h2⟩, hq⟩ => h1 ▸ h2 ▸ hq⟩
  | fail => simp [wp, run]
  | rdD p k ih =>
    simp only [wp, run]
    cases hp : h.D p <;> simp [ih]
  | wrD p v k ih =>
    simp only [wp, run]
    cases hp : h.D p <;> simp [ih]
  | rdI p k ih =>
    simp only [wp, run]
    cases hp : h.I p <;> simp [ih]
  | wrI p v k ih =>
    simp only [wp, run]
    cases hp : h.I p <;> simp [ih]

theorem wp_bind (p : Prog α A) (f : A → Prog α B) (Q : B → Heap α → Prop) (h : Heap α) :
    wp (bind p f) Q h ↔ wp p (fun a h' => wp (f a) Q h') h := by
  induction p generalizing h with
  | ret a => simp [wp, bind]
  | fail => simp [wp, bind]
  | rdD p k ih => simp [wp, bind, ih]
  | wrD p v k ih => simp [wp, bind, ih]
  | rdI p k ih => simp [wp, bind, ih]
  | wrI p v k ih => simp [wp, bind, ih]

theorem wp_mono {p : Prog α A} {Q Q' : A → Heap α → Prop} {h : Heap α}
    (hw : wp p Q h) (hq : ∀ a h', Q a h' → Q' a h') : wp p Q' h := by
  rw [wp_iff_run] at hw ⊢
  obtain ⟨a, h', hr, hQ⟩ := hw
  exact ⟨a, h', hr, hq _ _ hQ⟩

theorem monad_bind_eq (p : Prog α A) (f : A → Prog α B) : (p >>= f) = bind p f := rfl
theorem monad_pure_eq (a : A) : (pure a : Prog α A) = ret a := rfl

@[simp] theorem wp_pure (a : A) (Q : A → Heap α → Prop) (h : Heap α) :
    wp (pure a : Prog α A) Q h ↔ Q a h := Iff.rfl
@[simp] theorem wp_ret (a : A) (Q : A → Heap α → Prop) (h : Heap α) :
    wp (ret a : Prog α A) Q h ↔ Q a h := Iff.rfl
@[simp] theorem wp_mbind (p : Prog α A) (f : A → Prog α B) (Q : B → Heap α → Prop) (h : Heap α) :
    wp (p >>= f) Q h ↔ wp p (fun a h' => wp (f a) Q h') h := wp_bind p f Q h
@[simp] theorem wp_ld (p : Ptr) (Q : α → Heap α → Prop) (h : Heap α) :
    wp (ld p) Q h ↔ ∃ v, h.D p = .val v ∧ Q v h := Iff.rfl
@[simp] theorem wp_st (p : Ptr) (v : α) (Q : Unit → Heap α → Prop) (h : Heap α) :
    wp (st p v) Q h ↔ h.D p ≠ .oob ∧ Q () (h.setD p v) := Iff.rfl
@[simp] theorem wp_ldI (p : Ptr) (Q : Int → Heap α → Prop) (h : Heap α) :
    wp (ldI p : Prog α Int) Q h ↔ ∃ v, h.I p = .val v ∧ Q v h := Iff.rfl
@[simp] theorem wp_stI (p : Ptr) (v : Int) (Q : Unit → Heap α → Prop) (h : Heap α) :
    wp (stI p v : Prog α Unit) Q h ↔ h.I p ≠ .oob ∧ Q () (h.setI p v) := Iff.rfl
@[simp] theorem wp_fail (Q : A → Heap α → Prop) (h : Heap α) :
    wp (fail : Prog α A) Q h ↔ False := Iff.rfl

/-- Invariant rule for loops with a local state. -/
theorem wp_forS {n : Nat} {s : S} {f : Nat → S → Prog α S} {h : Heap α}
    (J : Nat → S → Heap α → Prop) (h0 : J 0 s h)
    (hstep : ∀ i, i < n → ∀ s h, J i s h → wp (f i s) (fun s' h' => J (i+1) s' h') h)
    {Q : S → Heap α → Prop} (hQ : ∀ s' h', J n s' h' → Q s' h') :
    wp (forS n s f) Q h := by
  refine wp_mono (Q := fun s' h' => J n s' h') ?_ hQ
  clear hQ
  induction n with
  | zero => exact h0
  | succ n ih =>
    simp only [forS]
    rw [wp_bind]
    refine wp_mono (ih (fun i hi => hstep i (by omega))) ?_
    intro a h' hJ
    exact hstep n (by omega) a h' hJ

/-- Invariant rule for loops without local state. -/
theorem wp_forN {n : Nat} {f : Nat → Prog α Unit} {h : Heap α}
    (J : Nat → Heap α → Prop) (h0 : J 0 h)
    (hstep : ∀ i, i < n → ∀ h, J i h → wp (f i) (fun _ h' => J (i+1) h') h)
    {Q : Unit → Heap α → Prop} (hQ : ∀ h', J n h' → Q () h') :
    wp (forN n f) Q h :=
  wp_forS (fun i _ h => J i h) h0 (fun i hi _ h hJ => hstep i hi h hJ) (fun _ h' hJ => hQ h' hJ)

/-- A run that succeeds is deterministic; used to transfer `wp` facts. -/
theorem run_bind (p : Prog α A) (f : A → Prog α B) (h : Heap α) :
    run (p >>= f) h = (run p h).bind (fun r => run (f r.1) r.2) := by
  show run (bind p f) h = _
  induction p generalizing h with
  | ret a => rfl
  | fail => rfl
  | rdD p k ih => simp only [bind, run]; split <;> simp_all
  | rdI p k ih => simp only [bind, run]; split <;> simp_all
  | wrD p v k ih => simp only [bind, run]; split <;> simp_all
  | wrI p v k ih => simp only [bind, run]; split <;> simp_all

/-- a loop whose first iteration fails fails -/
theorem run_forS_none {n : Nat} {s : S} {f : Nat → S → Prog α S} {h : Heap α} (hn : 0 < n)
    (hf : run (f 0 s) h = none) : run (forS n s f) h = none := by
  induction n with
  | zero => omega
  | succ n ih =>
    show run (forS n s f >>= fun s' => f n s') h = none
    rw [run_bind]
    rcases Nat.eq_zero_or_pos n with h0 | h0
    · subst h0; exact hf
    · rw [ih h0]; rfl

theorem run_of_wp {p : Prog α A} {Q : A → Heap α → Prop} {h : Heap α} (hw : wp p Q h) :
    ∃ a h', run p h = some (a, h') ∧ Q a h' := (wp_iff_run p Q h).1 hw

end Prog

end Verif
