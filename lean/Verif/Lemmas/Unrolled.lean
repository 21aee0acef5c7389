import Verif.Lemmas.G2eHrr

/-! Symbolic execution of the unrolled kernels, and the comparison with the recursion relations. -/
namespace Verif.Lemmas
open Verif Verif.Model Verif.Prog Verif.Props

/-- what the intermediates depend on; `z r` is the value `gz[r]` has before -/
inductive UV
  | cp (c r : Nat)
  | c0 (c r : Nat)
  | b00 (r : Nat)
  | b10 (r : Nat)
  | b01 (r : Nat)
  | rij (c : Nat)
  | rkl (c : Nat)
  | z (r : Nat)
  deriving DecidableEq

/-- an order of the variables, for the normal form only -/
def UV.code : UV → Nat
  | cp c r => 8*(4*r+c)
  | c0 c r => 8*(4*r+c)+1
  | b00 r => 8*(4*r)+2
  | b10 r => 8*(4*r)+3
  | b01 r => 8*(4*r)+4
  | rij c => 8*c+5
  | rkl c => 8*c+6
  | z r => 8*r+7

/-- monomials and polynomials with natural coefficients -/
abbrev UMono := List UV
abbrev UPoly := List (UMono × Nat)

def UMono.insert (v : UV) : UMono → UMono
  | [] => [v]
  | w :: l => if v.code ≤ w.code then v :: w :: l else w :: UMono.insert v l

def UMono.mul (a b : UMono) : UMono := a.foldr UMono.insert b

/-- lexicographic comparison, for the normal form only -/
def UMono.lt : UMono → UMono → Bool
  | [], [] => false
  | [], _ :: _ => true
  | _ :: _, [] => false
  | v :: l, w :: m => if v.code < w.code then true else if w.code < v.code then false else UMono.lt l m

def UPoly.ins (m : UMono) (k : Nat) : UPoly → UPoly
  | [] => [(m, k)]
  | (m', k') :: l => if m = m' then (m', k + k') :: l else if UMono.lt m m' then (m, k) :: (m', k') :: l else
      (m', k') :: UPoly.ins m k l

def UPoly.add (p q : UPoly) : UPoly := p.foldr (fun t r => UPoly.ins t.1 t.2 r) q

def UPoly.mulTerm (m : UMono) (k : Nat) (q : UPoly) : UPoly := q.foldr (fun t r => UPoly.ins (UMono.mul m t.1) (k * t.2) r) []

def UPoly.mul (p q : UPoly) : UPoly := p.foldr (fun t r => UPoly.add (UPoly.mulTerm t.1 t.2 q) r) []

def UPoly.v (x : UV) : UPoly := [([x], 1)]

def UPoly.n (k : Nat) : UPoly := if k = 0 then [] else [([], k)]

section
variable {α : Type} [Field α] (ν : UV → α)

def UMono.eval (m : UMono) : α := m.foldr (fun v x => ν v * x) 1

def UPoly.eval (p : UPoly) : α := p.foldr (fun t x => (t.2 : α) * UMono.eval ν t.1 + x) 0

theorem UMono.eval_insert (v : UV) (m : UMono) : UMono.eval ν (UMono.insert v m) = ν v * UMono.eval ν m := by
  induction m with
  | nil => rfl
  | cons w l ih =>
    unfold UMono.insert
    split
    · rfl
    · show ν w * UMono.eval ν (UMono.insert v l) = ν v * (ν w * UMono.eval ν l)
      rw [ih]; ring

theorem UMono.eval_mul (a b : UMono) : UMono.eval ν (UMono.mul a b) = UMono.eval ν a * UMono.eval ν b := by
  induction a with
  | nil => exact (one_mul _).symm
  | cons v l ih =>
    show UMono.eval ν (UMono.insert v (UMono.mul l b)) = (ν v * UMono.eval ν l) * _
    rw [UMono.eval_insert, ih]; ring

theorem UPoly.eval_ins (m : UMono) (k : Nat) (p : UPoly) :
    UPoly.eval ν (UPoly.ins m k p) = (k : α) * UMono.eval ν m + UPoly.eval ν p := by
  induction p with
  | nil => rfl
  | cons t l ih =>
    obtain ⟨m', k'⟩ := t
    unfold UPoly.ins
    split
    · rename_i e
      show ((k + k' : Nat) : α) * UMono.eval ν m' + UPoly.eval ν l = _ + ((k' : α) * UMono.eval ν m' + UPoly.eval ν l)
      rw [e]; push_cast; ring
    split
    · rfl
    · show (k' : α) * UMono.eval ν m' + UPoly.eval ν (UPoly.ins m k l) = _ + ((k' : α) * UMono.eval ν m' + UPoly.eval ν l)
      rw [ih]; ring

theorem UPoly.eval_add (p q : UPoly) : UPoly.eval ν (UPoly.add p q) = UPoly.eval ν p + UPoly.eval ν q := by
  induction p with
  | nil => exact (zero_add _).symm
  | cons t l ih =>
    show UPoly.eval ν (UPoly.ins t.1 t.2 (UPoly.add l q)) = ((t.2 : α) * UMono.eval ν t.1 + UPoly.eval ν l) + _
    rw [UPoly.eval_ins, ih]; ring

theorem UPoly.eval_mulTerm (m : UMono) (k : Nat) (q : UPoly) :
    UPoly.eval ν (UPoly.mulTerm m k q) = (k : α) * UMono.eval ν m * UPoly.eval ν q := by
  induction q with
  | nil => exact (mul_zero _).symm
  | cons t l ih =>
    show UPoly.eval ν (UPoly.ins (UMono.mul m t.1) (k * t.2) (UPoly.mulTerm m k l)) = _ * ((t.2 : α) * UMono.eval ν t.1 + UPoly.eval ν l)
    rw [UPoly.eval_ins, ih, UMono.eval_mul]; push_cast; ring

theorem UPoly.eval_mul (p q : UPoly) : UPoly.eval ν (UPoly.mul p q) = UPoly.eval ν p * UPoly.eval ν q := by
  induction p with
  | nil => exact (zero_mul _).symm
  | cons t l ih =>
    show UPoly.eval ν (UPoly.add (UPoly.mulTerm t.1 t.2 q) (UPoly.mul l q)) = ((t.2 : α) * UMono.eval ν t.1 + UPoly.eval ν l) * _
    rw [UPoly.eval_add, UPoly.eval_mulTerm, ih]; ring

theorem UPoly.eval_v (x : UV) : UPoly.eval ν (UPoly.v x) = ν x := by
  simp [UPoly.eval, UPoly.v, UMono.eval]

theorem UPoly.eval_n (k : Nat) : UPoly.eval ν (UPoly.n k) = (k : α) := by
  unfold UPoly.n
  split
  · rename_i e; subst e; simp [UPoly.eval]
  · simp [UPoly.eval, UMono.eval]
end

/-! ### Symbolic execution -/

/-- contents of `g` that are known -/
abbrev UState := List (Nat × UPoly)

def polyOf (s : UState) : UExpr → Option UPoly
  | .num n => some (UPoly.n n)
  | .cp c r => some (UPoly.v (.cp c r))
  | .c0 c r => some (UPoly.v (.c0 c r))
  | .b00 r => some (UPoly.v (.b00 r))
  | .b10 r => some (UPoly.v (.b10 r))
  | .b01 r => some (UPoly.v (.b01 r))
  | .rij c => some (UPoly.v (.rij c))
  | .rkl c => some (UPoly.v (.rkl c))
  | .g n => s.lookup n
  | .add a b => match polyOf s a, polyOf s b with
    | some p, some q => some (p.add q)
    | _, _ => none
  | .mul a b => match polyOf s a, polyOf s b with
    | some p, some q => some (p.mul q)
    | _, _ => none

/-- all addresses written are below `lim` -/
def uSymRun (lim : Nat) : UState → List (Nat × UExpr) → Option UState
  | s, [] => some s
  | s, (n, e) :: l => match polyOf s e with
    | some p => if n < lim then uSymRun lim ((n, p) :: s) l else none
    | none => none

/-- `F(n,m)` for direction `c` and root `r`, computed with recursion depth `f` -/
def symF (c r : Nat) : Nat → Nat → Nat → UPoly
  | 0, _, _ => []
  | _+1, 0, 0 => if c = 2 then UPoly.v (.z r) else UPoly.n 1
  | f+1, 0, m+1 => ((UPoly.v (.cp c r)).mul (symF c r f 0 m)).add
      (((UPoly.n m).mul (UPoly.v (.b01 r))).mul (symF c r f 0 (m-1)))
  | f+1, n+1, m => (((UPoly.v (.c0 c r)).mul (symF c r f n m)).add
      (((UPoly.n n).mul (UPoly.v (.b10 r))).mul (symF c r f (n-1) m))).add
      (((UPoly.n m).mul (UPoly.v (.b00 r))).mul (symF c r f n (m-1)))

/-- transfer: `x(a+1, n) = x(a, n+1) + v x(a, n)` -/
def raise (base : Nat → UPoly) (v : UV) : Nat → Nat → UPoly
  | 0, n => base n
  | a+1, n => (raise base v a (n+1)).add ((UPoly.v v).mul (raise base v a n))

/-- `E(i,j,k,l)` for direction `c` and root `r` -/
def symE (ib kb : Bool) (c i j k l r : Nat) : UPoly :=
  raise (fun n => raise (fun m => symF c r (n+m+1) n m) (.rkl c) (if kb then l else k) (if kb then k else l)) (.rij c)
    (if ib then j else i) (if ib then i else j)

/-- values of the variables -/
def uval {α : Type} (bc : Rys2eT α) (rij rkl z : Nat → α) : UV → α
  | .cp c r => bc.c0p c r
  | .c0 c r => bc.c00 c r
  | .b00 r => bc.b00 r
  | .b10 r => bc.b10 r
  | .b01 r => bc.b01 r
  | .rij c => rij c
  | .rkl c => rkl c
  | .z r => z r

section
variable {α : Type} [Field α] {e : EnvG} {g : Ptr} {E : Nat → Nat → Nat → Nat → Nat → Nat → α} {d : G2 α} {h0 h : Heap α}
  {bc : Rys2eT α} {z : Nat → α}

theorem symF_eval {ν : UV → α} {F : Nat → Nat → Nat → Nat → α} {rij rkl : Nat → α} (hν : ν = uval bc rij rkl z) {nr nmax mmax : Nat}
    (hF : Rec2 bc nr nmax mmax F)
    (h1 : ∀ c r, c < 2 → r < nr → F c 0 0 r = 1) (hz : ∀ r, r < nr → F 2 0 0 r = z r) {c r : Nat} (hc : c < 3) (hr : r < nr) :
    ∀ f n m, n + m < f → n ≤ nmax → m ≤ mmax → UPoly.eval ν (symF c r f n m) = F c n m r := by
  intro f
  induction f with
  | zero => intro n m h; omega
  | succ f ih =>
    intro n m hf hn hm
    match n, m with
    | 0, 0 =>
      unfold symF
      split
      · rename_i e; subst e; rw [UPoly.eval_v, hν, hz r hr]; rfl
      · rw [UPoly.eval_n, h1 c r (by omega) hr]; simp
    | 0, m+1 =>
      unfold symF
      rw [UPoly.eval_add, UPoly.eval_mul, UPoly.eval_mul, UPoly.eval_mul, UPoly.eval_v, UPoly.eval_v, UPoly.eval_n,
        ih 0 m (by omega) (by omega) (by omega), ih 0 (m-1) (by omega) (by omega) (by omega),
        hF.right c 0 m r hc hr (by omega) (by omega), hν]
      simp [uval]
    | n+1, m =>
      unfold symF
      rw [UPoly.eval_add, UPoly.eval_add, UPoly.eval_mul, UPoly.eval_mul, UPoly.eval_mul, UPoly.eval_mul, UPoly.eval_mul,
        UPoly.eval_v, UPoly.eval_v, UPoly.eval_v, UPoly.eval_n, UPoly.eval_n,
        ih n m (by omega) (by omega) (by omega), ih (n-1) m (by omega) (by omega) (by omega),
        ih n (m-1) (by omega) (by omega) (by omega),
        hF.up c n m r hc hr (by omega) (by omega), hν]
      simp [uval]

theorem raise_eval {ν : UV → α} {base : Nat → UPoly} {v : UV} {X : Nat → Nat → α} {N : Nat}
    (h0 : ∀ n, n ≤ N → UPoly.eval ν (base n) = X 0 n)
    (h1 : ∀ a n, X (a+1) n = X a (n+1) + ν v * X a n) :
    ∀ a n, a + n ≤ N → UPoly.eval ν (raise base v a n) = X a n := by
  intro a
  induction a with
  | zero => intro n hn; exact h0 n (by omega)
  | succ a ih =>
    intro n hn
    unfold raise
    rw [UPoly.eval_add, UPoly.eval_mul, UPoly.eval_v, ih (n+1) (by omega), ih n (by omega), h1]

theorem symE_eval (hE : Hrr4 d E)
    (hF : Rec2 bc e.nrys_roots (e.li_ceil + e.lj_ceil) (e.lk_ceil + e.ll_ceil) (baseF e E))
    (h1 : ∀ c r, c < 2 → r < e.nrys_roots → E c 0 0 0 0 r = 1) (hz : ∀ r, r < e.nrys_roots → E 2 0 0 0 0 r = z r)
    {c i j k l r : Nat} (hc : c < 3) (hr : r < e.nrys_roots) (hij : i + j ≤ e.li_ceil + e.lj_ceil)
    (hkl : k + l ≤ e.lk_ceil + e.ll_ceil) :
    UPoly.eval (uval bc (rirj2 e d) (rkrl2 e d) z) (symE (ibase e) (kbase e) c i j k l r) = E c i j k l r := by
  have hb : ∀ n m, n ≤ e.li_ceil + e.lj_ceil → m ≤ e.lk_ceil + e.ll_ceil →
      UPoly.eval (uval bc (rirj2 e d) (rkrl2 e d) z) (symF c r (n+m+1) n m) = baseF e E c n m r := by
    intro n m hn hm
    refine symF_eval rfl hF ?_ ?_ hc hr _ n m (by omega) hn hm
    · intro c r hc hr; unfold baseF; simp [h1 c r hc hr]
    · intro r hr; unfold baseF; simp [hz r hr]
  unfold symE
  have inner : ∀ n, n ≤ e.li_ceil + e.lj_ceil →
      UPoly.eval (uval bc (rirj2 e d) (rkrl2 e d) z) (raise (fun m => symF c r (n+m+1) n m) (.rkl c)
        (if decide (kbase e) then l else k) (if decide (kbase e) then k else l)) =
      E c (if ibase e then n else 0) (if ibase e then 0 else n) k l r := by
    intro n hn
    by_cases hk : kbase e
    · simp only [hk, decide_true, if_true]
      refine raise_eval (N := e.lk_ceil + e.ll_ceil) (X := fun a m => E c (if ibase e then n else 0) (if ibase e then 0 else n) m a r)
        ?_ ?_ l k (by omega)
      · intro m hm
        rw [hb n m hn hm]; unfold baseF; simp [hk]
      · intro a m
        show _ = _ + rkrl2 e d c * _
        rw [hE.kl _ _ _ _ _ _ hc]; unfold rkrl2; rw [if_pos hk]
    · simp only [hk, decide_false, if_false, Bool.false_eq_true]
      refine raise_eval (N := e.lk_ceil + e.ll_ceil) (X := fun a m => E c (if ibase e then n else 0) (if ibase e then 0 else n) a m r)
        ?_ ?_ k l (by omega)
      · intro m hm
        rw [hb n m hn hm]; unfold baseF; simp [hk]
      · intro a m
        show _ = _ + rkrl2 e d c * _
        rw [hE.kl _ _ _ _ _ _ hc]; unfold rkrl2; rw [if_neg hk]; ring
  by_cases hi : ibase e
  · simp only [hi, decide_true, if_true]
    refine raise_eval (N := e.li_ceil + e.lj_ceil) (X := fun a n => E c n a k l r) ?_ ?_ j i (by omega)
    · intro n hn
      have := inner n hn
      simpa [hi] using this
    · intro a n
      show _ = _ + rirj2 e d c * _
      rw [hE.ij _ _ _ _ _ _ hc]; unfold rirj2; rw [if_pos hi]
  · simp only [hi, decide_false, if_false, Bool.false_eq_true]
    refine raise_eval (N := e.li_ceil + e.lj_ceil) (X := fun a n => E c a n k l r) ?_ ?_ i j (by omega)
    · intro n hn
      have := inner n hn
      simpa [hi] using this
    · intro a n
      show _ = _ + rirj2 e d c * _
      rw [hE.ij _ _ _ _ _ _ hc]; unfold rirj2; rw [if_neg hi]; ring

/-! ### Soundness of the symbolic execution -/

/-- the known cells hold the values of their polynomials -/
structure UKnown (ν : UV → α) (lim : Nat) (g : Ptr) (s : UState) (h0 h : Heap α) : Prop where
  val : ∀ n p, s.lookup n = some p → h.D (g + n) = .val (UPoly.eval ν p)
  alloc : ∀ n, n < lim → h.D (g + n) ≠ .oob
  frame : AgreeD h0 h (fun q => ∃ n, n < lim ∧ q = g + n)
  int : h.I = h0.I

theorem polyOf_wp {ν : UV → α} {rij rkl : Nat → α} (hν : ν = uval bc rij rkl z) {lim : Nat} {s : UState}
    (H : UKnown ν lim g s h0 h) : ∀ (x : UExpr) (p : UPoly), polyOf s x = some p →
      ∀ Q : α → Heap α → Prop, Q (UPoly.eval ν p) h → wp (x.eval bc rij rkl g) Q h := by
  intro x
  induction x with
  | num n => intro p hp Q hQ; cases hp; unfold UExpr.eval; rw [wp_pure]; rwa [UPoly.eval_n] at hQ
  | cp c r => intro p hp Q hQ; cases hp; unfold UExpr.eval; rw [wp_pure]; rwa [UPoly.eval_v, hν] at hQ
  | c0 c r => intro p hp Q hQ; cases hp; unfold UExpr.eval; rw [wp_pure]; rwa [UPoly.eval_v, hν] at hQ
  | b00 r => intro p hp Q hQ; cases hp; unfold UExpr.eval; rw [wp_pure]; rwa [UPoly.eval_v, hν] at hQ
  | b10 r => intro p hp Q hQ; cases hp; unfold UExpr.eval; rw [wp_pure]; rwa [UPoly.eval_v, hν] at hQ
  | b01 r => intro p hp Q hQ; cases hp; unfold UExpr.eval; rw [wp_pure]; rwa [UPoly.eval_v, hν] at hQ
  | rij c => intro p hp Q hQ; cases hp; unfold UExpr.eval; rw [wp_pure]; rwa [UPoly.eval_v, hν] at hQ
  | rkl c => intro p hp Q hQ; cases hp; unfold UExpr.eval; rw [wp_pure]; rwa [UPoly.eval_v, hν] at hQ
  | g n =>
    intro p hp Q hQ
    unfold UExpr.eval
    rw [wp_ld]
    exact ⟨_, H.val n p hp, hQ⟩
  | add a b iha ihb =>
    intro p hp Q hQ
    unfold polyOf at hp
    cases ha : polyOf s a with
    | none => rw [ha] at hp; cases hp
    | some pa =>
      cases hb : polyOf s b with
      | none => rw [ha, hb] at hp; cases hp
      | some pb =>
        rw [ha, hb] at hp
        cases hp
        unfold UExpr.eval
        rw [wp_mbind]
        refine iha pa ha _ ?_
        rw [wp_mbind]
        refine ihb pb hb _ ?_
        rw [wp_pure]
        rwa [UPoly.eval_add] at hQ
  | mul a b iha ihb =>
    intro p hp Q hQ
    unfold polyOf at hp
    cases ha : polyOf s a with
    | none => rw [ha] at hp; cases hp
    | some pa =>
      cases hb : polyOf s b with
      | none => rw [ha, hb] at hp; cases hp
      | some pb =>
        rw [ha, hb] at hp
        cases hp
        unfold UExpr.eval
        rw [wp_mbind]
        refine iha pa ha _ ?_
        rw [wp_mbind]
        refine ihb pb hb _ ?_
        rw [wp_pure]
        rwa [UPoly.eval_mul] at hQ

theorem uSymRun_wp {ν : UV → α} {rij rkl : Nat → α} (hν : ν = uval bc rij rkl z) {lim : Nat} :
    ∀ (l : List (Nat × UExpr)) (s s' : UState) (h : Heap α), UKnown ν lim g s h0 h → uSymRun lim s l = some s' →
      wp (runAssigns bc rij rkl g l) (fun _ h' => UKnown ν lim g s' h0 h') h := by
  intro l
  induction l with
  | nil =>
    intro s s' h H hs
    cases hs
    unfold runAssigns
    rw [wp_pure]; exact H
  | cons t l ih =>
    intro s s' h H hs
    obtain ⟨n, x⟩ := t
    unfold uSymRun at hs
    cases hp : polyOf s x with
    | none => rw [hp] at hs; cases hs
    | some p =>
      rw [hp] at hs
      dsimp only at hs
      split at hs
      case isFalse => cases hs
      rename_i hn
      unfold runAssigns
      rw [wp_mbind]
      refine polyOf_wp hν H x p hp _ ?_
      rw [wp_mbind, wp_st]
      refine ⟨H.alloc n hn, ?_⟩
      refine ih _ s' _ ?_ hs
      have hne : ∀ n', n' ≠ n → g + n' ≠ g + n := fun n' h e => h (by
        have := congrArg Ptr.off e
        simp only [Ptr.add_off] at this
        omega)
      refine ⟨?_, ?_, ?_, H.int⟩
      · intro n' p' hp'
        rw [List.lookup_cons] at hp'
        by_cases e : n' = n
        · subst e
          simp only [beq_self_eq_true] at hp'
          cases hp'
          exact Heap.setD_D_self _ _ _
        · rw [Heap.setD_D_ne _ _ (hne n' e)]
          have : (n' == n) = false := by simpa using e
          rw [this] at hp'
          exact H.val n' p' hp'
      · intro n' hn'
        by_cases e : n' = n
        · subst e; rw [Heap.setD_D_self]; simp
        · rw [Heap.setD_D_ne _ _ (hne n' e)]
          exact H.alloc n' hn'
      · intro q hq
        rw [Heap.setD_D_ne _ _ (fun e => hq ⟨n, hn, e⟩)]
        exact H.frame q hq
end

/-! ### The check -/

/-- address of `(i,j,k,l,r)` in direction `c` for given `li_ceil` etc. and number of roots -/
def uAddr (li lj lk ll nr c i j k l r : Nat) : Nat :=
  let A := dimA li lj
  let K := dimA lk ll
  let L := dimB lk ll
  c*(nr*A*K*L*dimB li lj) + (nr*i + nr*A*K*L*j + nr*A*k + nr*A*K*l + r)

def uInit (li lj lk ll nr : Nat) : UState := (List.range nr).map fun r => (uAddr li lj lk ll nr 2 0 0 0 0 r, UPoly.v (.z r))

/-- after the kernel every cell that is read later holds what the recursion relations demand -/
def uCheck (li lj lk ll nr : Nat) (prog : List (Nat × UExpr)) : Bool :=
  match uSymRun (3*(nr*dimA li lj*dimA lk ll*dimB lk ll*dimB li lj)) (uInit li lj lk ll nr) prog with
  | none => false
  | some s => (List.range 3).all fun c => (List.range (li+1)).all fun i => (List.range (lj+1)).all fun j =>
      (List.range (lk+1)).all fun k => (List.range (ll+1)).all fun l => (List.range nr).all fun r =>
        s.lookup (uAddr li lj lk ll nr c i j k l r) == some (symE (decide (li > lj)) (decide (lk > ll)) c i j k l r)

/-- every angular momentum for which the unrolled kernels are used -/
def uCheckAll (sr : Bool) (cases : List (Nat × List (Nat × UExpr))) : Bool :=
  (List.range 4).all fun li => (List.range 4).all fun lj => (List.range 4).all fun lk => (List.range 4).all fun ll =>
    if li + lj + lk + ll ≤ 3 then
      match cases.lookup ((li <<< 6) ||| (lj <<< 4) ||| (lk <<< 2) ||| ll) with
      | none => false
      | some prog => uCheck li lj lk ll ((if sr then 2 else 1) * ((li + lj + lk + ll)/2 + 1)) prog
    else true

set_option maxRecDepth 20000 in
theorem unrolled_checked : uCheckAll false Unrolled.unrolled = true := by decide +kernel

set_option maxRecDepth 20000 in
theorem srUnrolled_checked : uCheckAll true Unrolled.srUnrolled = true := by decide +kernel

theorem uCheckAll_spec {sr : Bool} {cases : List (Nat × List (Nat × UExpr))} (h : uCheckAll sr cases = true)
    {li lj lk ll : Nat} (hl : li + lj + lk + ll ≤ 3) :
    ∃ prog, cases.lookup ((li <<< 6) ||| (lj <<< 4) ||| (lk <<< 2) ||| ll) = some prog ∧
      uCheck li lj lk ll ((if sr then 2 else 1) * ((li + lj + lk + ll)/2 + 1)) prog = true := by
  unfold uCheckAll at h
  simp only [List.all_eq_true, List.mem_range] at h
  have := h li (by omega) lj (by omega) lk (by omega) ll (by omega)
  rw [if_pos hl] at this
  split at this
  · cases this
  · exact ⟨_, by assumption, this⟩

theorem uCheck_spec {li lj lk ll nr : Nat} {prog : List (Nat × UExpr)} (h : uCheck li lj lk ll nr prog = true) :
    ∃ s, uSymRun (3*(nr*dimA li lj*dimA lk ll*dimB lk ll*dimB li lj)) (uInit li lj lk ll nr) prog = some s ∧
      ∀ c i j k l r, c < 3 → i ≤ li → j ≤ lj → k ≤ lk → l ≤ ll → r < nr →
        s.lookup (uAddr li lj lk ll nr c i j k l r) = some (symE (decide (li > lj)) (decide (lk > ll)) c i j k l r) := by
  unfold uCheck at h
  split at h
  · cases h
  · rename_i s hs
    refine ⟨s, hs, ?_⟩
    simp only [List.all_eq_true, List.mem_range, beq_iff_eq] at h
    intro c i j k l r h1 h2 h3 h4 h5 h6
    exact h c h1 i (by omega) j (by omega) k (by omega) l (by omega) r h6

section
variable {α : Type} [Field α] {e : EnvG} {he : Shape4 e} {g : Ptr} {E : Nat → Nat → Nat → Nat → Nat → Nat → α} {d : G2 α}
  {h0 h : Heap α} {bc : Rys2eT α} {z : Nat → α}

theorem lookup_uInit {f : Nat → Nat} {v : Nat → UPoly} {n : Nat} {p : UPoly} :
    ∀ l : List Nat, (l.map fun r => (f r, v r)).lookup n = some p → ∃ r ∈ l, n = f r ∧ p = v r := by
  intro l
  induction l with
  | nil => intro h; cases h
  | cons a l ih =>
    intro h
    rw [List.map_cons, List.lookup_cons] at h
    by_cases e : n = f a
    · subst e
      simp only [beq_self_eq_true] at h
      cases h
      exact ⟨a, by simp, rfl, rfl⟩
    · have : (n == f a) = false := by simpa using e
      rw [this] at h
      obtain ⟨r, hr, h1, h2⟩ := ih h
      exact ⟨r, by simp [hr], h1, h2⟩

/-- the unrolled kernels fill the whole array of intermediates -/
theorem g0Unrolled_wp {cases : List (Nat × List (Nat × UExpr))} {sr : Bool} (hc : uCheckAll sr cases = true)
    (hl : e.li_ceil + e.lj_ceil + e.lk_ceil + e.ll_ceil ≤ 3)
    (hn : e.nrys_roots = (if sr then 2 else 1) * ((e.li_ceil + e.lj_ceil + e.lk_ceil + e.ll_ceil)/2 + 1))
    (hE : Hrr4 d E)
    (hF : Rec2 bc e.nrys_roots (e.li_ceil + e.lj_ceil) (e.lk_ceil + e.ll_ceil) (baseF e E))
    (h1 : ∀ c r, c < 2 → r < e.nrys_roots → E c 0 0 0 0 r = 1) (hz : ∀ r, r < e.nrys_roots → E 2 0 0 0 0 r = z r)
    (H : Seed e g z h0 h) :
    wp (g0Unrolled cases e d bc g) (fun _ h' => (cells4 e he g E).T h0 (full4 e) h') h := by
  obtain ⟨prog, hp, hk⟩ := uCheckAll_spec hc hl
  rw [← hn] at hk
  obtain ⟨s, hs, hv⟩ := uCheck_spec hk
  have hgs := he.gs
  rw [← hgs] at hs
  have haddr : ∀ c i j k l r, g + uAddr e.li_ceil e.lj_ceil e.lk_ceil e.ll_ceil e.nrys_roots c i j k l r =
      gAx g e c (slab4 e i j k l r) := by
    intro c i j k l r
    unfold uAddr gAx slab4
    dsimp only
    rw [← he.gs, ← he.sj, ← he.sl, ← he.sk]
    nth_rewrite 1 [← he.si]
    rfl
  have H0 : UKnown (uval bc (rirj2 e d) (rkrl2 e d) z) (3*e.g_size) g (uInit e.li_ceil e.lj_ceil e.lk_ceil e.ll_ceil e.nrys_roots) h0 h := by
    refine ⟨?_, H.alloc, H.frame, H.int⟩
    intro n p hp
    obtain ⟨r, hr, rfl, rfl⟩ := lookup_uInit _ hp
    rw [haddr, UPoly.eval_v]
    have := H.val r (by simpa using hr)
    rw [show slab4 e 0 0 0 0 r = r by unfold slab4; simp]
    exact this
  unfold g0Unrolled
  dsimp only
  rw [hp]
  refine wp_mono (uSymRun_wp rfl prog _ s h H0 hs) ?_
  intro _ h' H'
  refine ⟨?_, ?_, H'.frame, H'.int⟩
  · rintro ⟨c, i, j, k, l, r⟩ ⟨hc3, ⟨f1, f2, f3, f4⟩, hb⟩
    have hr := hb.2.2.2.2
    dsimp only at *
    have := H'.val _ _ (hv c i j k l r hc3 f1 f2 f3 f4 hr)
    rw [haddr] at this
    have e1 := symE_eval hE hF h1 hz hc3 hr (i := i) (j := j) (k := k) (l := l) (by omega) (by omega)
    show h'.D (gAx g e c (slab4 e i j k l r)) = .val (E c i j k l r)
    rw [this, ← e1]
    rfl
  · rintro q ⟨n, hn', rfl⟩
    exact H'.alloc n hn'

/-- CINTg0_2e_2d4d for every choice of the angular momenta -/
theorem g0_2d4d_wp (hord : e.rys_order = (e.li_ceil + e.lj_ceil + e.lk_ceil + e.ll_ceil)/2 + 1)
    (hn : e.nrys_roots = e.rys_order ∨ (e.nrys_roots = 2*e.rys_order))
    (hE : Hrr4 d E)
    (hF : Rec2 bc e.nrys_roots (e.li_ceil + e.lj_ceil) (e.lk_ceil + e.ll_ceil) (baseF e E))
    (h1 : ∀ c r, c < 2 → r < e.nrys_roots → E c 0 0 0 0 r = 1) (hz : ∀ r, r < e.nrys_roots → E 2 0 0 0 0 r = z r)
    (H : Seed e g z h0 h) :
    wp (g0_2d4d e d bc g) (fun _ h' => (cells4 e he g E).T h0 (full4 e) h') h := by
  by_cases ho : 2 < e.rys_order
  · unfold g0_2d4d
    rw [if_neg (by omega)]
    exact g0General_wp hE hF h1 hz H
  · unfold g0_2d4d
    rw [if_pos (by omega)]
    split
    · rename_i hne
      have hl : e.li_ceil + e.lj_ceil + e.lk_ceil + e.ll_ceil ≤ 3 := by omega
      exact g0Unrolled_wp srUnrolled_checked hl (by rw [if_pos rfl, ← hord]; omega) hE hF h1 hz H
    · rename_i hne
      have hl : e.li_ceil + e.lj_ceil + e.lk_ceil + e.ll_ceil ≤ 3 := by omega
      exact g0Unrolled_wp unrolled_checked hl (by rw [if_neg (by simp), ← hord]; omega) hE hF h1 hz H
end

end Verif.Lemmas
