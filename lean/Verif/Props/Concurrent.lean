import Verif.Lemmas.TouchKernel
import Verif.Props.EriExact
import Verif.Props.Nuc
import Mathlib.Data.Fintype.Basic
import Mathlib.Data.Finset.Card

/-!
C33: calls of several threads.  Threads are interleaved access by access (`Reach`).  What thread `t` may access when it runs is a
part `v t` of the memory (its output block, its cache, its local variables, the tables); a cell that one thread may store to is
not accessible to the others.
-/
namespace Verif.Props
open Verif Prog Model Spec Lemmas

section
variable {α A T : Type} [DecidableEq T]

/-- **C33**, any programs.  Every thread, run alone on its part `v t` of the memory, completes with result `a t` and memory
`v1 t`; it stores only in the buffers `W t`, and what it can store to is not accessible to the others.  Then in every state
that any interleaving reaches:
* no thread is stuck (an access out of bounds or to uninitialised memory): it is finished or can make its next access;
* a finished thread has returned what it returns alone and its part of the memory is what it is after a run alone;
* no thread is about to store to a cell another thread is about to access;
* memory that no thread may store to is unchanged. -/
theorem C33_interleaving {P : Pool T α A} {h : Heap α} {W : T → Nat → Prop} {v v1 : T → Heap α} {a : T → A}
    (ht : ∀ t, Touch (W t) (fun _ => True) (fun _ => True) (P t)) (hv : ∀ t, View (v t) h)
    (hd : ∀ t u, t ≠ u → Apart (W t) (v t) (v u))
    (hr : ∀ t, run (P t) (v t) = some (a t, v1 t)) {y : Pool T α A × Heap α} (hy : Reach (P, h) y) :
    (∀ t, (∃ x, y.1 t = .ret x) ∨ ∃ p' h', Step (y.1 t) y.2 p' h') ∧
    (∀ t x, y.1 t = .ret x → x = a t ∧ View (v1 t) y.2) ∧
    (∀ t u, t ≠ u → ∀ q d s, access (y.1 t) = some (q, d, true) → access (y.1 u) ≠ some (q, d, s)) ∧
    (∀ q : Ptr, (∀ t, ¬ W t q.buf) → y.2.D q = h.D q ∧ y.2.I q = h.I q) := by
  obtain ⟨i1, i2, i3⟩ := reach_inv ht hv hd hr hy
  refine ⟨fun t => ?_, fun t x e => ?_, fun t u htu q d s e1 e2 => ?_, fun q hq => ⟨i2 q fun t c => hq t c.1, i3 q fun t c => hq t c.1⟩⟩
  · obtain ⟨w, _, w2, w3⟩ := (i1 t).view
    obtain ⟨h1, e1, _⟩ := run_view w2 w3
    rcases progress e1 with c | c
    · exact Or.inl ⟨_, c.1⟩
    · exact Or.inr c
  · obtain ⟨w, _, w2, w3⟩ := (i1 t).view
    rw [e] at w3
    simp only [run, Option.some.injEq, Prod.mk.injEq] at w3
    exact ⟨w3.1, w3.2 ▸ w2⟩
  · obtain ⟨w, w1, w2, w3⟩ := (i1 t).view
    obtain ⟨x, x1, x2, x3⟩ := (i1 u).view
    have tt := (i1 t).touch
    -- the cell stored to is accessible to `t`
    have k1 : W t q.buf ∧ (if d then (v t).D q ≠ .oob else (v t).I q ≠ .oob) := by
      revert e1 w3 tt
      cases y.1 t with
      | ret _ => intro e1; cases e1
      | fail => intro e1; cases e1
      | rdD _ _ => intro e1; cases e1
      | rdI _ _ => intro e1; cases e1
      | wrD p z k =>
        intro e1 w3 tt
        cases e1
        refine ⟨tt.1, ?_⟩
        simp only [run] at w3
        split at w3
        · cases w3
        · rename_i hne
          exact fun c => hne ((w1.1 _).1 c)
      | wrI p z k =>
        intro e1 w3 tt
        cases e1
        refine ⟨tt.1, ?_⟩
        simp only [run] at w3
        split at w3
        · cases w3
        · rename_i hne
          exact fun c => hne ((w1.2 _).1 c)
    have k2 : if d then (v u).D q ≠ .oob else (v u).I q ≠ .oob := by
      revert e2 x3
      cases y.1 u with
      | ret _ => intro e1; cases e1
      | fail => intro e1; cases e1
      | rdD p k =>
        intro e1 w3
        cases e1
        simp only [run] at w3
        split at w3
        · rename_i z hz
          intro c
          rw [(x1.1 _).1 c] at hz
          cases hz
        · cases w3
      | rdI p k =>
        intro e1 w3
        cases e1
        simp only [run] at w3
        split at w3
        · rename_i z hz
          intro c
          rw [(x1.2 _).1 c] at hz
          cases hz
        · cases w3
      | wrD p z k =>
        intro e1 w3
        cases e1
        simp only [run] at w3
        split at w3
        · cases w3
        · rename_i hne
          exact fun c => hne ((x1.1 _).1 c)
      | wrI p z k =>
        intro e1 w3
        cases e1
        simp only [run] at w3
        split at w3
        · cases w3
        · rename_i hne
          exact fun c => hne ((x1.2 _).1 c)
    cases d
    · exact k2 ((hd t u htu q k1.1).2 k1.2)
    · exact k2 ((hd t u htu q k1.1).1 k1.2)

/-- **C33**, completion: from every state an interleaving reaches, all of finitely many threads can complete. -/
theorem C33_completes {P : Pool T α A} {h : Heap α} {W : T → Nat → Prop} {v v1 : T → Heap α} {a : T → A}
    (ht : ∀ t, Touch (W t) (fun _ => True) (fun _ => True) (P t)) (hv : ∀ t, View (v t) h)
    (hd : ∀ t u, t ≠ u → Apart (W t) (v t) (v u))
    (hr : ∀ t, run (P t) (v t) = some (a t, v1 t)) {y : Pool T α A × Heap α} (hy : Reach (P, h) y) (S : Finset T) :
    ∃ z, Reach y z ∧ ∀ t ∈ S, z.1 t = .ret (a t) := by
  induction S using Finset.induction_on with
  | empty => exact ⟨y, Relation.ReflTransGen.refl, fun t ht => by simp at ht⟩
  | insert t S _ ih =>
    obtain ⟨z, r, hz⟩ := ih
    have hz' : Reach (P, h) z := Relation.ReflTransGen.trans hy r
    obtain ⟨w, _, w2, w3⟩ := ((reach_inv ht hv hd hr hz').1 t).view
    obtain ⟨h1, e1, _⟩ := run_view w2 w3
    refine ⟨_, Relation.ReflTransGen.trans r (reach_finish (P := z.1) (h := z.2) e1), fun u hu => ?_⟩
    by_cases c : u = t
    · subst c; exact Function.update_self ..
    · show Function.update z.1 t _ u = _
      rw [Function.update_of_ne c]
      exact hz u ((Finset.mem_insert.1 hu).resolve_left c)
end

/-! ### Calls of the library -/
section
variable {α : Type} [Field α] [LinearOrder α]

/-- the modelled one-electron integrals -/
inductive OneE (α : Type)
  | ovlp
  | nuc (N : NucCall α)
  | auto (G : Gen1e) (O : Nat → α)

def OneE.int (Rt : Rys2 α) : OneE α → Int1e α
  | .ovlp => ovlpInt
  | .nuc N => nucInt Rt.toRys N
  | .auto G O => G.int O

/-- a call with the memory it runs in: Cartesian or spherical, one-electron or int2e -/
inductive Request (Rt : Rys2 α)
  | cart1 (I : OneE α) (s : Call α) (A : CartMem (I.int Rt) s)
  | sph1 (I : OneE α) (s : Call α) (A : SphMem (I.int Rt) s)
  | cart2 (s : Call2 α) (A : CartMem4 eriInt s)
  | sph2 (s : Call2 α) (A : SphMem4 eriInt s)

/-- the function called -/
def Request.prog {Rt : Rys2 α} (K : Consts α) (L : MathLib α) : Request Rt → Prog α Bool
  | .cart1 I s A => drv1e (I.int Rt) s K L A.fpd (fun _ _ => pure) (two (ncart s.si.l) (ncart s.sj.l)) A.out A.dims A.buf 0
      A.fl A.loc A.counts
  | .sph1 I s A => drv1e (I.int Rt) s K L A.fpd (sphTrans1e A.tab A.fpd s.si.l s.sj.l) (two (s.si.l*2+1) (s.sj.l*2+1)) A.out
      A.dims A.buf 0 A.fl A.loc A.counts
  | .cart2 s A => drv2e eriInt s Rt K L A.fpd (fun _ _ => pure) (ncar (Call2.ls s)) A.out A.dims A.buf 0 A.empty A.fl A.loc
      A.counts
  | .sph2 s A => drv2e eriInt s Rt K L A.fpd (sphTrans2e A.tab A.fpd s.si.l s.sj.l s.sk.l s.sl.l) (nsph (Call2.ls s)) A.out
      A.dims A.buf 0 A.empty A.fl A.loc A.counts

/-- the memory the caller makes available to the call -/
def Request.mem {Rt : Rys2 α} : Request Rt → Heap α
  | .cart1 _ _ A => A.h
  | .sph1 _ _ A => A.h
  | .cart2 _ A => A.h
  | .sph2 _ A => A.h

/-- the buffers given to the call for its results and temporaries: `out`, `cache` and its local variables.  `dims` and the
transformation table are not among them. -/
def Request.owns {Rt : Rys2 α} : Request Rt → Nat → Prop
  | .cart1 _ _ A => fun b => b = A.out.buf ∨ b = A.buf ∨ b = A.fl.buf ∨ b = A.loc.buf ∨ b = A.counts.buf
  | .sph1 _ _ A => fun b => b = A.out.buf ∨ b = A.buf ∨ b = A.fl.buf ∨ b = A.loc.buf ∨ b = A.counts.buf
  | .cart2 _ A => fun b => b = A.out.buf ∨ b = A.buf ∨ b = A.empty.buf ∨ b = A.fl.buf ∨ b = A.loc.buf ∨ b = A.counts.buf
  | .sph2 _ A => fun b => b = A.out.buf ∨ b = A.buf ∨ b = A.empty.buf ∨ b = A.fl.buf ∨ b = A.loc.buf ∨ b = A.counts.buf

theorem oneE_g0s {Rt : Rys2 α} (I : OneE α) {W R : Nat → Prop} (K : Consts α) (e : EnvG) (d : G1 α) :
    ∀ f ∈ (I.int Rt).g0s K e d, ∀ (q : Ptr) fac, W q.buf → Lemmas.T W R (f q fac) := by
  intro f hf q fac hq
  cases I with
  | ovlp => rw [List.mem_singleton.1 hf]; exact g1eOvlp_touch hq
  | nuc N =>
    obtain ⟨S, _, rfl⟩ := List.mem_map.1 hf
    exact g1eNuc_touch hq
  | auto G O => rw [List.mem_singleton.1 hf]; exact g1eOvlp_touch hq

theorem oneE_gout {Rt : Rys2 α} (I : OneE α) {W R : Nat → Prop} (e : EnvG) (d : G1 α) (idx g q : Ptr) (em : Int)
    (h1 : W idx.buf) (h2 : W g.buf) (h3 : W q.buf) : Lemmas.T W R ((I.int Rt).gout e d idx g q em) := by
  cases I with
  | ovlp => exact gout1e_touch h1 h2 h3
  | nuc N => exact gout1eNuc_touch h1 h2 h3
  | auto G O => exact goutOvlp_touch h1 h2 h3

/-- a call stores only in what it owns -/
theorem request_touch {Rt : Rys2 α} {K : Consts α} {L : MathLib α} (r : Request Rt) :
    Touch r.owns (fun _ => True) (fun _ => True) (r.prog K L) := by
  cases r with
  | cart1 I s A =>
    obtain ⟨W, hW⟩ : ∃ W, W = Request.owns (.cart1 (Rt := Rt) I s A) := ⟨_, rfl⟩
    have w0 : W A.out.buf := by rw [hW]; exact Or.inl rfl
    have w1 : W A.buf := by rw [hW]; exact Or.inr (Or.inl rfl)
    have w2 : W A.fl.buf := by rw [hW]; exact Or.inr (Or.inr (Or.inl rfl))
    have w3 : W A.loc.buf := by rw [hW]; exact Or.inr (Or.inr (Or.inr (Or.inl rfl)))
    have w4 : W A.counts.buf := by rw [hW]; exact Or.inr (Or.inr (Or.inr (Or.inr (rfl))))
    rw [← hW]
    unfold Request.prog
    refine drv1e_touch w0 w1 w2 w3 w4 (fun _ _ => trivial) (fun _ _ hq => hq) ?_ ?_
    · exact fun e d => oneE_g0s I K e d
    · exact oneE_gout I
  | sph1 I s A =>
    obtain ⟨W, hW⟩ : ∃ W, W = Request.owns (.sph1 (Rt := Rt) I s A) := ⟨_, rfl⟩
    have w0 : W A.out.buf := by rw [hW]; exact Or.inl rfl
    have w1 : W A.buf := by rw [hW]; exact Or.inr (Or.inl rfl)
    have w2 : W A.fl.buf := by rw [hW]; exact Or.inr (Or.inr (Or.inl rfl))
    have w3 : W A.loc.buf := by rw [hW]; exact Or.inr (Or.inr (Or.inr (Or.inl rfl)))
    have w4 : W A.counts.buf := by rw [hW]; exact Or.inr (Or.inr (Or.inr (Or.inr (rfl))))
    rw [← hW]
    unfold Request.prog
    refine drv1e_touch w0 w1 w2 w3 w4 (fun _ _ => trivial) (fun _ _ hq => sphTrans1e_touch (Or.inr trivial) w1 hq) ?_ ?_
    · exact fun e d => oneE_g0s I K e d
    · exact oneE_gout I
  | cart2 s A =>
    obtain ⟨W, hW⟩ : ∃ W, W = Request.owns (.cart2 (Rt := Rt) s A) := ⟨_, rfl⟩
    have w0 : W A.out.buf := by rw [hW]; exact Or.inl rfl
    have w1 : W A.buf := by rw [hW]; exact Or.inr (Or.inl rfl)
    have w2 : W A.empty.buf := by rw [hW]; exact Or.inr (Or.inr (Or.inl rfl))
    have w3 : W A.fl.buf := by rw [hW]; exact Or.inr (Or.inr (Or.inr (Or.inl rfl)))
    have w4 : W A.loc.buf := by rw [hW]; exact Or.inr (Or.inr (Or.inr (Or.inr (Or.inl rfl))))
    have w5 : W A.counts.buf := by rw [hW]; exact Or.inr (Or.inr (Or.inr (Or.inr (Or.inr (rfl)))))
    rw [← hW]
    unfold Request.prog
    refine drv2e_touch w0 w1 w2 w3 w4 w5 (fun _ _ => trivial) (fun _ _ hq => hq) ?_ ?_
    · exact fun _ _ _ _ _ hq => g0_2e_touch hq
    · exact fun _ _ _ _ _ _ h1 h2 h3 => gout2e_touch h1 h2 h3
  | sph2 s A =>
    obtain ⟨W, hW⟩ : ∃ W, W = Request.owns (.sph2 (Rt := Rt) s A) := ⟨_, rfl⟩
    have w0 : W A.out.buf := by rw [hW]; exact Or.inl rfl
    have w1 : W A.buf := by rw [hW]; exact Or.inr (Or.inl rfl)
    have w2 : W A.empty.buf := by rw [hW]; exact Or.inr (Or.inr (Or.inl rfl))
    have w3 : W A.fl.buf := by rw [hW]; exact Or.inr (Or.inr (Or.inr (Or.inl rfl)))
    have w4 : W A.loc.buf := by rw [hW]; exact Or.inr (Or.inr (Or.inr (Or.inr (Or.inl rfl))))
    have w5 : W A.counts.buf := by rw [hW]; exact Or.inr (Or.inr (Or.inr (Or.inr (Or.inr (rfl)))))
    rw [← hW]
    unfold Request.prog
    refine drv2e_touch w0 w1 w2 w3 w4 w5 (fun _ _ => trivial) (fun _ _ hq => sphTrans2e_touch (Or.inr trivial) w1 hq) ?_ ?_
    · exact fun _ _ _ _ _ hq => g0_2e_touch hq
    · exact fun _ _ _ _ _ _ h1 h2 h3 => gout2e_touch h1 h2 h3

variable {T : Type} [DecidableEq T]

/-- The calls of the threads are compatible with the memory `h` they share: each sees a part of it, and what one may store to
the others do not see.  Output blocks may lie in one array, `dims` and the transformation table may be shared. -/
structure Compatible {Rt : Rys2 α} (h : Heap α) (r : T → Request Rt) : Prop where
  part : ∀ t, View (r t).mem h
  apart : ∀ t u, t ≠ u → Apart (r t).owns (r t).mem (r u).mem

/-- all threads are about to make their calls -/
def startCalls {Rt : Rys2 α} (K : Consts α) (L : MathLib α) (r : T → Request Rt) : Pool T α Bool := fun t => (r t).prog K L

/-- **C33**, calls of the library: one-electron integrals and electron repulsion integrals, in any mixture, Cartesian and
spherical, any shells.  Each call, made alone in the memory made available to it, completes (that is C14, C15, C18).  Then no
interleaving makes a call fail, race, return something else or leave something else in its block and its other memory than it
does alone. -/
theorem C33_calls {Rt : Rys2 α} {K : Consts α} {L : MathLib α} {h : Heap α} {r : T → Request Rt} (hc : Compatible h r)
    {a : T → Bool} {v1 : T → Heap α} (hr : ∀ t, run ((r t).prog K L) (r t).mem = some (a t, v1 t))
    {y : Pool T α Bool × Heap α} (hy : Reach (startCalls K L r, h) y) :
    (∀ t, (∃ x, y.1 t = .ret x) ∨ ∃ p' h', Step (y.1 t) y.2 p' h') ∧
    (∀ t x, y.1 t = .ret x → x = a t ∧ View (v1 t) y.2) ∧
    (∀ t u, t ≠ u → ∀ q d s, access (y.1 t) = some (q, d, true) → access (y.1 u) ≠ some (q, d, s)) ∧
    (∀ q : Ptr, (∀ t, ¬ (r t).owns q.buf) → y.2.D q = h.D q ∧ y.2.I q = h.I q) ∧
    ∀ S : Finset T, ∃ z, Reach y z ∧ ∀ t ∈ S, z.1 t = .ret (a t) := by
  obtain ⟨h1, h2, h3, h4⟩ := C33_interleaving (fun t => request_touch (r t)) hc.part hc.apart hr hy
  exact ⟨h1, h2, h3, h4, C33_completes (fun t => request_touch (r t)) hc.part hc.apart hr hy⟩
end

/-- **C33** with C44: electron repulsion integrals computed by any number of threads.  Whatever the interleaving, a thread that
has finished has the repulsion integrals of its shells in its block. -/
theorem C33_repulsion {T : Type} [DecidableEq T] {Rt : Rys2 ℝ} {L : MathLib ℝ} {h : Heap ℝ} {s : T → Call2 ℝ}
    (A : (t : T) → SphMem4 eriInt (s t)) (hc : Compatible h fun t => Request.sph2 (Rt := Rt) (s t) (A t)) (hL : L.exp = Real.exp)
    (hk : ∀ t, AllKept L (s t)) (hp : ∀ t, PosExp (s t)) (hR : ∀ t, RootsOK Rt (s t)) (h15 : ∀ t, LOK (s t))
    {y : Pool T ℝ Bool × Heap ℝ} (hy : Reach (startCalls realK L fun t => Request.sph2 (Rt := Rt) (s t) (A t), h) y) :
    (∀ t, (∃ x, y.1 t = .ret x) ∨ ∃ p' h', Step (y.1 t) y.2 p' h') ∧
    ∀ t x, y.1 t = .ret x → ∀ ic jc kc lc i j k l, ic < (s t).si.nctr → jc < (s t).sj.nctr → kc < (s t).sk.nctr → lc < (s t).sl.nctr →
        i < (s t).si.l*2+1 → j < (s t).sj.l*2+1 → k < (s t).sk.l*2+1 → l < (s t).sl.l*2+1 →
        (A t).elem y.2 0 ic i jc j kc k lc l = .val (repulsion (interaction (s t).omega)
          (fun r => sgto (s t).si ic i r * sgto (s t).sj jc j r) (fun r => sgto (s t).sk kc k r * sgto (s t).sl lc l r)) := by
  choose a v1 hr hval using fun t => C44_eri_spherical (R := Rt) (A t) hL (hk t) (hp t) (hR t) (h15 t)
  obtain ⟨h1, h2, _⟩ := C33_calls hc (a := a) (v1 := v1) (fun t => hr t) hy
  refine ⟨h1, fun t x e ic jc kc lc i j k l b1 b2 b3 b4 b5 b6 b7 b8 => ?_⟩
  have e1 := hval t ic jc kc lc i j k l b1 b2 b3 b4 b5 b6 b7 b8
  unfold Mem4.elem at e1 ⊢
  rw [(h2 t x e).2.1 _ (by rw [e1]; intro c; cases c)]
  exact e1

/-! ### The hypotheses can be met -/
namespace ConcurrentDemo
open OvlpDemo

/-- what thread `t` sees: its own cache and local variables (buffers `10 + 4t` to `13 + 4t`), rows `6t` to `6t+5` of a matrix
with 12 rows in buffer 5, and the dimensions of the matrix in buffer 6 -/
def seen (t : Nat) : Heap ℝ where
  D q := if q.buf = 10 + 4*t then .undef else if q.buf = 5 ∧ q.off % 12 / 6 = t then .undef else .oob
  I q := if q.buf = 6 then .val 12 else if 10 + 4*t ≤ q.buf ∧ q.buf ≤ 13 + 4*t then .undef else .oob

/-- the memory of the process -/
def all : Heap ℝ where
  D _ := .undef
  I q := if q.buf = 6 then .val 12 else .undef

theorem block (t : Nat) (ht : t < 2) {m : Nat} (hm : InBlock (two 12 12) (fun x => two (ncart call.si.l) (ncart call.sj.l) x *
    two call.si.nctr call.sj.nctr x) 1 m) : (6*t + m) % 12 / 6 = t := by
  obtain ⟨n, I, J, K, L, h0, h1, _, h3, h4, rfl⟩ := hm
  have h1' : I < 6 := h1
  have h3' : K < 1 := h3
  have h4' : L < 1 := h4
  have : outAt (two 12 12) n I J K L = I + 12 * J := by
    obtain rfl : n = 0 := by omega
    obtain rfl : K = 0 := by omega
    obtain rfl : L = 0 := by omega
    show I + 12 * (J + 12 * (0 + 1 * (0 + 1 * 0))) = _
    omega
  rw [this]
  omega

/-- thread `t` computes its 6 rows of the overlap matrix -/
noncomputable def mem (t : Fin 2) : CartMem ovlpInt call where
  fpd := 1
  buf := 10 + 4*t
  size := cacheSize1e ovlpInt call
  fl := ⟨11 + 4*t, 0⟩
  loc := ⟨12 + 4*t, 0⟩
  counts := ⟨13 + 4*t, 0⟩
  out := ⟨5, 6*t⟩
  dims := some ⟨6, 0⟩
  nd := two 12 12
  h := seen t
  hs := by
    refine ⟨Or.inl rfl, ?_, ?_, ?_, ?_⟩
    · show ∀ t, t < 4 → 0 < two (ncart 1) (ncart 2) t; decide
    · show ∀ t, t < 4 → 0 < two 2 2 t; decide
    · intro t h1 h2
      unfold two
      simp [show t ≠ 0 by omega, show t ≠ 1 by omega]
    · show ∀ t, t < 4 → two (ncart 1) (ncart 2) t * two 2 2 t ≤ two 12 12 t; decide
  M := by
    refine ⟨by omega, ?_, ?_, ?_, ?_, ?_, ?_, ?_⟩
    · intro k _; simp [seen]
    · intro k _; simp [seen]; split <;> simp
    · intro k _; simp [seen]; split <;> simp
    · intro k _; simp [seen]; split <;> simp
    · intro k _; simp [seen]; split <;> simp
    · simp
    · simp
  hsize := le_refl _
  O := by
    refine ⟨⟨fun t ht => ?_, ?_⟩, ?_, ?_, ?_, ?_⟩
    · have : two 12 12 t = 12 := by unfold two; split; rfl; split; rfl; omega
      rw [this]
      simp [seen]
    · simp; omega
    · rintro d ⟨⟩; exact ⟨12, by simp [seen]⟩
    · rintro d ⟨⟩
      refine ⟨?_, ?_, ?_⟩ <;> simp <;> omega
    · intro m hm
      simp [seen, block t t.2 hm]
    · simp; omega

/-- two threads that fill two blocks of rows of one matrix at the same time -/
noncomputable def req (Rt : Rys2 ℝ) (t : Fin 2) : Request Rt := .cart1 .ovlp call (mem t)

theorem compatible (Rt : Rys2 ℝ) : Compatible all (req Rt) where
  part t := by
    refine ⟨fun q hq => ?_, fun q hq => ?_⟩
    · show (all).D q = (seen t).D q
      replace hq : (seen t).D q ≠ .oob := hq
      unfold seen at hq ⊢
      dsimp only [all] at hq ⊢
      split_ifs at hq ⊢ <;> first | rfl | exact absurd rfl hq
    · show (all).I q = (seen t).I q
      replace hq : (seen t).I q ≠ .oob := hq
      unfold seen at hq ⊢
      dsimp only [all] at hq ⊢
      split_ifs at hq ⊢ <;> first | rfl | exact absurd rfl hq
  apart t u htu q hq := by
    have hne : (t:Nat) ≠ u := fun c => htu (Fin.ext c)
    replace hq : q.buf = 5 ∨ q.buf = 10 + 4*t ∨ q.buf = 11 + 4*t ∨ q.buf = 12 + 4*t ∨ q.buf = 13 + 4*t := hq
    refine ⟨fun h => ?_, fun h => ?_⟩
    · show (seen u).D q = .oob
      replace h : (seen t).D q ≠ .oob := h
      unfold seen at h ⊢
      dsimp only at h ⊢
      rw [if_neg (by omega), if_neg]
      intro c
      rw [if_neg (by omega), if_neg (by omega)] at h
      exact h rfl
    · show (seen u).I q = .oob
      replace h : (seen t).I q ≠ .oob := h
      unfold seen at h ⊢
      dsimp only at h ⊢
      rw [if_neg (by omega), if_neg]
      intro c
      rw [if_neg (by omega), if_neg (by omega)] at h
      exact h rfl

/-- whatever the interleaving, when both are finished the matrix holds the overlap integrals -/
example (Rt : Rys2 ℝ) {y : Pool (Fin 2) ℝ Bool × Heap ℝ} (hy : Reach (startCalls realK lib (req Rt), all) y)
    (hend : ∀ t, ∃ x, y.1 t = .ret x) (t : Fin 2) :
    y.2.D ((⟨5, 6*t⟩ : Ptr) + outAt (two 12 12) 0 (1*3+1) (0*6+2) 0 0) = .val (spNorm 1 * spNorm 2 *
      braket (cgto 2 (fun _ => 1) (fun _ => 1) (fun _ => 0) 1 (powers 1 1))
        (cgto 2 (fun _ => 1) (fun _ => 1) (fun _ => 0) 0 (powers 2 2))) := by
  have H : ∀ t : Fin 2, ∃ has h', run ((req Rt t).prog realK lib) (req Rt t).mem = some (has, h') ∧
      h'.D ((⟨5, 6*t⟩ : Ptr) + outAt (two 12 12) 0 (1*3+1) (0*6+2) 0 0) = .val (spNorm 1 * spNorm 2 *
        braket (cgto 2 (fun _ => 1) (fun _ => 1) (fun _ => 0) 1 (powers 1 1))
          (cgto 2 (fun _ => 1) (fun _ => 1) (fun _ => 0) 0 (powers 2 2))) := by
    intro t
    obtain ⟨has, h', h1, h2⟩ := C21_overlap_exact (L := lib) (s := call) rfl maxc.1 maxc.2
      (fun _ _ _ _ => by show (0:ℝ) < 1 + 1; norm_num) (fun ip jp _ _ => kept ip jp) (by decide) (by decide) (mem t).hs
      (mem t).M (mem t).hsize (mem t).O
    exact ⟨has, h', h1, h2 1 0 1 2 (by decide) (by decide) (by decide) (by decide)⟩
  choose a v1 hr hval using H
  obtain ⟨x, hx⟩ := hend t
  obtain ⟨_, h2, _⟩ := C33_calls (compatible Rt) (a := a) (v1 := v1) hr hy
  rw [(h2 t x hx).2.1 _ (by rw [hval]; intro c; cases c)]
  exact hval t
end ConcurrentDemo

end Verif.Props
