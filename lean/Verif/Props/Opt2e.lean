import Verif.Lemmas.OptVal

/-!
C11 — an integral evaluated with an optimizer equals the one evaluated with a NULL optimizer.
C15 — the queried cache size suffices, with an optimizer.
C18 — result and overwriting, with an optimizer.
C44 — values of electron repulsion integrals, with an optimizer.
-/
namespace Verif.Props
open Verif Verif.Model Verif.Prog Verif.Lemmas Verif.Spec MeasureTheory

section
variable {α : Type} [Field α] [LinearOrder α]

/-- An optimizer built for a basis of `nbas` shells: where its arrays are, the memory before and after the call of the
constructor. -/
structure Optim (X : Int2e α) (L : MathLib α) (B : Nat → PShell α) (nbas : Nat) (envCut omega : α) where
  P : OptPtrs
  loc : Ptr
  h0 : Heap α
  M : OptMem B nbas P loc h0
  O : Opt2
  h1 : Heap α
  built : run (optimizer2e X L B nbas envCut omega P loc) h0 = some (O, h1)

/-- buffer `b` is not one of the optimizer's arrays -/
def Apart (P : OptPtrs) (b : Nat) : Prop :=
  b ∉ [P.ptab.buf, P.ppool.buf, P.ctab.buf, P.cpool.buf, P.stab.buf, P.spool.buf, P.ixa.buf, P.ixbuf.buf]

instance (P : OptPtrs) (b : Nat) : Decidable (Apart P b) := by unfold Apart; infer_instance

variable {R : Rys2 α} {K : Consts α} {L : MathLib α} {X : Int2e α} {B : Nat → PShell α} {nbas : Nat} {envCut omega : α}
  {s : Call2 α} {d : Nat → Nat}

/-- The optimizer's arrays hold in memory `h` what the constructor left in them. -/
def Optim.Intact (Q : Optim X L B nbas envCut omega) (h : Heap α) : Prop :=
  ∀ q : Ptr, ¬ Apart Q.P q.buf → h.D q = Q.h1.D q ∧ h.I q = Q.h1.I q

/-- The call may use the optimizer: its arrays are intact, and the cache, the output array and local variables are elsewhere. -/
structure CallsWith (Q : Optim X L B nbas envCut omega) (A : Mem4 X s d) : Prop where
  intact : Q.Intact A.h
  cache : Apart Q.P A.buf
  out : Apart Q.P A.out.buf
  empty : Apart Q.P A.empty.buf
  fl : Apart Q.P A.fl.buf
  loc : Apart Q.P A.loc.buf
  counts : Apart Q.P A.counts.buf
  flloc : A.fl.buf ≠ A.loc.buf

/-- the Cartesian call with the optimizer returns `has` and ends with memory `h'` -/
def CartEndsO (Q : Optim X L B nbas envCut omega) {i j k l : Nat} (A : CartMem4 X (basisCall B envCut omega i j k l))
    (R : Rys2 α) (K : Consts α) (has : Bool) (h' : Heap α) : Prop :=
  run (drv2eOpt X (basisCall B envCut omega i j k l) R K L Q.O i j k l A.fpd (fun _ _ => pure)
    (ncar (Call2.ls (basisCall B envCut omega i j k l))) A.out A.dims A.buf 0 A.empty A.fl A.loc A.counts) A.h = some (has, h')

/-- the spherical call with the optimizer returns `has` and ends with memory `h'` -/
def SphEndsO (Q : Optim X L B nbas envCut omega) {i j k l : Nat} (A : SphMem4 X (basisCall B envCut omega i j k l))
    (R : Rys2 α) (K : Consts α) (has : Bool) (h' : Heap α) : Prop :=
  run (drv2eOpt X (basisCall B envCut omega i j k l) R K L Q.O i j k l A.fpd
    (sphTrans2e A.tab A.fpd (B i).l (B j).l (B k).l (B l).l)
    (nsph (Call2.ls (basisCall B envCut omega i j k l))) A.out A.dims A.buf 0 A.empty A.fl A.loc A.counts) A.h = some (has, h')

/-- **C11**, construction: given the memory the constructor asks for, it completes without undefined behaviour for every basis
(with at least one primitive) and every integral type, and changes no other memory. -/
theorem C11_build {P : OptPtrs} {loc : Ptr} {h0 : Heap α} (M : OptMem B nbas P loc h0) (ht : 0 < totPrim B nbas)
    (hl : ∀ t, t < nbas → (B t).l ≤ 15) :
    ∃ Q : Optim X L B nbas envCut omega, Q.P = P ∧ Q.h0 = h0 ∧
      (∀ q : Ptr, q.buf ≠ P.ppool.buf → Q.h1.D q = h0.D q) ∧
      (∀ q : Ptr, Apart P q.buf → q.buf ≠ loc.buf → Q.h1.I q = h0.I q) := by
  obtain ⟨O, h1, hr, _, aD, aI, _⟩ := run_of_wp (optimizer2e_wp (L := L) (X := X) (envCut := envCut) (omega := omega) M ht hl)
  refine ⟨⟨P, loc, h0, M, O, h1, hr⟩, rfl, rfl, fun q hq => aD q hq, fun q hq hq' => aI q ?_⟩
  unfold Apart at hq
  unfold OptBufI
  simp only [List.mem_cons, List.not_mem_nil, or_false, not_or] at hq ⊢
  tauto

theorem optim_ok (Q : Optim X L B nbas envCut omega) (ht : 0 < totPrim B nbas) (hl : ∀ t, t < nbas → (B t).l ≤ 15) :
    OptOK L X B nbas envCut omega Q.O Q.h1 ∧
      Q.O = ⟨nbas, Q.O.pair, Q.P.ctab, Q.P.cpool, Q.P.stab, Q.P.spool, Q.P.ixa, Q.P.ixbuf⟩ ∧
      (Q.O.pair = none ∨ Q.O.pair = some (Q.P.ptab, Q.P.ppool)) := by
  obtain ⟨O, h1, hr, a, _, _, b, c⟩ := run_of_wp (optimizer2e_wp (L := L) (X := X) (envCut := envCut) (omega := omega) Q.M ht hl)
  have := hr.symm.trans Q.built
  simp only [Option.some.injEq, Prod.mk.injEq] at this
  obtain ⟨rfl, rfl⟩ := this
  exact ⟨a, b, c⟩

theorem optSep_of {Q : Optim X L B nbas envCut omega} (ht : 0 < totPrim B nbas) (hl : ∀ t, t < nbas → (B t).l ≤ 15) {b : Nat}
    (h : Apart Q.P b) : OptSep Q.O b := by
  obtain ⟨_, hO, hp⟩ := optim_ok Q ht hl
  unfold Apart at h
  simp only [List.mem_cons, List.not_mem_nil, or_false, not_or] at h
  obtain ⟨h1, h2, h3, h4, h5, h6, h7, h8⟩ := h
  refine ⟨?_, fun t p e => ?_⟩
  · rw [hO]
    exact ⟨Ne.symm h3, Ne.symm h5, Ne.symm h4, Ne.symm h6, Ne.symm h7, Ne.symm h8⟩
  · rcases hp with x | x
    · rw [x] at e; cases e
    · rw [x] at e
      cases e
      exact ⟨Ne.symm h1, Ne.symm h2⟩

theorem Optim.intact_ok {Q : Optim X L B nbas envCut omega} (ht : 0 < totPrim B nbas) (hl : ∀ t, t < nbas → (B t).l ≤ 15)
    {h : Heap α} (H : Q.Intact h) : OptOK L X B nbas envCut omega Q.O h := by
  refine (optim_ok Q ht hl).1.agree (W := fun q => Apart Q.P q.buf) (W' := fun q => Apart Q.P q.buf)
    (fun q hq => (H q hq).1) (fun q hq => (H q hq).2) (fun q hq => optSep_of ht hl hq) (fun q hq => optSep_of ht hl hq)

/-- the pair data the loops use for shells a and b: `args` are the arguments of CINTset_pairdata without a table -/
def srcV (L : MathLib α) (X : Int2e α) (B : Nat → PShell α) (nbas : Nat) (envCut omega : α) (args : PairArgs α) (a b : Nat) :
    Nat → Nat → Nat → α :=
  if 2048 < totPrim B nbas then pairVal L args
  else pairTblVal L B (ijklInc X.ng.i X.ng.j X.ng.k X.ng.l) (setijCutoff envCut) omega a b

/-- the pair is negligible -/
def srcE (L : MathLib α) (X : Int2e α) (B : Nat → PShell α) (nbas : Nat) (envCut omega : α) (args : PairArgs α) (a b : Nat) : Prop :=
  if 2048 < totPrim B nbas then PairEmpty L args
  else pairTblEmpty L B (ijklInc X.ng.i X.ng.j X.ng.k X.ng.l) (setijCutoff envCut) omega a b

section
variable (L X B nbas envCut omega) (i j k l : Nat)
def vIJ : Nat → Nat → Nat → α := srcV L X B nbas envCut omega ((basisCall B envCut omega i j k l).pairArgs X) i j
def vKL : Nat → Nat → Nat → α := srcV L X B nbas envCut omega ((basisCall B envCut omega i j k l).pairArgsKL X) k l
def eIJ : Prop := srcE L X B nbas envCut omega ((basisCall B envCut omega i j k l).pairArgs X) i j
def eKL : Prop := srcE L X B nbas envCut omega ((basisCall B envCut omega i j k l).pairArgsKL X) k l
end

theorem pairVal_empty {p : PairArgs α} (hE : PairEmpty L p) {ip jp : Nat} (hi : ip < p.si.nprim) (hj : jp < p.sj.nprim) :
    pairVal L p ip jp 3 = 0 := by
  unfold pairVal
  simp [hE ip jp hi hj]

theorem srcV_empty {args : PairArgs α} {a b : Nat} (ha : args.si = B a) (hb : args.sj = B b)
    (hE : srcE L X B nbas envCut omega args a b) {ip jp : Nat} (hi : ip < (B a).nprim) (hj : jp < (B b).nprim) :
    srcV L X B nbas envCut omega args a b ip jp 3 = 0 := by
  unfold srcE at hE
  unfold srcV
  split
  · rename_i h
    rw [if_pos h] at hE
    exact pairVal_empty hE (by rw [ha]; exact hi) (by rw [hb]; exact hj)
  · rename_i h
    rw [if_neg h] at hE
    unfold pairTblEmpty at hE
    unfold pairTblVal
    split
    · rename_i h'
      rw [if_pos h'] at hE
      exact pairVal_empty hE hi hj
    · rename_i h'
      rw [if_neg h'] at hE
      exact pairVal_empty hE hj hi

theorem optOK_at {O : Opt2} {h : Heap α} (A : OptOK L X B nbas envCut omega O h) {i j k l : Nat} (hi : i < nbas) (hj : j < nbas)
    (hk : k < nbas) (hl : l < nbas) :
    OptAt L X (basisCall B envCut omega i j k l) O h i j k l (vIJ L X B nbas envCut omega i j k l)
      (vKL L X B nbas envCut omega i j k l) (eIJ L X B nbas envCut omega i j k l) (eKL L X B nbas envCut omega i j k l) ∧
    EmptyZero (basisCall B envCut omega i j k l) (vIJ L X B nbas envCut omega i j k l)
      (vKL L X B nbas envCut omega i j k l) (eIJ L X B nbas envCut omega i j k l) (eKL L X B nbas envCut omega i j k l) := by
  refine ⟨⟨?_, A.tab i hi, A.tab j hj, A.tab k hk, A.tab l hl, A.ix i j k l hi hj hk hl⟩, fun hE ip jp a b => ?_,
    fun hE ip jp a b => ?_⟩
  · unfold PairsAt
    cases hO : O.pair with
    | none =>
      have hp := A.none.1 hO
      unfold vIJ vKL eIJ eKL srcV srcE
      simp only [hp, if_true]
      exact ⟨trivial, trivial, trivial, trivial⟩
    | some tp =>
      obtain ⟨t, p⟩ := tp
      have hp : ¬ 2048 < totPrim B nbas := fun x => by rw [A.none.2 x] at hO; cases hO
      unfold vIJ vKL eIJ eKL srcV srcE
      simp only [hp, if_false]
      rw [A.n]
      exact ⟨A.pairs t p hO i j hi hj, A.pairs t p hO k l hk hl⟩
  · exact srcV_empty rfl rfl hE a b
  · exact srcV_empty rfl rfl hE a b

theorem callsWith_arg {Q : Optim X L B nbas envCut omega} {A : Mem4 X s d} (W : CallsWith Q A) (ht : 0 < totPrim B nbas)
    (hl : ∀ t, t < nbas → (B t).l ≤ 15) : OptArg Q.O A.buf A.empty A.fl A.loc :=
  ⟨optSep_of ht hl W.cache, optSep_of ht hl W.empty, optSep_of ht hl W.fl, optSep_of ht hl W.loc, W.flloc⟩

/-- the integrand evaluates correctly whatever the pair data -/
def EvalAll (R : Rys2 α) (K : Consts α) (X : Int2e α) (s : Call2 α) : Prop :=
  ∀ Vij Vkl, ∃ keep w, EvalOKP R K X s Vij Vkl keep w

/-- four shells of the basis -/
structure InBasis (B : Nat → PShell α) (nbas i j k l : Nat) : Prop where
  hi : i < nbas
  hj : j < nbas
  hk : k < nbas
  hl : l < nbas
  tall : ∀ t, t < nbas → (B t).l ≤ 15
  some_prim : 0 < totPrim B nbas

theorem InBasis.ls {i j k l : Nat} (H : InBasis B nbas i j k l) (envCut omega : α) :
    ∀ t, t < 4 → Call2.ls (basisCall B envCut omega i j k l) t ≤ 15 := by
  intro t ht
  match t, ht with
  | 0, _ => exact H.tall i H.hi
  | 1, _ => exact H.tall j H.hj
  | 2, _ => exact H.tall k H.hk
  | 3, _ => exact H.tall l H.hl

section
variable {i j k l : Nat}

def opt_cart (Q : Optim X L B nbas envCut omega) (A : CartMem4 X (basisCall B envCut omega i j k l)) (W : CallsWith Q A)
    (H : InBasis B nbas i j k l) (hnc : 1 ≤ X.nComp) {keep : Nat → Nat → Nat → Nat → Bool}
    {w : Nat → Nat → Nat → Nat → Nat → α}
    (hK : EvalOKP R K X (basisCall B envCut omega i j k l) (vIJ L X B nbas envCut omega i j k l)
      (vKL L X B nbas envCut omega i j k l) keep w) :=
  drv2eOpt_cart (R := R) (K := K) A.M A.hsize (callsWith_arg W H.some_prim H.tall)
    (optOK_at (Optim.intact_ok H.some_prim H.tall W.intact) H.hi H.hj H.hk H.hl).1
    (optOK_at (Optim.intact_ok H.some_prim H.tall W.intact) H.hi H.hj H.hk H.hl).2 A.hs A.O hK hnc (H.ls envCut omega)

def opt_sph (Q : Optim X L B nbas envCut omega) (A : SphMem4 X (basisCall B envCut omega i j k l))
    (W : CallsWith Q A.toMem4) (H : InBasis B nbas i j k l) (hnc : 1 ≤ X.nComp) {keep : Nat → Nat → Nat → Nat → Bool}
    {w : Nat → Nat → Nat → Nat → Nat → α}
    (hK : EvalOKP R K X (basisCall B envCut omega i j k l) (vIJ L X B nbas envCut omega i j k l)
      (vKL L X B nbas envCut omega i j k l) keep w) :=
  drv2eOpt_sph (R := R) (K := K) A.M A.hsize (callsWith_arg W H.some_prim H.tall)
    (optOK_at (Optim.intact_ok H.some_prim H.tall W.intact) H.hi H.hj H.hk H.hl).1
    (optOK_at (Optim.intact_ok H.some_prim H.tall W.intact) H.hi H.hj H.hk H.hl).2 A.hs A.O A.hT A.htb A.hto hK hnc
    (H.ls envCut omega)

theorem intact_of_frame {Q : Optim X L B nbas envCut omega} {A : Mem4 X s d} (W : CallsWith Q A) {h' : Heap α} {nd cnt : Nat → Nat}
    {n : Nat} (F : Frame2 A.h h' nd cnt n A.buf A.out A.empty A.fl A.loc A.counts) : Q.Intact h' := by
  intro q hq
  have ne : ∀ {b : Nat}, Apart Q.P b → q.buf ≠ b := fun hb e => hq (e ▸ hb)
  refine ⟨(F.1 q (ne W.cache) (fun m _ e => ne W.out (by rw [e]; rfl))).trans (W.intact q hq).1, ?_⟩
  exact (F.2 q (ne W.cache) (ne W.empty) (ne W.fl) (ne W.loc) (ne W.counts)).trans (W.intact q hq).2

/-- **C15** with an optimizer, Cartesian output: a cache of the queried size suffices, and the optimizer is left as it was, so
that it can be used again any number of times. -/
theorem C15_opt_cart (Q : Optim X L B nbas envCut omega) (A : CartMem4 X (basisCall B envCut omega i j k l)) (W : CallsWith Q A)
    (H : InBasis B nbas i j k l) (hnc : 1 ≤ X.nComp) (hK : EvalAll R K X (basisCall B envCut omega i j k l)) :
    ∃ has h', CartEndsO Q A R K has h' ∧ Q.Intact h' := by
  obtain ⟨keep, w, hK⟩ := hK (vIJ L X B nbas envCut omega i j k l) (vKL L X B nbas envCut omega i j k l)
  obtain ⟨has, h', hr, _, _, F, _⟩ := opt_cart Q A W H hnc hK
  exact ⟨has, h', hr, intact_of_frame W F⟩

/-- **C15** with an optimizer, spherical output. -/
theorem C15_opt_sph (Q : Optim X L B nbas envCut omega) (A : SphMem4 X (basisCall B envCut omega i j k l))
    (W : CallsWith Q A.toMem4) (H : InBasis B nbas i j k l) (hnc : 1 ≤ X.nComp)
    (hK : EvalAll R K X (basisCall B envCut omega i j k l)) :
    ∃ has h', SphEndsO Q A R K has h' ∧ Q.Intact h' := by
  obtain ⟨keep, w, hK⟩ := hK (vIJ L X B nbas envCut omega i j k l) (vKL L X B nbas envCut omega i j k l)
  obtain ⟨has, h', hr, _, _, F, _⟩ := opt_sph Q A W H hnc hK
  exact ⟨has, h', hr, intact_of_frame W F⟩

/-- **C18** with an optimizer, Cartesian output: when 0 is returned the block is zero; in any case every element of the block is
overwritten with a value that does not depend on what memory contained, and no double outside the block and the cache
changes. -/
theorem C18_opt_cart (Q : Optim X L B nbas envCut omega) (A : CartMem4 X (basisCall B envCut omega i j k l)) (W : CallsWith Q A)
    (H : InBasis B nbas i j k l) (hnc : 1 ≤ X.nComp) (hK : EvalAll R K X (basisCall B envCut omega i j k l)) :
    ∃ v : Nat → α, ∀ A' : CartMem4 X (basisCall B envCut omega i j k l), CallsWith Q A' → A'.nd = A.nd →
      ∃ has h', CartEndsO Q A' R K has h' ∧
        (∀ m, InBlock A.nd (fun t => ncar (Call2.ls (basisCall B envCut omega i j k l)) t *
            Call2.nctrs (basisCall B envCut omega i j k l) t) X.nComp m → h'.D (A'.out + m) = .val (v m)) ∧
        (has = false → ∀ m, InBlock A.nd (fun t => ncar (Call2.ls (basisCall B envCut omega i j k l)) t *
            Call2.nctrs (basisCall B envCut omega i j k l) t) X.nComp m → v m = 0) ∧
        (∀ q, q.buf ≠ A'.buf → (∀ m, InBlock A.nd (fun t => ncar (Call2.ls (basisCall B envCut omega i j k l)) t *
            Call2.nctrs (basisCall B envCut omega i j k l) t) X.nComp m → q ≠ A'.out + m) → h'.D q = A'.h.D q) := by
  obtain ⟨keep, w, hK⟩ := hK (vIJ L X B nbas envCut omega i j k l) (vKL L X B nbas envCut omega i j k l)
  obtain ⟨r0, h0, _, v0, _⟩ := opt_cart Q A W H hnc hK
  refine ⟨fun m => match h0.D (A.out + m) with | .val x => x | _ => 0, fun A' W' hn => ?_⟩
  obtain ⟨r1, h1, e1, v1, z1, f1, _⟩ := opt_cart Q A' W' H hnc hK
  rw [hn] at v1 z1 f1
  have hv : ∀ m, InBlock A.nd (fun t => ncar (Call2.ls (basisCall B envCut omega i j k l)) t *
      Call2.nctrs (basisCall B envCut omega i j k l) t) X.nComp m →
      h1.D (A'.out + m) = .val (match h0.D (A.out + m) with | .val x => x | _ => 0) := by
    intro m hm
    obtain ⟨n, ic, jc, kc, lc, a, b, c, x, a1, a2, a3, a4, a5, a6, a7, a8, a9, rfl⟩ := inBlock_digits A.hs.nf_pos hm
    have b0 := v0 n ic jc kc lc a b c x a1 a2 a3 a4 a5 a6 a7 a8 a9
    have b1 := v1 n ic jc kc lc a b c x a1 a2 a3 a4 a5 a6 a7 a8 a9
    refine b1.trans ?_
    have e : h0.D (A.out + outAt A.nd n (ic * ncar (Call2.ls (basisCall B envCut omega i j k l)) 0 + a)
      (jc * ncar (Call2.ls (basisCall B envCut omega i j k l)) 1 + b)
      (kc * ncar (Call2.ls (basisCall B envCut omega i j k l)) 2 + c)
      (lc * ncar (Call2.ls (basisCall B envCut omega i j k l)) 3 + x)) = _ := b0
    rw [e]
  refine ⟨r1, h1, e1, hv, fun hf m hm => ?_, f1.1⟩
  exact Cell.val.inj ((hv m hm).symm.trans (z1 hf m hm))

/-- **C18** with an optimizer, spherical output. -/
theorem C18_opt_sph (Q : Optim X L B nbas envCut omega) (A : SphMem4 X (basisCall B envCut omega i j k l))
    (W : CallsWith Q A.toMem4)
    (H : InBasis B nbas i j k l) (hnc : 1 ≤ X.nComp) (hK : EvalAll R K X (basisCall B envCut omega i j k l)) :
    ∃ v : Nat → α, ∀ A' : SphMem4 X (basisCall B envCut omega i j k l), CallsWith Q A'.toMem4 → A'.nd = A.nd →
      ∃ has h', SphEndsO Q A' R K has h' ∧
        (∀ m, InBlock A.nd (fun t => nsph (Call2.ls (basisCall B envCut omega i j k l)) t *
            Call2.nctrs (basisCall B envCut omega i j k l) t) X.nComp m → h'.D (A'.out + m) = .val (v m)) ∧
        (has = false → ∀ m, InBlock A.nd (fun t => nsph (Call2.ls (basisCall B envCut omega i j k l)) t *
            Call2.nctrs (basisCall B envCut omega i j k l) t) X.nComp m → v m = 0) ∧
        (∀ q, q.buf ≠ A'.buf → (∀ m, InBlock A.nd (fun t => nsph (Call2.ls (basisCall B envCut omega i j k l)) t *
            Call2.nctrs (basisCall B envCut omega i j k l) t) X.nComp m → q ≠ A'.out + m) → h'.D q = A'.h.D q) := by
  obtain ⟨keep, w, hK⟩ := hK (vIJ L X B nbas envCut omega i j k l) (vKL L X B nbas envCut omega i j k l)
  obtain ⟨r0, h0, _, v0, _⟩ := opt_sph Q A W H hnc hK
  refine ⟨fun m => match h0.D (A.out + m) with | .val x => x | _ => 0, fun A' W' hn => ?_⟩
  obtain ⟨r1, h1, e1, v1, z1, f1, _⟩ := opt_sph Q A' W' H hnc hK
  rw [hn] at v1 z1 f1
  have hv : ∀ m, InBlock A.nd (fun t => nsph (Call2.ls (basisCall B envCut omega i j k l)) t *
      Call2.nctrs (basisCall B envCut omega i j k l) t) X.nComp m →
      h1.D (A'.out + m) = .val (match h0.D (A.out + m) with | .val x => x | _ => 0) := by
    intro m hm
    obtain ⟨n, ic, jc, kc, lc, a, b, c, x, a1, a2, a3, a4, a5, a6, a7, a8, a9, rfl⟩ := inBlock_digits A.hs.nf_pos hm
    have b0 := v0 n ic jc kc lc a b c x a1 a2 a3 a4 a5 a6 a7 a8 a9
    have b1 := v1 n ic jc kc lc a b c x a1 a2 a3 a4 a5 a6 a7 a8 a9
    refine b1.trans ?_
    have e : h0.D (A.out + outAt A.nd n (ic * nsph (Call2.ls (basisCall B envCut omega i j k l)) 0 + a)
      (jc * nsph (Call2.ls (basisCall B envCut omega i j k l)) 1 + b)
      (kc * nsph (Call2.ls (basisCall B envCut omega i j k l)) 2 + c)
      (lc * nsph (Call2.ls (basisCall B envCut omega i j k l)) 3 + x)) = _ := b0
    rw [e]
  refine ⟨r1, h1, e1, hv, fun hf m hm => ?_, f1.1⟩
  exact Cell.val.inj ((hv m hm).symm.trans (z1 hf m hm))
end
end


/-! ### Values of electron repulsion integrals -/

/-- the cutoff for the pair data: that of CINTOpt_setij, or that of the loops when there are too many primitives for a table -/
noncomputable def pairCut (B : Nat → PShell ℝ) (nbas : Nat) (envCut : ℝ) : ℝ :=
  if 2048 < totPrim B nbas then cutoff2e envCut else setijCutoff envCut

theorem setijCutoff_le (x : ℝ) : setijCutoff x ≤ cutoff2e x := by
  unfold setijCutoff cutoff2e
  by_cases h : x = 0
  · rw [if_pos h, if_pos h]
  · rw [if_neg h, if_neg h]; linarith

theorem pairCut_le (B : Nat → PShell ℝ) (nbas : Nat) (x : ℝ) : pairCut B nbas x ≤ cutoff2e x := by
  unfold pairCut
  split
  · exact le_refl _
  · exact setijCutoff_le x

section
variable {L : MathLib ℝ} {R : Rys2 ℝ} {B : Nat → PShell ℝ} {nbas : Nat} {envCut omega : ℝ} {m : Nat → Nat → ℝ} {i j k l : Nat}

/-- all exponents of the basis are positive -/
def PosBasis (B : Nat → PShell ℝ) (nbas : Nat) : Prop := ∀ t p, t < nbas → p < (B t).nprim → 0 < (B t).a p

theorem PosBasis.posExp (hp : PosBasis B nbas) (H : InBasis B nbas i j k l) : PosExp (basisCall B envCut omega i j k l) :=
  ⟨fun ip jp a b => add_pos (hp i ip H.hi a) (hp j jp H.hj b), fun kp lp a b => add_pos (hp k kp H.hk a) (hp l lp H.hl b)⟩

theorem src_entry (hm : ∀ t, t < nbas → MaxCoeff (B t) (m t)) (hp : PosBasis B nbas) {a b : Nat} (ha : a < nbas) (hb : b < nbas)
    {args : PairArgs ℝ} (e : args = { si := B a, sj := B b, li := (B a).l, lj := (B b).l, rr := rr2 (B a).r (B b).r
                                      cutoff := cutoff2e envCut, omega := omega }) :
    (∀ ip jp, ip < (B a).nprim → jp < (B b).nprim → IsPairEntry L.exp ((B a).a ip) ((B b).a jp) (B a).r (B b).r
      (rr2 (B a).r (B b).r) (est L (B a) (B b) (m a) (m b) (rr2 (B a).r (B b).r) omega ((B a).l + (B b).l) ip jp)
      (pairCut B nbas envCut) (fun c => srcV L eriInt B nbas envCut omega args a b ip jp c)) ∧
    (srcE L eriInt B nbas envCut omega args a b ↔ ∀ ip jp, ip < (B a).nprim → jp < (B b).nprim →
      ¬ est L (B a) (B b) (m a) (m b) (rr2 (B a).r (B b).r) omega ((B a).l + (B b).l) ip jp < pairCut B nbas envCut) := by
  have hpos : ∀ i j ip jp, i < nbas → j < nbas → ip < (B i).nprim → jp < (B j).nprim → (B i).a ip + (B j).a jp ≠ 0 :=
    fun i j ip jp h1 h2 h3 h4 => (add_pos (hp i ip h1 h3) (hp j jp h2 h4)).ne'
  unfold srcV srcE pairCut
  by_cases h : 2048 < totPrim B nbas
  · simp only [h, if_true]
    subst e
    refine ⟨fun ip jp h1 h2 => ?_, ?_⟩
    · exact pairVal_entry (p := { si := B a, sj := B b, li := (B a).l, lj := (B b).l, rr := rr2 (B a).r (B b).r
                                  cutoff := cutoff2e envCut, omega := omega }) (hm a ha) (hm b hb) h1 h2 (hpos a b ip jp ha hb h1 h2)
    · unfold PairEmpty
      refine forall_congr' fun ip => forall_congr' fun jp => forall_congr' fun h1 => forall_congr' fun h2 => ?_
      rw [pairCC_eq (hm a ha) (hm b hb) h1 h2]
  · simp only [h, if_false]
    exact ⟨fun ip jp h1 h2 => pairTbl_entry ha hb hm hpos h1 h2, pairTbl_empty ha hb hm⟩

theorem eri_pairData (hm : ∀ t, t < nbas → MaxCoeff (B t) (m t)) (hp : PosBasis B nbas) (H : InBasis B nbas i j k l) :
    PairData L (basisCall B envCut omega i j k l) (pairCut B nbas envCut) (m i) (m j) (m k) (m l)
      (vIJ L eriInt B nbas envCut omega i j k l) (vKL L eriInt B nbas envCut omega i j k l) :=
  ⟨(src_entry hm hp H.hi H.hj rfl).1, (src_entry hm hp H.hk H.hl rfl).1⟩

theorem eri_eIJ (hm : ∀ t, t < nbas → MaxCoeff (B t) (m t)) (hp : PosBasis B nbas) (H : InBasis B nbas i j k l) :
    eIJ L eriInt B nbas envCut omega i j k l ↔ ∀ ip jp, ip < (B i).nprim → jp < (B j).nprim →
      ¬ estIJ L (basisCall B envCut omega i j k l) (m i) (m j) ip jp < pairCut B nbas envCut :=
  (src_entry hm hp H.hi H.hj rfl).2

theorem eri_eKL (hm : ∀ t, t < nbas → MaxCoeff (B t) (m t)) (hp : PosBasis B nbas) (H : InBasis B nbas i j k l) :
    eKL L eriInt B nbas envCut omega i j k l ↔ ∀ kp lp, kp < (B k).nprim → lp < (B l).nprim →
      ¬ estKLo L (basisCall B envCut omega i j k l) (m k) (m l) kp lp < pairCut B nbas envCut :=
  (src_entry hm hp H.hk H.hl rfl).2

theorem eri_evalAll {s : Call2 ℝ} (hp : PosExp s) (hR : RootsOK R s) : EvalAll R realK eriInt s :=
  fun _ _ => ⟨_, _, eri_evalP hp hR⟩

/-- **C44** with an optimizer, int2e_cart: each element is, up to the normalisation of s and p functions, the contraction of
the repulsion integrals of the primitive quartets that survive the screening of this path. -/
theorem C44_with_optimizer (Q : Optim eriInt L B nbas envCut omega) (A : CartMem4 eriInt (basisCall B envCut omega i j k l))
    (W : CallsWith Q A) (H : InBasis B nbas i j k l) (hL : L.exp = Real.exp) (hm : ∀ t, t < nbas → MaxCoeff (B t) (m t))
    (hp : PosBasis B nbas) (hR : RootsOK R (basisCall B envCut omega i j k l)) :
    ∃ has h', CartEndsO Q A R realK has h' ∧ Q.Intact h' ∧
      ∀ ic jc kc lc a b c d, ic < (B i).nctr → jc < (B j).nctr → kc < (B k).nctr → lc < (B l).nctr →
        a < ncart (B i).l → b < ncart (B j).l → c < ncart (B k).l → d < ncart (B l).l →
        A.elem h' 0 ic a jc b kc c lc d = .val (spNorm (B i).l * spNorm (B j).l * spNorm (B k).l * spNorm (B l).l *
          contract4 (B i).nprim (B j).nprim (B k).nprim (B l).nprim (B i).c (B j).c (B k).c (B l).c (fun ip jp kp lp =>
            open Classical in if KeptO L (basisCall B envCut omega i j k l) (pairCut B nbas envCut) (m i) (m j) (m k) (m l)
                ip jp kp lp then
              repulsion (interaction omega)
                (fun r => gto ((B i).a ip) (centre (B i)) (powers (B i).l a) r * gto ((B j).a jp) (centre (B j)) (powers (B j).l b) r)
                (fun r => gto ((B k).a kp) (centre (B k)) (powers (B k).l c) r * gto ((B l).a lp) (centre (B l)) (powers (B l).l d) r)
            else 0) ic jc kc lc) := by
  obtain ⟨has, h', hr, hv, _, F, _⟩ := opt_cart Q A W H (le_refl 1) (eri_evalP (hp.posExp H) hR)
  refine ⟨has, h', hr, intact_of_frame W F, fun ic jc kc lc a b c d a2 a3 a4 a5 a6 a7 a8 a9 => ?_⟩
  refine (hv 0 ic jc kc lc a b c d Nat.zero_lt_one a2 a3 a4 a5 a6 a7 a8 a9).trans ?_
  exact congrArg Cell.val (eri_expectedV hL (hp.posExp H) (eri_pairData hm hp H) a6 a7 a8 a9)

/-- the screening with and without optimizer keeps the same primitive quartets -/
def SameKept (L : MathLib ℝ) (B : Nat → PShell ℝ) (nbas : Nat) (envCut omega : ℝ) (m : Nat → Nat → ℝ) (i j k l : Nat) : Prop :=
  ∀ ip jp kp lp, ip < (B i).nprim → jp < (B j).nprim → kp < (B k).nprim → lp < (B l).nprim →
    (Kept4 L (basisCall B envCut omega i j k l) (m i) (m j) (m k) (m l) ip jp kp lp ↔
      KeptO L (basisCall B envCut omega i j k l) (pairCut B nbas envCut) (m i) (m j) (m k) (m l) ip jp kp lp)

theorem same_val (hL : L.exp = Real.exp) (H : InBasis B nbas i j k l) (hm : ∀ t, t < nbas → MaxCoeff (B t) (m t))
    (hp : PosBasis B nbas) (hS : SameKept L B nbas envCut omega m i j k l) {ic jc kc lc a b c d : Nat}
    (a6 : a < ncart (B i).l) (a7 : b < ncart (B j).l) (a8 : c < ncart (B k).l) (a9 : d < ncart (B l).l) :
    expected (quartetV R realK eriInt (basisCall B envCut omega i j k l) (vIJ L eriInt B nbas envCut omega i j k l)
        (vKL L eriInt B nbas envCut omega i j k l))
      (keepV (basisCall B envCut omega i j k l) (vIJ L eriInt B nbas envCut omega i j k l) (vKL L eriInt B nbas envCut omega i j k l))
      (wV (basisCall B envCut omega i j k l) (vIJ L eriInt B nbas envCut omega i j k l) (vKL L eriInt B nbas envCut omega i j k l))
      0 ic jc kc lc (pos4c (ncar (Call2.ls (basisCall B envCut omega i j k l))) a b c d) =
    loopVal2 R realK L eriInt (basisCall B envCut omega i j k l)
      (fun ip jp kp lp => open Classical in decide (G2.kept ((basisCall B envCut omega i j k l).g2 eriInt L ip jp kp lp)
        ((basisCall B envCut omega i j k l).eijcutoff eriInt L kp lp -
          pairVal L ((basisCall B envCut omega i j k l).pairArgs eriInt) ip jp 4)))
      (fun ip jp kp lp n => eriW ((basisCall B envCut omega i j k l).g2 eriInt L ip jp kp lp)
        (fun c => i4 ((basisCall B envCut omega i j k l).env eriInt) c n) (fun c => j4 ((basisCall B envCut omega i j k l).env eriInt) c n)
        (fun c => k4 ((basisCall B envCut omega i j k l).env eriInt) c n) (fun c => l4 ((basisCall B envCut omega i j k l).env eriInt) c n))
      0 ic jc kc lc (pos4c (ncar (Call2.ls (basisCall B envCut omega i j k l))) a b c d) := by
  refine (eri_expectedV (R := R) hL (hp.posExp H) (eri_pairData hm hp H) a6 a7 a8 a9).trans
    (Eq.trans ?_ (eri_loopVal (R := R) hL (hm i H.hi) (hm j H.hj) (hm k H.hk) (hm l H.hl) (hp.posExp H) a6 a7 a8 a9).symm)
  congr 1
  unfold contract4
  refine Finset.sum_congr rfl fun lp b1 => Finset.sum_congr rfl fun kp b2 => Finset.sum_congr rfl fun jp b3 =>
    Finset.sum_congr rfl fun ip b4 => ?_
  rw [Finset.mem_range] at b1 b2 b3 b4
  have := hS ip jp kp lp b4 b3 b2 b1
  dsimp only
  by_cases hk : Kept4 L (basisCall B envCut omega i j k l) (m i) (m j) (m k) (m l) ip jp kp lp
  · rw [if_pos hk, if_pos (this.1 hk)]
  · rw [if_neg hk, if_neg (fun x => hk (this.2 x))]

/-- **C11**, Cartesian output: whenever the two screening procedures keep the same primitive quartets the two blocks are
equal, for every basis, every combination of its shells, every interaction and every content of memory. -/
theorem C11_same_kept_cart_partial (Q : Optim eriInt L B nbas envCut omega) (A A' : CartMem4 eriInt (basisCall B envCut omega i j k l))
    (W : CallsWith Q A') (H : InBasis B nbas i j k l) (hL : L.exp = Real.exp) (hm : ∀ t, t < nbas → MaxCoeff (B t) (m t))
    (hp : PosBasis B nbas) (hR : RootsOK R (basisCall B envCut omega i j k l)) (hS : SameKept L B nbas envCut omega m i j k l) :
    ∃ ra ha rb hb, CartEnds4 A R realK L ra ha ∧ CartEndsO Q A' R realK rb hb ∧ Q.Intact hb ∧
      ∀ ic jc kc lc a b c d, ic < (B i).nctr → jc < (B j).nctr → kc < (B k).nctr → lc < (B l).nctr →
        a < ncart (B i).l → b < ncart (B j).l → c < ncart (B k).l → d < ncart (B l).l →
        ∃ v, A.elem ha 0 ic a jc b kc c lc d = .val v ∧ A'.elem hb 0 ic a jc b kc c lc d = .val v := by
  obtain ⟨ra, ha, r1, v1, _⟩ := drv2e_cart A.M A.hsize A.hs A.O (eri_eval (L := L) (hp.posExp H) hR) (le_refl 1) (H.ls envCut omega)
  obtain ⟨rb, hb, r2, v2, _, F, _⟩ := opt_cart Q A' W H (le_refl 1) (eri_evalP (hp.posExp H) hR)
  refine ⟨ra, ha, rb, hb, r1, r2, intact_of_frame W F, fun ic jc kc lc a b c d a2 a3 a4 a5 a6 a7 a8 a9 =>
    ⟨_, v1 0 ic jc kc lc a b c d Nat.zero_lt_one a2 a3 a4 a5 a6 a7 a8 a9, ?_⟩⟩
  exact (v2 0 ic jc kc lc a b c d Nat.zero_lt_one a2 a3 a4 a5 a6 a7 a8 a9).trans
    (congrArg Cell.val (same_val hL H hm hp hS a6 a7 a8 a9))

/-- **C11**, spherical output. -/
theorem C11_same_kept_sph_partial (Q : Optim eriInt L B nbas envCut omega) (A A' : SphMem4 eriInt (basisCall B envCut omega i j k l))
    (W : CallsWith Q A'.toMem4) (H : InBasis B nbas i j k l) (hL : L.exp = Real.exp) (hm : ∀ t, t < nbas → MaxCoeff (B t) (m t))
    (hp : PosBasis B nbas) (hR : RootsOK R (basisCall B envCut omega i j k l)) (hS : SameKept L B nbas envCut omega m i j k l) :
    ∃ ra ha rb hb, SphEnds4 A R realK L ra ha ∧ SphEndsO Q A' R realK rb hb ∧ Q.Intact hb ∧
      ∀ ic jc kc lc a b c d, ic < (B i).nctr → jc < (B j).nctr → kc < (B k).nctr → lc < (B l).nctr →
        a < (B i).l*2+1 → b < (B j).l*2+1 → c < (B k).l*2+1 → d < (B l).l*2+1 →
        ∃ v, A.elem ha 0 ic a jc b kc c lc d = .val v ∧ A'.elem hb 0 ic a jc b kc c lc d = .val v := by
  obtain ⟨ra, ha, r1, v1, _⟩ := drv2e_sph A.M A.hsize A.hs A.O A.hT A.htb A.hto (eri_eval (L := L) (hp.posExp H) hR) (le_refl 1)
    (H.ls envCut omega)
  obtain ⟨rb, hb, r2, v2, _, F, _⟩ := opt_sph Q A' W H (le_refl 1) (eri_evalP (hp.posExp H) hR)
  refine ⟨ra, ha, rb, hb, r1, r2, intact_of_frame W F, fun ic jc kc lc a b c d a2 a3 a4 a5 a6 a7 a8 a9 =>
    ⟨_, v1 0 ic jc kc lc a b c d Nat.zero_lt_one a2 a3 a4 a5 a6 a7 a8 a9, ?_⟩⟩
  refine (v2 0 ic jc kc lc a b c d Nat.zero_lt_one a2 a3 a4 a5 a6 a7 a8 a9).trans (congrArg Cell.val ?_)
  unfold sphGen sphVal2
  refine Finset.sum_congr rfl fun x b1 => Finset.sum_congr rfl fun y b2 => Finset.sum_congr rfl fun z b3 =>
    Finset.sum_congr rfl fun u b4 => ?_
  rw [Finset.mem_range] at b1 b2 b3 b4
  exact congrArg₂ _ rfl (same_val hL H hm hp hS b1 b2 b3 b4)

/-- No primitive pair of the four shells has its size estimate in the gap between the cutoff of the pair data and the cutoff
of the loops.  The gap is the single number 60 by default (`env[PTR_EXPCUTOFF] = 0`), and at most 1 wide. -/
structure NoGap (L : MathLib ℝ) (B : Nat → PShell ℝ) (nbas : Nat) (envCut omega : ℝ) (m : Nat → Nat → ℝ) (i j k l : Nat) : Prop where
  ij : ∀ ip jp, ip < (B i).nprim → jp < (B j).nprim →
    est L (B i) (B j) (m i) (m j) (rr2 (B i).r (B j).r) omega ((B i).l + (B j).l) ip jp < pairCut B nbas envCut ∨
    cutoff2e envCut < est L (B i) (B j) (m i) (m j) (rr2 (B i).r (B j).r) omega ((B i).l + (B j).l) ip jp
  kl : ∀ kp lp, kp < (B k).nprim → lp < (B l).nprim →
    est L (B k) (B l) (m k) (m l) (rr2 (B k).r (B l).r) omega ((B k).l + (B l).l) kp lp < pairCut B nbas envCut ∨
    cutoff2e envCut < est L (B k) (B l) (m k) (m l) (rr2 (B k).r (B l).r) omega ((B k).l + (B l).l) kp lp

theorem cutoff_noSR {s : Call2 ℝ} (ho : ¬ s.omega < 0) : s.cutoff eriInt L = cutoff2e s.envCut := by
  unfold Call2.cutoff
  simp [ho]

theorem estKL_noSR {s : Call2 ℝ} (ho : ¬ s.omega < 0) (mk ml : Nat → ℝ) (kp lp : Nat) :
    estKL L s mk ml kp lp = estKLo L s mk ml kp lp := by
  have e : s.logRRkl eriInt L = logBound L.log L.sqrt (s.sk.a (s.sk.nprim-1) + s.sl.a (s.sl.nprim-1)) (s.sk.l + s.sl.l)
      (rr2 s.sk.r s.sl.r) s.omega := by
    unfold Call2.logRRkl logBound
    have h1 : (s.env (eriInt : Int2e ℝ)).lk_ceil = s.sk.l := rfl
    have h2 : (s.env (eriInt : Int2e ℝ)).ll_ceil = s.sl.l := rfl
    dsimp only
    rw [if_neg ho, h1, h2]
    by_cases h : s.sk.l + s.sl.l = 0
    · rw [if_neg (by omega), if_pos h, add_zero]
    · rw [if_pos (by omega), if_neg h, if_neg ho]
  unfold estKL estKLo est pairEstimate
  rw [e]

theorem sameKept_of (ho : 0 ≤ omega) (G : NoGap L B nbas envCut omega m i j k l) : SameKept L B nbas envCut omega m i j k l := by
  intro ip jp kp lp h1 h2 h3 h4
  have ho' : ¬ (basisCall B envCut omega i j k l).omega < 0 := not_lt.2 ho
  have hc := pairCut_le B nbas envCut
  have ec := cutoff_noSR (L := L) ho'
  have ek := estKL_noSR (L := L) ho' (m k) (m l) kp lp
  have g1 := G.ij ip jp h1 h2
  have g2 := G.kl kp lp h3 h4
  constructor
  · rintro ⟨a, b, c, _⟩
    rw [ec, ek] at b c
    have a' : estIJ L (basisCall B envCut omega i j k l) (m i) (m j) ip jp < pairCut B nbas envCut :=
      g1.resolve_right (fun x => absurd a (not_lt.2 (le_of_lt x)))
    exact ⟨a', g2.resolve_right (fun x => absurd b (not_le.2 x)), b, c, fun x => absurd x ho'⟩
  · rintro ⟨a, b, c, d, _⟩
    refine ⟨lt_of_lt_of_le a hc, ?_, ?_, fun x => absurd x ho'⟩
    · rw [ec, ek]; exact c
    · rw [ec, ek]; exact d

open Classical in
/-- which quartets are evaluated without an optimizer -/
theorem surv_nopt {s : Call2 ℝ} {mi mj mk ml : Nat → ℝ} {ip jp kp lp : Nat} (hL : L.exp = Real.exp) (hi : MaxCoeff s.si mi)
    (hj : MaxCoeff s.sj mj) (hk : MaxCoeff s.sk mk) (hl : MaxCoeff s.sl ml) (hp : PosExp s) (hip : ip < s.si.nprim)
    (hjp : jp < s.sj.nprim) (hkp : kp < s.sk.nprim) (hlp : lp < s.sl.nprim) (ho : ¬ s.omega < 0) (A : Arrays2e) :
    survives (s.quartet eriInt R realK L A) (fun ip jp kp lp => decide (G2.kept (s.g2 eriInt L ip jp kp lp)
        (s.eijcutoff eriInt L kp lp - pairVal L (s.pairArgs eriInt) ip jp 4))) ip jp kp lp = true ↔
      (estKLo L s mk ml kp lp ≤ cutoff2e s.envCut ∧ estIJ L s mi mj ip jp ≤ cutoff2e s.envCut - estKLo L s mk ml kp lp) := by
  obtain ⟨p4, _, _⟩ := pair2 hL hi hj hip hjp (hp.ij ip jp hip hjp)
  have ckl := ccekl_eq (L := L) hk hl hkp hlp
  have kp' : G2.kept (s.g2 eriInt L ip jp kp lp) (s.eijcutoff eriInt L kp lp - pairVal L (s.pairArgs eriInt) ip jp 4) :=
    fun x => ho x.1
  unfold survives
  show (!decide (s.ccekl eriInt L kp lp > s.cutoff eriInt L) &&
    (!decide (pairVal L (s.pairArgs eriInt) ip jp 4 > s.eijcutoff eriInt L kp lp) &&
      decide (G2.kept _ (s.eijcutoff eriInt L kp lp - pairVal L (s.pairArgs eriInt) ip jp 4)))) = true ↔ _
  rw [decide_eq_true kp']
  unfold Call2.eijcutoff
  rw [p4, ckl, cutoff_noSR ho, estKL_noSR ho]
  simp only [Bool.and_eq_true, Bool.not_eq_true', decide_eq_false_iff_not, not_lt, gt_iff_lt, and_true]

/-- which quartets are evaluated with an optimizer -/
theorem surv_opt {s : Call2 ℝ} {cutP : ℝ} {mi mj mk ml : Nat → ℝ} {Vij Vkl : Nat → Nat → Nat → ℝ} {ip jp kp lp : Nat}
    (D : PairData L s cutP mi mj mk ml Vij Vkl) (hip : ip < s.si.nprim)
    (hjp : jp < s.sj.nprim) (hkp : kp < s.sk.nprim) (hlp : lp < s.sl.nprim) (ho : ¬ s.omega < 0) :
    survives (quartetV R realK eriInt s Vij Vkl) (keepV s Vij Vkl) ip jp kp lp = true ↔
      (estKLo L s mk ml kp lp ≤ cutoff2e s.envCut ∧ estIJ L s mi mj ip jp ≤ cutoff2e s.envCut - estKLo L s mk ml kp lp) := by
  classical
  have p4 : pairF s.si.nprim Vij (5*(jp*s.si.nprim+ip)+4) = estIJ L s mi mj ip jp :=
    (pairF_eq hip (by omega)).trans (D.ij ip jp hip hjp).1
  have q4 : pairF s.sk.nprim Vkl (5*(lp*s.sk.nprim+kp)+4) = estKLo L s mk ml kp lp :=
    (pairF_eq hkp (by omega)).trans (D.kl kp lp hkp hlp).1
  have hk : keepV s Vij Vkl ip jp kp lp = true := by
    unfold keepV
    exact decide_eq_true (fun x => ho x.1)
  unfold survives
  show (!decide (pairF s.sk.nprim Vkl (5*(lp*s.sk.nprim+kp)+4) > cutoff2e s.envCut) &&
    (!decide (pairF s.si.nprim Vij (5*(jp*s.si.nprim+ip)+4) > cutoff2e s.envCut - pairF s.sk.nprim Vkl (5*(lp*s.sk.nprim+kp)+4)) &&
      keepV s Vij Vkl ip jp kp lp)) = true ↔ _
  rw [p4, q4, hk]
  simp only [Bool.and_eq_true, Bool.not_eq_true', decide_eq_false_iff_not, not_lt, gt_iff_lt, and_true]

open Classical in
theorem same_ret (hL : L.exp = Real.exp) (H : InBasis B nbas i j k l) (hm : ∀ t, t < nbas → MaxCoeff (B t) (m t))
    (hp : PosBasis B nbas) (ho : 0 ≤ omega) (G : NoGap L B nbas envCut omega m i j k l) {O : Opt2} {ra rb : Bool} {St : Prop}
    (h1 : ra = true ↔ loopAny2 R realK L eriInt (basisCall B envCut omega i j k l)
      (fun ip jp kp lp => decide (G2.kept ((basisCall B envCut omega i j k l).g2 eriInt L ip jp kp lp)
        ((basisCall B envCut omega i j k l).eijcutoff eriInt L kp lp -
          pairVal L ((basisCall B envCut omega i j k l).pairArgs eriInt) ip jp 4))))
    (h2 : RetO R realK eriInt (basisCall B envCut omega i j k l) O i j (vIJ L eriInt B nbas envCut omega i j k l)
      (vKL L eriInt B nbas envCut omega i j k l) (eIJ L eriInt B nbas envCut omega i j k l)
      (eKL L eriInt B nbas envCut omega i j k l)
      (keepV (basisCall B envCut omega i j k l) (vIJ L eriInt B nbas envCut omega i j k l) (vKL L eriInt B nbas envCut omega i j k l))
      St rb) :
    ra = rb ∨ (i = 0 ∧ j = 0 ∧ ∀ ip jp, ip < (B i).nprim → jp < (B j).nprim →
      cutoff2e envCut < est L (B i) (B j) (m i) (m j) (rr2 (B i).r (B j).r) omega ((B i).l + (B j).l) ip jp) := by
  have ho' : ¬ (basisCall B envCut omega i j k l).omega < 0 := not_lt.2 ho
  have hc := pairCut_le B nbas envCut
  have D := eri_pairData (L := L) (envCut := envCut) (omega := omega) hm hp H
  have sv : ∀ {ip jp kp lp}, ip < (B i).nprim → jp < (B j).nprim → kp < (B k).nprim → lp < (B l).nprim → ∀ A,
      (survives ((basisCall B envCut omega i j k l).quartet eriInt R realK L A) _ ip jp kp lp = true ↔
      survives (quartetV R realK eriInt (basisCall B envCut omega i j k l) _ _) _ ip jp kp lp = true) :=
    fun a b c d A => (surv_nopt hL (hm i H.hi) (hm j H.hj) (hm k H.hk) (hm l H.hl) (hp.posExp H) a b c d ho' A).trans
      (surv_opt D a b c d ho').symm
  have hPE : PairEmpty L ((basisCall B envCut omega i j k l).pairArgs eriInt) ↔ ∀ ip jp, ip < (B i).nprim → jp < (B j).nprim →
      ¬ est L (B i) (B j) (m i) (m j) (rr2 (B i).r (B j).r) omega ((B i).l + (B j).l) ip jp < cutoff2e envCut := by
    unfold PairEmpty
    refine forall_congr' fun ip => forall_congr' fun jp => forall_congr' fun a => forall_congr' fun b => ?_
    rw [pairCC_eq (p := (basisCall B envCut omega i j k l).pairArgs eriInt) (hm i H.hi) (hm j H.hj) a b]
    exact Iff.rfl
  by_cases hE : eIJ L eriInt B nbas envCut omega i j k l
  · have hE' := (eri_eIJ hm hp H).1 hE
    have big : ∀ ip jp, ip < (B i).nprim → jp < (B j).nprim →
        cutoff2e envCut < est L (B i) (B j) (m i) (m j) (rr2 (B i).r (B j).r) omega ((B i).l + (B j).l) ip jp :=
      fun ip jp a b => (G.ij ip jp a b).resolve_left (hE' ip jp a b)
    have hra : ra = false := by
      cases ra with
      | false => rfl
      | true => exact absurd (hPE.2 fun ip jp a b => not_lt.2 (le_of_lt (big ip jp a b))) (h1.1 rfl).1
    cases rb with
    | false => exact Or.inl hra
    | true => exact Or.inr ⟨(h2.2.2.1 hE rfl).2.1, (h2.2.2.1 hE rfl).2.2, big⟩
  · left
    have hPE' : ¬ PairEmpty L ((basisCall B envCut omega i j k l).pairArgs eriInt) := by
      intro x
      refine hE ((eri_eIJ hm hp H).2 fun ip jp a b y => hPE.1 x ip jp a b (lt_of_lt_of_le y hc))
    have any : ra = true ↔ anyV R realK eriInt (basisCall B envCut omega i j k l) (vIJ L eriInt B nbas envCut omega i j k l)
        (vKL L eriInt B nbas envCut omega i j k l) (keepV (basisCall B envCut omega i j k l)
          (vIJ L eriInt B nbas envCut omega i j k l) (vKL L eriInt B nbas envCut omega i j k l)) := by
      rw [h1]
      constructor
      · rintro ⟨_, ip, jp, kp, lp, a, b, c, d, e⟩
        exact ⟨ip, jp, kp, lp, a, b, c, d, (sv a b c d _).1 e⟩
      · rintro ⟨ip, jp, kp, lp, a, b, c, d, e⟩
        exact ⟨hPE', ip, jp, kp, lp, a, b, c, d, (sv a b c d _).2 e⟩
    rw [Bool.eq_iff_iff, any]
    refine ⟨fun x => ?_, h2.1⟩
    rcases h2.2.1 x with y | y | y
    · exact y
    · exact absurd y hE
    · exfalso
      obtain ⟨ip, jp, kp, lp, a, b, c, d, e⟩ := x
      have g := (surv_opt (R := R) D a b c d ho').1 e
      have := (G.kl kp lp c d).resolve_left ((eri_eKL hm hp H).1 y kp lp c d)
      exact absurd g.1 (not_le.2 this)

/-- **C11**, Cartesian output, full and long-range interaction: the block computed with an optimizer equals the one computed
without, and the same value is returned, provided that no primitive pair has its estimate in the gap between the two cutoffs.
The return values may differ only for the first shell of the basis with itself, when all its primitives are
negligible; the block is then zero in both cases.

Missing for the full property: it is false in the gap (`C11_differs`), and for the short-range interaction the two
paths screen differently (`C11_same_kept_cart_partial` applies when they happen to keep the same primitives). -/
theorem C11_cart_partial (Q : Optim eriInt L B nbas envCut omega) (A A' : CartMem4 eriInt (basisCall B envCut omega i j k l))
    (W : CallsWith Q A') (H : InBasis B nbas i j k l) (hL : L.exp = Real.exp) (hm : ∀ t, t < nbas → MaxCoeff (B t) (m t))
    (hp : PosBasis B nbas) (hR : RootsOK R (basisCall B envCut omega i j k l)) (ho : 0 ≤ omega)
    (G : NoGap L B nbas envCut omega m i j k l) :
    ∃ ra ha rb hb, CartEnds4 A R realK L ra ha ∧ CartEndsO Q A' R realK rb hb ∧ Q.Intact hb ∧
      (∀ ic jc kc lc a b c d, ic < (B i).nctr → jc < (B j).nctr → kc < (B k).nctr → lc < (B l).nctr →
        a < ncart (B i).l → b < ncart (B j).l → c < ncart (B k).l → d < ncart (B l).l →
        ∃ v, A.elem ha 0 ic a jc b kc c lc d = .val v ∧ A'.elem hb 0 ic a jc b kc c lc d = .val v) ∧
      (ra = rb ∨ (i = 0 ∧ j = 0 ∧ ∀ ip jp, ip < (B i).nprim → jp < (B j).nprim →
        cutoff2e envCut < est L (B i) (B j) (m i) (m j) (rr2 (B i).r (B j).r) omega ((B i).l + (B j).l) ip jp)) := by
  obtain ⟨ra, ha, rb, hb, e1, e2, e3, e4⟩ := C11_same_kept_cart_partial Q A A' W H hL hm hp hR (sameKept_of ho G)
  refine ⟨ra, ha, rb, hb, e1, e2, e3, e4, ?_⟩
  obtain ⟨ra', ha', r1, _, _, _, q1⟩ := drv2e_cart A.M A.hsize A.hs A.O (eri_eval (L := L) (hp.posExp H) hR) (le_refl 1)
    (H.ls envCut omega)
  obtain ⟨rb', hb', r2, _, _, _, q2⟩ := opt_cart Q A' W H (le_refl 1) (eri_evalP (hp.posExp H) hR)
  obtain ⟨rfl, _⟩ : ra = ra' ∧ ha = ha' := by
    have := e1.symm.trans r1; simpa using this
  obtain ⟨rfl, _⟩ : rb = rb' ∧ hb = hb' := by
    have := e2.symm.trans r2; simpa using this
  exact same_ret hL H hm hp ho G q1 q2

/-- **C11**, spherical output, full and long-range interaction; see `C11_cart_partial`. -/
theorem C11_sph_partial (Q : Optim eriInt L B nbas envCut omega) (A A' : SphMem4 eriInt (basisCall B envCut omega i j k l))
    (W : CallsWith Q A'.toMem4) (H : InBasis B nbas i j k l) (hL : L.exp = Real.exp) (hm : ∀ t, t < nbas → MaxCoeff (B t) (m t))
    (hp : PosBasis B nbas) (hR : RootsOK R (basisCall B envCut omega i j k l)) (ho : 0 ≤ omega)
    (G : NoGap L B nbas envCut omega m i j k l) :
    ∃ ra ha rb hb, SphEnds4 A R realK L ra ha ∧ SphEndsO Q A' R realK rb hb ∧ Q.Intact hb ∧
      (∀ ic jc kc lc a b c d, ic < (B i).nctr → jc < (B j).nctr → kc < (B k).nctr → lc < (B l).nctr →
        a < (B i).l*2+1 → b < (B j).l*2+1 → c < (B k).l*2+1 → d < (B l).l*2+1 →
        ∃ v, A.elem ha 0 ic a jc b kc c lc d = .val v ∧ A'.elem hb 0 ic a jc b kc c lc d = .val v) ∧
      (ra = rb ∨ (i = 0 ∧ j = 0 ∧ ∀ ip jp, ip < (B i).nprim → jp < (B j).nprim →
        cutoff2e envCut < est L (B i) (B j) (m i) (m j) (rr2 (B i).r (B j).r) omega ((B i).l + (B j).l) ip jp)) := by
  obtain ⟨ra, ha, rb, hb, e1, e2, e3, e4⟩ := C11_same_kept_sph_partial Q A A' W H hL hm hp hR (sameKept_of ho G)
  refine ⟨ra, ha, rb, hb, e1, e2, e3, e4, ?_⟩
  obtain ⟨ra', ha', r1, _, _, _, q1⟩ := drv2e_sph A.M A.hsize A.hs A.O A.hT A.htb A.hto (eri_eval (L := L) (hp.posExp H) hR)
    (le_refl 1) (H.ls envCut omega)
  obtain ⟨rb', hb', r2, _, _, _, q2⟩ := opt_sph Q A' W H (le_refl 1) (eri_evalP (hp.posExp H) hR)
  obtain ⟨rfl, _⟩ : ra = ra' ∧ ha = ha' := by
    have := e1.symm.trans r1; simpa using this
  obtain ⟨rfl, _⟩ : rb = rb' ∧ hb = hb' := by
    have := e2.symm.trans r2; simpa using this
  exact same_ret hL H hm hp ho G q1 q2
end

end Verif.Props
