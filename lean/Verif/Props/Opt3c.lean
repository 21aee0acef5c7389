import Verif.Lemmas.Drv3cOpt
import Verif.Props.Eri3
import Verif.Props.Opt2eDemo

/-!
C11 — a three-centre integral evaluated with an optimizer equals the one evaluated with a NULL optimizer.
C16 — the queried cache size suffices, with an optimizer (three-centre two-electron integrals).
C18 — result and overwriting, with an optimizer (three-centre two-electron integrals).
C45 — values of three-centre electron repulsion integrals, with an optimizer.
-/
namespace Verif.Props
open Verif Verif.Model Verif.Prog Verif.Lemmas Verif.Spec

section
variable {α : Type} [Field α] [LinearOrder α]

/-- An optimizer for three-centre integrals, built for a basis of `nbas` shells: where its arrays are, the memory before and
after the call of the constructor. -/
structure Optim3 (X : Int2e α) (L : MathLib α) (B : Nat → PShell α) (nbas : Nat) (envCut omega : α) where
  P : OptPtrs
  loc : Ptr
  h0 : Heap α
  M : OptMem3 B nbas P loc h0
  O : Opt2
  h1 : Heap α
  built : run (optimizer3c2e X L B nbas envCut omega P loc) h0 = some (O, h1)

variable {R : Rys2 α} {K : Consts α} {L : MathLib α} {X : Int2e α} {B : Nat → PShell α} {nbas : Nat} {envCut omega : α}
  {s : Call3 α} {d : Nat → Nat}

/-- The optimizer's arrays hold in memory `h` what the constructor left in them. -/
def Optim3.Intact (Q : Optim3 X L B nbas envCut omega) (h : Heap α) : Prop :=
  ∀ q : Ptr, ¬ Apart Q.P q.buf → h.D q = Q.h1.D q ∧ h.I q = Q.h1.I q

/-- The call may use the optimizer: its arrays are intact, and the cache, the output array and local variables are elsewhere. -/
structure CallsWith3 (Q : Optim3 X L B nbas envCut omega) (A : Mem3 X s d) : Prop where
  intact : Q.Intact A.h
  cache : Apart Q.P A.buf
  out : Apart Q.P A.out.buf
  empty : Apart Q.P A.empty.buf
  fl : Apart Q.P A.fl.buf
  loc : Apart Q.P A.loc.buf
  counts : Apart Q.P A.counts.buf
  flloc : A.fl.buf ≠ A.loc.buf

/-- the Cartesian call with the optimizer returns `has` and ends with memory `h'` -/
def CartEnds3O (Q : Optim3 X L B nbas envCut omega) {i j k : Nat} (A : CartMem3 X (basisCall3 B envCut omega i j k))
    (R : Rys2 α) (K : Consts α) (has : Bool) (h' : Heap α) : Prop :=
  run (drv3c2eOpt X (basisCall3 B envCut omega i j k) R K L Q.O i j A.fpd (fun _ _ => pure)
    (ncar (Call3.ls (basisCall3 B envCut omega i j k))) A.out A.dims A.buf 0 A.empty A.fl A.loc A.counts) A.h = some (has, h')

/-- the spherical call with the optimizer returns `has` and ends with memory `h'` -/
def SphEnds3O (Q : Optim3 X L B nbas envCut omega) {i j k : Nat} (A : SphMem3 X (basisCall3 B envCut omega i j k))
    (R : Rys2 α) (K : Consts α) (has : Bool) (h' : Heap α) : Prop :=
  run (drv3c2eOpt X (basisCall3 B envCut omega i j k) R K L Q.O i j A.fpd (sphTrans3c A.tab A.fpd (B i).l (B j).l (B k).l)
    (nsph (Call3.ls (basisCall3 B envCut omega i j k))) A.out A.dims A.buf 0 A.empty A.fl A.loc A.counts) A.h = some (has, h')

/-- **C11**, construction for three-centre integrals: given the memory the constructor asks for, it completes without undefined
behaviour for every basis (with at least one primitive) and every integral type, and changes no other memory. -/
theorem C11_three_centre_build {P : OptPtrs} {loc : Ptr} {h0 : Heap α} (M : OptMem3 B nbas P loc h0) (ht : 0 < totPrim B nbas)
    (hl : ∀ t, t < nbas → (B t).l ≤ 15) :
    ∃ Q : Optim3 X L B nbas envCut omega, Q.P = P ∧ Q.h0 = h0 ∧
      (∀ q : Ptr, q.buf ≠ P.ppool.buf → Q.h1.D q = h0.D q) ∧
      (∀ q : Ptr, Apart P q.buf → q.buf ≠ loc.buf → Q.h1.I q = h0.I q) := by
  obtain ⟨O, h1, hr, _, aD, aI, _⟩ := run_of_wp (optimizer3c2e_wp (L := L) (X := X) (envCut := envCut) (omega := omega) M ht hl)
  refine ⟨⟨P, loc, h0, M, O, h1, hr⟩, rfl, rfl, fun q hq => aD q hq, fun q hq hq' => aI q ?_⟩
  unfold Apart at hq
  unfold OptBufI
  simp only [List.mem_cons, List.not_mem_nil, or_false, not_or] at hq ⊢
  tauto

theorem optim3_ok (Q : Optim3 X L B nbas envCut omega) (ht : 0 < totPrim B nbas) (hl : ∀ t, t < nbas → (B t).l ≤ 15) :
    OptOK3 L X B nbas envCut omega Q.O Q.h1 ∧
      Q.O = ⟨nbas, Q.O.pair, Q.P.ctab, Q.P.cpool, Q.P.stab, Q.P.spool, Q.P.ixa, Q.P.ixbuf⟩ ∧
      (Q.O.pair = none ∨ Q.O.pair = some (Q.P.ptab, Q.P.ppool)) := by
  obtain ⟨O, h1, hr, a, _, _, b, c⟩ := run_of_wp (optimizer3c2e_wp (L := L) (X := X) (envCut := envCut) (omega := omega) Q.M ht hl)
  have := hr.symm.trans Q.built
  simp only [Option.some.injEq, Prod.mk.injEq] at this
  obtain ⟨rfl, rfl⟩ := this
  exact ⟨a, b, c⟩

theorem optSep3_of {Q : Optim3 X L B nbas envCut omega} (ht : 0 < totPrim B nbas) (hl : ∀ t, t < nbas → (B t).l ≤ 15) {b : Nat}
    (h : Apart Q.P b) : OptSep Q.O b := by
  obtain ⟨_, hO, hp⟩ := optim3_ok Q ht hl
  unfold Apart at h
  simp only [List.mem_cons, List.not_mem_nil, or_false, not_or] at h
  obtain ⟨h1, h2, h3, h4, h5, h6, h7, h8⟩ := h
  refine ⟨?_, fun t p e => ?_⟩
  · rw [hO]
    exact ⟨Ne.symm h3, Ne.symm h5, Ne.symm h4, Ne.symm h6, Ne.symm h7, Ne.symm h8⟩
  · rcases hp with x | x
    · rw [x] at e; cases e
    · rw [x] at e
      cases e
      exact ⟨Ne.symm h1, Ne.symm h2⟩

theorem Optim3.intact_ok {Q : Optim3 X L B nbas envCut omega} (ht : 0 < totPrim B nbas) (hl : ∀ t, t < nbas → (B t).l ≤ 15)
    {h : Heap α} (H : Q.Intact h) : OptOK3 L X B nbas envCut omega Q.O h := by
  refine (optim3_ok Q ht hl).1.agree (W := fun q => Apart Q.P q.buf) (W' := fun q => Apart Q.P q.buf)
    (fun q hq => (H q hq).1) (fun q hq => (H q hq).2) (fun q hq => optSep3_of ht hl hq) (fun q hq => optSep3_of ht hl hq)

section
variable (L X B nbas envCut omega) (i j k : Nat)
/-- the pair data the loops use -/
def vIJ3 : Nat → Nat → Nat → α := srcV L X B nbas envCut omega ((basisCall3 B envCut omega i j k).pairArgs X) i j
/-- the pair is negligible -/
def eIJ3 : Prop := srcE L X B nbas envCut omega ((basisCall3 B envCut omega i j k).pairArgs X) i j
end

theorem optOK3_at {O : Opt2} {h : Heap α} (A : OptOK3 L X B nbas envCut omega O h) {i j k : Nat} (hi : i < nbas) (hj : j < nbas)
    (hk : k < nbas) :
    OptAt3 L X (basisCall3 B envCut omega i j k) O h i j (vIJ3 L X B nbas envCut omega i j k) (eIJ3 L X B nbas envCut omega i j k) ∧
    EmptyZero3 (basisCall3 B envCut omega i j k) (vIJ3 L X B nbas envCut omega i j k) (eIJ3 L X B nbas envCut omega i j k) := by
  refine ⟨⟨?_, A.tab i hi, A.tab j hj, A.ix i j k hi hj hk⟩, fun hE ip jp a b => ?_⟩
  · unfold PairAt
    cases hO : O.pair with
    | none =>
      have hp := A.none.1 hO
      unfold vIJ3 eIJ3 srcV srcE
      simp only [hp, if_true]
      exact ⟨trivial, trivial⟩
    | some tp =>
      obtain ⟨t, p⟩ := tp
      have hp : ¬ 2048 < totPrim B nbas := fun x => by rw [A.none.2 x] at hO; cases hO
      unfold vIJ3 eIJ3 srcV srcE
      simp only [hp, if_false]
      rw [A.n]
      exact A.pairs t p hO i j hi hj
  · exact srcV_empty rfl rfl hE a b

theorem callsWith3_arg {Q : Optim3 X L B nbas envCut omega} {A : Mem3 X s d} (W : CallsWith3 Q A) (ht : 0 < totPrim B nbas)
    (hl : ∀ t, t < nbas → (B t).l ≤ 15) : OptArg Q.O A.buf A.empty A.fl A.loc :=
  ⟨optSep3_of ht hl W.cache, optSep3_of ht hl W.empty, optSep3_of ht hl W.fl, optSep3_of ht hl W.loc, W.flloc⟩

/-- the integrand evaluates correctly whatever the pair data -/
def EvalAll3 (R : Rys2 α) (K : Consts α) (L : MathLib α) (X : Int2e α) (s : Call3 α) : Prop :=
  ∀ V, ∃ keep w, EvalOK3V R K L X s V keep w

/-- three shells of the basis -/
structure InBasis3 (B : Nat → PShell α) (nbas i j k : Nat) : Prop where
  hi : i < nbas
  hj : j < nbas
  hk : k < nbas
  tall : ∀ t, t < nbas → (B t).l ≤ 15
  some_prim : 0 < totPrim B nbas

theorem InBasis3.ls {i j k : Nat} (H : InBasis3 B nbas i j k) (envCut omega : α) :
    ∀ t, t < 4 → Call3.ls (basisCall3 B envCut omega i j k) t ≤ 15 := by
  intro t ht
  match t, ht with
  | 0, _ => exact H.tall i H.hi
  | 1, _ => exact H.tall j H.hj
  | 2, _ => exact H.tall k H.hk
  | 3, _ => exact Nat.zero_le _

section
variable {i j k : Nat} {keep : Nat → Nat → Nat → Bool} {w : Nat → Nat → Nat → Nat → α}

theorem opt3_loop {Q : Optim3 X L B nbas envCut omega} {A : Mem3 X (basisCall3 B envCut omega i j k) d} (W : CallsWith3 Q A)
    (H : InBasis3 B nbas i j k) (hnc : 1 ≤ X.nComp)
    (hK : EvalOK3V R K L X (basisCall3 B envCut omega i j k) (vIJ3 L X B nbas envCut omega i j k) keep w) :
    wp (loop3c2eOpt X (basisCall3 B envCut omega i j k) R K L Q.O i j A.fpd ⟨A.buf, 0⟩ A.empty A.buf
      (A.fpd * (((basisCall3 B envCut omega i j k).env X).nf * (basisCall3 B envCut omega i j k).nctr * X.nComp)) A.fl A.loc)
      (Post3 X (basisCall3 B envCut omega i j k)
        (expected3 (tripleV R K L X (basisCall3 B envCut omega i j k) (vIJ3 L X B nbas envCut omega i j k)) keep w)
        (RetO3 R K L X (basisCall3 B envCut omega i j k) Q.O i j (vIJ3 L X B nbas envCut omega i j k)
          (eIJ3 L X B nbas envCut omega i j k) keep (Stops3 L X (basisCall3 B envCut omega i j k) Q.O A.h i j)) A.buf 0 A.empty A.fl A.loc (A.h.setI A.empty 1)) (A.h.setI A.empty 1) :=
  drv3c2e_opt A.M A.hsize (callsWith3_arg W H.some_prim H.tall)
    (optOK3_at (Optim3.intact_ok H.some_prim H.tall W.intact) H.hi H.hj H.hk).1
    (optOK3_at (Optim3.intact_ok H.some_prim H.tall W.intact) H.hi H.hj H.hk).2 A.hs.nctr_pos hK hnc (H.ls envCut omega)

def opt3_cart (Q : Optim3 X L B nbas envCut omega) (A : CartMem3 X (basisCall3 B envCut omega i j k)) (W : CallsWith3 Q A)
    (H : InBasis3 B nbas i j k) (hnc : 1 ≤ X.nComp)
    (hK : EvalOK3V R K L X (basisCall3 B envCut omega i j k) (vIJ3 L X B nbas envCut omega i j k) keep w) :=
  drv3c2eBy_cart (loop := fun g c => loop3c2eOpt X (basisCall3 B envCut omega i j k) R K L Q.O i j A.fpd g A.empty A.buf c A.fl A.loc)
    A.M (opt3_loop W H hnc hK) A.hs A.O

def opt3_sph (Q : Optim3 X L B nbas envCut omega) (A : SphMem3 X (basisCall3 B envCut omega i j k)) (W : CallsWith3 Q A.toMem3)
    (H : InBasis3 B nbas i j k) (hnc : 1 ≤ X.nComp)
    (hK : EvalOK3V R K L X (basisCall3 B envCut omega i j k) (vIJ3 L X B nbas envCut omega i j k) keep w) :=
  drv3c2eBy_sph (loop := fun g c => loop3c2eOpt X (basisCall3 B envCut omega i j k) R K L Q.O i j A.fpd g A.empty A.buf c A.fl A.loc)
    A.M (opt3_loop W H hnc hK) A.hsize A.hs A.O A.hT A.htb A.hto (H.ls envCut omega)

theorem intact3_of_frame {Q : Optim3 X L B nbas envCut omega} {A : Mem3 X s d} (W : CallsWith3 Q A) {h' : Heap α} {nd cnt : Nat → Nat}
    {n : Nat} (F : Frame2 A.h h' nd cnt n A.buf A.out A.empty A.fl A.loc A.counts) : Q.Intact h' := by
  intro q hq
  have ne : ∀ {b : Nat}, Apart Q.P b → q.buf ≠ b := fun hb e => hq (e ▸ hb)
  refine ⟨(F.1 q (ne W.cache) (fun m _ e => ne W.out (by rw [e]; rfl))).trans (W.intact q hq).1, ?_⟩
  exact (F.2 q (ne W.cache) (ne W.empty) (ne W.fl) (ne W.loc) (ne W.counts)).trans (W.intact q hq).2

/-- **C16**, three-centre integrals with an optimizer and Cartesian output: a cache of the queried size suffices, and the
optimizer is left as it was, so that it can be used again any number of times. -/
theorem C16_3c2e_opt_cart (Q : Optim3 X L B nbas envCut omega) (A : CartMem3 X (basisCall3 B envCut omega i j k)) (W : CallsWith3 Q A)
    (H : InBasis3 B nbas i j k) (hnc : 1 ≤ X.nComp) (hK : EvalAll3 R K L X (basisCall3 B envCut omega i j k)) :
    ∃ has h', CartEnds3O Q A R K has h' ∧ Q.Intact h' := by
  obtain ⟨keep, w, hK⟩ := hK (vIJ3 L X B nbas envCut omega i j k)
  obtain ⟨has, h', hr, _, _, F, _⟩ := opt3_cart Q A W H hnc hK
  exact ⟨has, h', hr, intact3_of_frame W F⟩

/-- **C16**, three-centre integrals with an optimizer and spherical output. -/
theorem C16_3c2e_opt_sph (Q : Optim3 X L B nbas envCut omega) (A : SphMem3 X (basisCall3 B envCut omega i j k))
    (W : CallsWith3 Q A.toMem3)
    (H : InBasis3 B nbas i j k) (hnc : 1 ≤ X.nComp) (hK : EvalAll3 R K L X (basisCall3 B envCut omega i j k)) :
    ∃ has h', SphEnds3O Q A R K has h' ∧ Q.Intact h' := by
  obtain ⟨keep, w, hK⟩ := hK (vIJ3 L X B nbas envCut omega i j k)
  obtain ⟨has, h', hr, _, _, F, _⟩ := opt3_sph Q A W H hnc hK
  exact ⟨has, h', hr, intact3_of_frame W F⟩

/-- **C16**, inside the primitive loop with an optimizer (see `C16_3c2e_loop`). -/
theorem C16_3c2e_opt_loop {fpd buf : Nat} {empty fl loc : Ptr} (Q : Optim3 X L B nbas envCut omega) (H : InBasis3 B nbas i j k)
    (hK : EvalAll3 R K L X (basisCall3 B envCut omega i j k)) (hf : 0 < fpd) (hnc : 1 ≤ X.nComp)
    (hc : ∀ t, t < nbas → 1 ≤ (B t).nctr)
    (he : empty.buf ≠ buf ∧ empty.buf ≠ fl.buf ∧ empty.buf ≠ loc.buf) (hfl : fl.buf ≠ buf) (hloc : loc.buf ≠ buf)
    (ha : Apart Q.P buf ∧ Apart Q.P empty.buf ∧ Apart Q.P fl.buf ∧ Apart Q.P loc.buf) :
    ∃ isI : Nat → Prop, ∀ h : Heap α, CacheMem h fpd buf (cacheSize3c2e X (basisCall3 B envCut omega i j k)) isI →
      Q.Intact h → h.I empty = .val 1 → (∀ k, k < 4 → h.I (fl + k) ≠ .oob) → (∀ k, k < 12*136 → h.I (loc + k) ≠ .oob) →
      ∃ res h', run (loop3c2eOpt X (basisCall3 B envCut omega i j k) R K L Q.O i j fpd ⟨buf, 0⟩ empty buf
        (fpd * (((basisCall3 B envCut omega i j k).env X).nf * (basisCall3 B envCut omega i j k).nctr * X.nComp)) fl loc) h
          = some (res, h') := by
  obtain ⟨keep, w, hK⟩ := hK (vIJ3 L X B nbas envCut omega i j k)
  have sep : ∀ {b}, Apart Q.P b → OptSep Q.O b := optSep3_of H.some_prim H.tall
  refine ⟨intSlots3O X (basisCall3 B envCut omega i j k) Q.O Q.h1 fpd
    (((basisCall3 B envCut omega i j k).env X).nf * (basisCall3 B envCut omega i j k).nctr * X.nComp), fun h hm hin h0 h1 h2 => ?_⟩
  have A := optOK3_at (Optim3.intact_ok H.some_prim H.tall hin) H.hi H.hj H.hk
  have hix : h.I (Q.O.ixa + ixPos3 (B i).l (B j).l (B k).l) = Q.h1.I (Q.O.ixa + ixPos3 (B i).l (B j).l (B k).l) :=
    (hin (Q.O.ixa + ixPos3 (B i).l (B j).l (B k).l) (fun x => (sep (b := Q.O.ixa.buf) x).1.2.2.2.2.1 rfl)).2
  have hm' : CacheMem h fpd buf (cacheSize3c2e X (basisCall3 B envCut omega i j k))
      (intSlots3O X (basisCall3 B envCut omega i j k) Q.O h fpd
    (((basisCall3 B envCut omega i j k).env X).nf * (basisCall3 B envCut omega i j k).nctr * X.nComp)) := by
    have e : intSlots3O X (basisCall3 B envCut omega i j k) Q.O h fpd
      (((basisCall3 B envCut omega i j k).env X).nf * (basisCall3 B envCut omega i j k).nctr * X.nComp) =
      intSlots3O X (basisCall3 B envCut omega i j k) Q.O Q.h1 fpd
      (((basisCall3 B envCut omega i j k).env X).nf * (basisCall3 B envCut omega i j k).nctr * X.nComp) := by
      funext q
      unfold intSlots3O ixNull3
      have hix' : h.I (Q.O.ixa + ixPos3 (basisCall3 B envCut omega i j k).si.l (basisCall3 B envCut omega i j k).sj.l
        (basisCall3 B envCut omega i j k).sk.l) = _ := hix
      rw [hix']
      rfl
    rw [e]
    exact hm
  obtain ⟨res, h', hr, _⟩ := run_of_wp (loop3c2eOpt_wp (o0 := 0) (O := Q.O) (h := h) (R := R) (K := K) (i := i) (j := j)
    ⟨hf, hm', used3O_le_cacheSize X (basisCall3 B envCut omega i j k) hf (hc j H.hj) (hc k H.hk), le_of_eq (Nat.zero_add _), h0, h1, h2,
      he.1, he.2.1, he.2.2, hfl, hloc, (sep ha.1).1, (sep ha.2.1).1, (sep ha.2.2.1).1, (sep ha.2.2.2).1⟩
    A.1 A.2 hK (hc i H.hi) (hc j H.hj) (hc k H.hk) hnc (H.tall i H.hi) (H.tall j H.hj) (H.tall k H.hk))
  exact ⟨res, h', hr⟩

/-- **C18**, three-centre calls with an optimizer and Cartesian output: when 0 is returned the block is zero; in any case every
element of the block is overwritten with a value that does not depend on what memory contained, and no double outside the
block and the cache changes. -/
theorem C18_three_centre_opt_cart (Q : Optim3 X L B nbas envCut omega) (A : CartMem3 X (basisCall3 B envCut omega i j k))
    (W : CallsWith3 Q A)
    (H : InBasis3 B nbas i j k) (hnc : 1 ≤ X.nComp) (hK : EvalAll3 R K L X (basisCall3 B envCut omega i j k)) :
    ∃ v : Nat → α, ∀ A' : CartMem3 X (basisCall3 B envCut omega i j k), CallsWith3 Q A' → A'.nd = A.nd →
      ∃ has h', CartEnds3O Q A' R K has h' ∧
        (∀ m, InBlock A.nd (fun t => ncar (Call3.ls (basisCall3 B envCut omega i j k)) t *
            Call3.nctrs (basisCall3 B envCut omega i j k) t) X.nComp m → h'.D (A'.out + m) = .val (v m)) ∧
        (has = false → ∀ m, InBlock A.nd (fun t => ncar (Call3.ls (basisCall3 B envCut omega i j k)) t *
            Call3.nctrs (basisCall3 B envCut omega i j k) t) X.nComp m → v m = 0) ∧
        (∀ q, q.buf ≠ A'.buf → (∀ m, InBlock A.nd (fun t => ncar (Call3.ls (basisCall3 B envCut omega i j k)) t *
            Call3.nctrs (basisCall3 B envCut omega i j k) t) X.nComp m → q ≠ A'.out + m) → h'.D q = A'.h.D q) := by
  obtain ⟨keep, w, hK⟩ := hK (vIJ3 L X B nbas envCut omega i j k)
  obtain ⟨r0, h0, _, v0, _⟩ := opt3_cart Q A W H hnc hK
  refine ⟨fun m => match h0.D (A.out + m) with | .val x => x | _ => 0, fun A' W' hn => ?_⟩
  obtain ⟨r1, h1, e1, v1, z1, f1, _⟩ := opt3_cart Q A' W' H hnc hK
  rw [hn] at v1 z1 f1
  have hv : ∀ m, InBlock A.nd (fun t => ncar (Call3.ls (basisCall3 B envCut omega i j k)) t *
      Call3.nctrs (basisCall3 B envCut omega i j k) t) X.nComp m →
      h1.D (A'.out + m) = .val (match h0.D (A.out + m) with | .val x => x | _ => 0) := by
    intro m hm
    obtain ⟨n, ic, jc, kc, lc, a, b, c, x, a1, a2, a3, a4, a5, a6, a7, a8, a9, rfl⟩ := inBlock_digits A.hs.nf_pos hm
    obtain ⟨t1, t2, _⟩ := A.hs.trivial 3 (by omega) (by omega)
    rw [t2] at a5
    rw [t1] at a9
    obtain rfl : lc = 0 := by omega
    obtain rfl : x = 0 := by omega
    rw [Nat.zero_mul]
    have b0 := v0 n ic jc kc a b c a1 a2 a3 a4 a6 a7 a8
    have b1 := v1 n ic jc kc a b c a1 a2 a3 a4 a6 a7 a8
    refine b1.trans ?_
    have e : h0.D (A.out + outAt A.nd n (ic * ncar (Call3.ls (basisCall3 B envCut omega i j k)) 0 + a)
      (jc * ncar (Call3.ls (basisCall3 B envCut omega i j k)) 1 + b)
      (kc * ncar (Call3.ls (basisCall3 B envCut omega i j k)) 2 + c) (0 + 0)) = _ := b0
    rw [e]
  refine ⟨r1, h1, e1, hv, fun hf m hm => ?_, f1.1⟩
  exact Cell.val.inj ((hv m hm).symm.trans (z1 hf m hm))

/-- **C18**, three-centre calls with an optimizer and spherical output. -/
theorem C18_three_centre_opt_sph (Q : Optim3 X L B nbas envCut omega) (A : SphMem3 X (basisCall3 B envCut omega i j k))
    (W : CallsWith3 Q A.toMem3)
    (H : InBasis3 B nbas i j k) (hnc : 1 ≤ X.nComp) (hK : EvalAll3 R K L X (basisCall3 B envCut omega i j k)) :
    ∃ v : Nat → α, ∀ A' : SphMem3 X (basisCall3 B envCut omega i j k), CallsWith3 Q A'.toMem3 → A'.nd = A.nd →
      ∃ has h', SphEnds3O Q A' R K has h' ∧
        (∀ m, InBlock A.nd (fun t => nsph (Call3.ls (basisCall3 B envCut omega i j k)) t *
            Call3.nctrs (basisCall3 B envCut omega i j k) t) X.nComp m → h'.D (A'.out + m) = .val (v m)) ∧
        (has = false → ∀ m, InBlock A.nd (fun t => nsph (Call3.ls (basisCall3 B envCut omega i j k)) t *
            Call3.nctrs (basisCall3 B envCut omega i j k) t) X.nComp m → v m = 0) ∧
        (∀ q, q.buf ≠ A'.buf → (∀ m, InBlock A.nd (fun t => nsph (Call3.ls (basisCall3 B envCut omega i j k)) t *
            Call3.nctrs (basisCall3 B envCut omega i j k) t) X.nComp m → q ≠ A'.out + m) → h'.D q = A'.h.D q) := by
  obtain ⟨keep, w, hK⟩ := hK (vIJ3 L X B nbas envCut omega i j k)
  obtain ⟨r0, h0, _, v0, _⟩ := opt3_sph Q A W H hnc hK
  refine ⟨fun m => match h0.D (A.out + m) with | .val x => x | _ => 0, fun A' W' hn => ?_⟩
  obtain ⟨r1, h1, e1, v1, z1, f1, _⟩ := opt3_sph Q A' W' H hnc hK
  rw [hn] at v1 z1 f1
  have hv : ∀ m, InBlock A.nd (fun t => nsph (Call3.ls (basisCall3 B envCut omega i j k)) t *
      Call3.nctrs (basisCall3 B envCut omega i j k) t) X.nComp m →
      h1.D (A'.out + m) = .val (match h0.D (A.out + m) with | .val x => x | _ => 0) := by
    intro m hm
    obtain ⟨n, ic, jc, kc, lc, a, b, c, x, a1, a2, a3, a4, a5, a6, a7, a8, a9, rfl⟩ := inBlock_digits A.hs.nf_pos hm
    obtain ⟨t1, t2, _⟩ := A.hs.trivial 3 (by omega) (by omega)
    rw [t2] at a5
    rw [t1] at a9
    obtain rfl : lc = 0 := by omega
    obtain rfl : x = 0 := by omega
    rw [Nat.zero_mul]
    have b0 := v0 n ic jc kc a b c a1 a2 a3 a4 a6 a7 a8
    have b1 := v1 n ic jc kc a b c a1 a2 a3 a4 a6 a7 a8
    refine b1.trans ?_
    have e : h0.D (A.out + outAt A.nd n (ic * nsph (Call3.ls (basisCall3 B envCut omega i j k)) 0 + a)
      (jc * nsph (Call3.ls (basisCall3 B envCut omega i j k)) 1 + b)
      (kc * nsph (Call3.ls (basisCall3 B envCut omega i j k)) 2 + c) (0 + 0)) = _ := b0
    rw [e]
  refine ⟨r1, h1, e1, hv, fun hf m hm => ?_, f1.1⟩
  exact Cell.val.inj ((hv m hm).symm.trans (z1 hf m hm))

/-! ### Equality with direct evaluation -/

/-- no two exponents of primitives of the basis cancel -/
def SumNonzero (B : Nat → PShell α) (i j : Nat) : Prop :=
  ∀ ip jp, ip < (B i).nprim → jp < (B j).nprim → (B i).a ip + (B j).a jp ≠ 0

/-- the derivatives of the operator act on the first two functions at least as often as on the third: `kinc ≤ iinc + jinc` -/
def BraInc (X : Int2e α) : Prop := X.ng.k + X.ng.l ≤ X.ng.i + X.ng.j

theorem rr2_swap (r r' : Nat → α) : rr2 r r' = rr2 r' r := by unfold rr2; ring

theorem logRR_args {p p' : PairArgs α} (h1 : p.si = p'.si ∧ p.sj = p'.sj ∨ p.si = p'.sj ∧ p.sj = p'.si)
    (hl : p.li + p.lj = p'.li + p'.lj) (hr : p.rr = p'.rr) (ho : p.omega = p'.omega) : logRR L p = logRR L p' := by
  have ha : p.si.a (p.si.nprim-1) + p.sj.a (p.sj.nprim-1) = p'.si.a (p'.si.nprim-1) + p'.sj.a (p'.sj.nprim-1) := by
    rcases h1 with ⟨a, b⟩ | ⟨a, b⟩
    · rw [a, b]
    · rw [a, b, add_comm]
  unfold logRR
  rw [hl, hr, ho, ha]

theorem pairTblCC (hb : BraInc X) (ip jp : Nat) :
    (if j ≤ i then pairCC L (setijArgs B (ijklInc X.ng.i X.ng.j X.ng.k X.ng.l) (setijCutoff envCut) omega i j) ip jp
      else pairCC L (setijArgs B (ijklInc X.ng.i X.ng.j X.ng.k X.ng.l) (setijCutoff envCut) omega j i) jp ip) =
    pairCC L ((basisCall3 B envCut omega i j k).pairArgs X) ip jp := by
  have hinc : ijklInc X.ng.i X.ng.j X.ng.k X.ng.l = X.ng.i + X.ng.j := by
    unfold BraInc at hb
    unfold ijklInc
    split <;> omega
  rw [hinc]
  split
  · have e := logRR_args (L := L) (p := setijArgs B (X.ng.i + X.ng.j) (setijCutoff envCut) omega i j)
      (p' := (basisCall3 B envCut omega i j k).pairArgs X) (Or.inl ⟨rfl, rfl⟩)
      (by show (B i).l + (X.ng.i+X.ng.j) + (B j).l = (B i).l + X.ng.i + ((B j).l + X.ng.j); omega) rfl rfl
    unfold pairCC
    rw [e]
    rfl
  · have e := logRR_args (L := L) (p := setijArgs B (X.ng.i + X.ng.j) (setijCutoff envCut) omega j i)
      (p' := (basisCall3 B envCut omega i j k).pairArgs X) (Or.inr ⟨rfl, rfl⟩)
      (by show (B j).l + (X.ng.i+X.ng.j) + (B i).l = (B i).l + X.ng.i + ((B j).l + X.ng.j); omega) (rr2_swap _ _) rfl
    unfold pairCC
    rw [e]
    show rr2 (B j).r (B i).r * (B j).a jp * (B i).a ip * (1 / ((B j).a jp + (B i).a ip)) - _ - logMaxC L (B j) jp - logMaxC L (B i) ip =
      rr2 (B i).r (B j).r * (B i).a ip * (B j).a jp * (1 / ((B i).a ip + (B j).a jp)) - _ - logMaxC L (B i) ip - logMaxC L (B j) jp
    rw [rr2_swap (B j).r, add_comm ((B j).a jp)]
    ring

/-- the table holds what direct evaluation would compute -/
theorem vIJ3_eq (hb : BraInc X) (hn : SumNonzero B i j) {ip jp : Nat} (hip : ip < (B i).nprim) (hjp : jp < (B j).nprim) (c : Nat) :
    vIJ3 L X B nbas envCut omega i j k ip jp c = pairVal L ((basisCall3 B envCut omega i j k).pairArgs X) ip jp c := by
  unfold vIJ3 srcV
  split
  · rfl
  have hcc := pairTblCC (L := L) (B := B) (envCut := envCut) (omega := omega) (i := i) (j := j) (k := k) hb ip jp
  have hs := hn ip jp hip hjp
  unfold pairTblVal
  split
  · rename_i hij
    rw [if_pos hij] at hcc
    unfold pairVal
    rw [hcc]
    rfl
  · rename_i hij
    rw [if_neg hij] at hcc
    unfold pairVal
    rw [hcc]
    have e1 : (B j).a jp + (B i).a ip = (B i).a ip + (B j).a jp := add_comm _ _
    have e2 : rr2 (B j).r (B i).r * (B j).a jp * (B i).a ip * (1 / ((B j).a jp + (B i).a ip)) =
        rr2 (B i).r (B j).r * (B i).a ip * (B j).a jp * (1 / ((B i).a ip + (B j).a jp)) := by
      rw [rr2_swap (B j).r, e1]; ring
    have e3 : (B j).r c + (B i).a ip * (1 / ((B j).a jp + (B i).a ip)) * ((B i).r c - (B j).r c) =
        (B i).r c + (B j).a jp * (1 / ((B i).a ip + (B j).a jp)) * ((B j).r c - (B i).r c) := by
      rw [e1]; field_simp; ring
    show (if c = 4 then _ else if _ < setijCutoff envCut then
        if c = 3 then L.exp (-(rr2 (B j).r (B i).r * (B j).a jp * (B i).a ip * (1 / ((B j).a jp + (B i).a ip))))
        else (B j).r c + (B i).a ip * (1 / ((B j).a jp + (B i).a ip)) * ((B i).r c - (B j).r c) else _) = _
    rw [e2, e3]
    rfl

theorem eIJ3_iff (hb : BraInc X) :
    eIJ3 L X B nbas envCut omega i j k ↔ PairEmpty L ((basisCall3 B envCut omega i j k).pairArgs X) := by
  unfold eIJ3 srcE
  split
  · exact Iff.rfl
  have hcc := pairTblCC (L := L) (B := B) (envCut := envCut) (omega := omega) (i := i) (j := j) (k := k) hb
  unfold pairTblEmpty
  split
  · rename_i hij
    simp only [if_pos hij] at hcc
    unfold PairEmpty
    simp only [hcc]
    exact Iff.rfl
  · rename_i hij
    simp only [if_neg hij] at hcc
    unfold PairEmpty
    simp only [hcc]
    exact ⟨fun H ip jp a b => H jp ip b a, fun H ip jp a b => H jp ip b a⟩

theorem evalOK3_table (hb : BraInc X) (hn : SumNonzero B i j)
    (hK : EvalOK3V R K L X (basisCall3 B envCut omega i j k) (pairVal L ((basisCall3 B envCut omega i j k).pairArgs X)) keep w) :
    EvalOK3V R K L X (basisCall3 B envCut omega i j k) (vIJ3 L X B nbas envCut omega i j k) keep w := by
  intro ip jp kp rij g idx T hip hjp hkp hr hT
  have := hK ip jp kp rij g idx T hip hjp hkp (fun c hc => (hr c hc).trans (vIJ3_eq hb hn hip hjp c)) hT
  rw [vIJ3_eq hb hn hip hjp 4]
  exact this

theorem expected3_table (hb : BraInc X) (hn : SumNonzero B i j) (n ic jc kc m : Nat) :
    expected3 (tripleV R K L X (basisCall3 B envCut omega i j k) (vIJ3 L X B nbas envCut omega i j k)) keep w n ic jc kc m =
    loopVal3 R K L X (basisCall3 B envCut omega i j k) keep w n ic jc kc m := by
  unfold loopVal3
  refine expected3_congr
    (Q := tripleV R K L X (basisCall3 B envCut omega i j k) (vIJ3 L X B nbas envCut omega i j k))
    (Q' := (basisCall3 B envCut omega i j k).triple X R K L ⟨⟨0,0⟩,⟨0,0⟩,⟨0,0⟩,⟨0,0⟩,⟨0,0⟩⟩) rfl ⟨rfl, rfl, rfl⟩
    ⟨rfl, rfl, rfl⟩ rfl ?_ _ _ _ _ _
  intro ip jp kp m hip hjp hkp
  have e4 : pairF (B i).nprim (vIJ3 L X B nbas envCut omega i j k) (5*(jp*(B i).nprim+ip)+4) =
      pairVal L ((basisCall3 B envCut omega i j k).pairArgs X) ip jp 4 := (pairF_eq hip (by omega)).trans (vIJ3_eq hb hn hip hjp 4)
  have e3 : pairF (B i).nprim (vIJ3 L X B nbas envCut omega i j k) (5*(jp*(B i).nprim+ip)+3) =
      pairVal L ((basisCall3 B envCut omega i j k).pairArgs X) ip jp 3 := (pairF_eq hip (by omega)).trans (vIJ3_eq hb hn hip hjp 3)
  show (if decide (pairF (B i).nprim (vIJ3 L X B nbas envCut omega i j k) (5*(jp*(B i).nprim+ip)+4) > _) = false ∧ _ then
    pairF (B i).nprim (vIJ3 L X B nbas envCut omega i j k) (5*(jp*(B i).nprim+ip)+3) * _ else 0) = _
  simp only [e4, e3]
  rfl

theorem any3_table (hb : BraInc X) (hn : SumNonzero B i j) :
    anyV3 R K L X (basisCall3 B envCut omega i j k) (vIJ3 L X B nbas envCut omega i j k) keep ↔
    ∃ ip jp kp, ip < (B i).nprim ∧ jp < (B j).nprim ∧ kp < (B k).nprim ∧
      pairVal L ((basisCall3 B envCut omega i j k).pairArgs X) ip jp 4 ≤ (basisCall3 B envCut omega i j k).cutoff X L ∧
      keep ip jp kp = true := by
  unfold anyV3
  refine exists_congr fun ip => exists_congr fun jp => exists_congr fun kp => ?_
  refine and_congr_right fun hip => and_congr_right fun hjp => and_congr_right fun _ => and_congr_left fun _ => ?_
  have e4 : pairF (B i).nprim (vIJ3 L X B nbas envCut omega i j k) (5*(jp*(B i).nprim+ip)+4) =
      pairVal L ((basisCall3 B envCut omega i j k).pairArgs X) ip jp 4 := (pairF_eq hip (by omega)).trans (vIJ3_eq hb hn hip hjp 4)
  show decide (pairF (B i).nprim (vIJ3 L X B nbas envCut omega i j k) (5*(jp*(B i).nprim+ip)+4) > _) = false ↔ _
  simp only [e4, decide_eq_false_iff_not, not_lt, gt_iff_lt]

/-- the two calls return the same number, except that of the first shell with itself when that pair is negligible -/
theorem ret3_table {Q : Optim3 X L B nbas envCut omega} (hb : BraInc X) (hn : SumNonzero B i j) {ra rb : Bool} {St : Prop}
    (h1 : ra = true ↔ loopAny3 L X (basisCall3 B envCut omega i j k) keep)
    (h2 : RetO3 R K L X (basisCall3 B envCut omega i j k) Q.O i j (vIJ3 L X B nbas envCut omega i j k)
          (eIJ3 L X B nbas envCut omega i j k) keep St rb)
    (hx : ¬ (i = 0 ∧ j = 0 ∧ PairEmpty L ((basisCall3 B envCut omega i j k).pairArgs X))) : ra = rb := by
  obtain ⟨r1, r2, r3, _⟩ := h2
  rw [any3_table hb hn] at r1 r2
  rw [eIJ3_iff hb] at r2 r3
  refine Bool.eq_iff_iff.2 (h1.trans ?_)
  unfold loopAny3
  constructor
  · rintro ⟨hE, hA⟩
    exact (r2 hA).resolve_right hE
  · intro hr
    exact ⟨fun hE => hx ⟨(r3 hE hr).2.1, (r3 hE hr).2.2, hE⟩, r1 hr⟩

/-- **C11**, three-centre integrals with Cartesian output.  With and without the optimizer the same numbers are stored, for
every integral whose integrand evaluates correctly and whose operator does not differentiate the third function more often
than the first two together.  The same value is returned, except for the first shell of the basis twice when that pair is
negligible altogether (then the block is zero in both cases). -/
theorem C11_three_centre_cart (Q : Optim3 X L B nbas envCut omega) (A A' : CartMem3 X (basisCall3 B envCut omega i j k))
    (W : CallsWith3 Q A') (H : InBasis3 B nbas i j k) (hnc : 1 ≤ X.nComp) (hb : BraInc X) (hn : SumNonzero B i j)
    (hK : EvalOK3V R K L X (basisCall3 B envCut omega i j k) (pairVal L ((basisCall3 B envCut omega i j k).pairArgs X)) keep w) :
    ∃ ra ha rb hb, CartEnds3 A R K L ra ha ∧ CartEnds3O Q A' R K rb hb ∧
      (¬ (i = 0 ∧ j = 0 ∧ PairEmpty L ((basisCall3 B envCut omega i j k).pairArgs X)) → ra = rb) ∧
      ∀ n ic jc kc a b c, n < X.nComp → ic < (B i).nctr → jc < (B j).nctr → kc < (B k).nctr →
        a < ncart (B i).l → b < ncart (B j).l → c < ncart (B k).l →
        ∃ x, A.elem ha n ic a jc b kc c = .val x ∧ A'.elem hb n ic a jc b kc c = .val x := by
  obtain ⟨ra, ha, e1, v1, _, _, r1⟩ := drv3c2e_cart A.M A.hsize A.hs A.O hK.nopt hnc (H.ls envCut omega)
  obtain ⟨rb, h2, e2, v2, _, _, r2⟩ := opt3_cart Q A' W H hnc (evalOK3_table hb hn hK)
  refine ⟨ra, ha, rb, h2, e1, e2, ret3_table hb hn r1 r2, fun n ic jc kc a b c a1 a2 a3 a4 a5 a6 a7 =>
    ⟨_, v1 n ic jc kc a b c a1 a2 a3 a4 a5 a6 a7, ?_⟩⟩
  exact (v2 n ic jc kc a b c a1 a2 a3 a4 a5 a6 a7).trans (congrArg Cell.val (expected3_table hb hn _ _ _ _ _))

/-- **C11**, three-centre integrals with spherical output. -/
theorem C11_three_centre_sph (Q : Optim3 X L B nbas envCut omega) (A A' : SphMem3 X (basisCall3 B envCut omega i j k))
    (W : CallsWith3 Q A'.toMem3) (H : InBasis3 B nbas i j k) (hnc : 1 ≤ X.nComp) (hb : BraInc X) (hn : SumNonzero B i j)
    (hK : EvalOK3V R K L X (basisCall3 B envCut omega i j k) (pairVal L ((basisCall3 B envCut omega i j k).pairArgs X)) keep w) :
    ∃ ra ha rb hb, SphEnds3 A R K L ra ha ∧ SphEnds3O Q A' R K rb hb ∧
      (¬ (i = 0 ∧ j = 0 ∧ PairEmpty L ((basisCall3 B envCut omega i j k).pairArgs X)) → ra = rb) ∧
      ∀ n ic jc kc a b c, n < X.nComp → ic < (B i).nctr → jc < (B j).nctr → kc < (B k).nctr →
        a < (B i).l*2+1 → b < (B j).l*2+1 → c < (B k).l*2+1 →
        ∃ x, A.elem ha n ic a jc b kc c = .val x ∧ A'.elem hb n ic a jc b kc c = .val x := by
  obtain ⟨ra, ha, e1, v1, _, _, r1⟩ := drv3c2e_sph A.M A.hsize A.hs A.O A.hT A.htb A.hto hK.nopt hnc (H.ls envCut omega)
  obtain ⟨rb, h2, e2, v2, _, _, r2⟩ := opt3_sph Q A' W H hnc (evalOK3_table hb hn hK)
  refine ⟨ra, ha, rb, h2, e1, e2, ret3_table hb hn r1 r2, fun n ic jc kc a b c a1 a2 a3 a4 a5 a6 a7 =>
    ⟨_, v1 n ic jc kc a b c a1 a2 a3 a4 a5 a6 a7, ?_⟩⟩
  refine (v2 n ic jc kc a b c a1 a2 a3 a4 a5 a6 a7).trans (congrArg Cell.val ?_)
  have e : expected3 (tripleV R K L X (basisCall3 B envCut omega i j k) (vIJ3 L X B nbas envCut omega i j k)) keep w =
      loopVal3 R K L X (basisCall3 B envCut omega i j k) keep w := by
    funext n ic jc kc m
    exact expected3_table hb hn _ _ _ _ _
  rw [e]
  rfl
end
end

/-! ### Electron repulsion -/

open Classical in
theorem eri_eval3V {L : MathLib ℝ} {s : Call3 ℝ} {R : Rys2 ℝ} (hp : PosExp3 s) (hR : RootsOK3 R s) (V : Nat → Nat → Nat → ℝ) :
    EvalOK3V R realK L eriInt s V
      (fun ip jp kp => decide (G2.kept { s.g3P (V ip jp) ip jp kp with rk := fun _ => 0 } (s.cutoff eriInt L - V ip jp 4)))
      (fun ip jp kp n => eriW { s.g3P (V ip jp) ip jp kp with rk := fun _ => 0 } (fun c => i4 (s.env eriInt) c n)
        (fun c => j4 (s.env eriInt) c n) (fun c => l4 (s.env eriInt) c n) (fun c => k4 (s.env eriInt) c n)) := by
  intro ip jp kp rij g idx T hip hjp hkp hr hT
  have hnf : (s.env (eriInt : Int2e ℝ)).nf = ncart s.sj.l * ncart s.sk.l * ncart s.si.l := by
    show lenCart s.si.l * lenCart s.sk.l * lenCart s.sj.l = _
    simp only [lenCart_eq]; ring
  have dig : ∀ n, n < (s.env (eriInt : Int2e ℝ)).nf → n % ncart s.si.l < ncart s.si.l ∧ n / ncart s.si.l % ncart s.sk.l < ncart s.sk.l ∧
      n / ncart s.si.l / ncart s.sk.l % 1 < ncart 0 ∧
      n / ncart s.si.l / ncart s.sk.l / 1 < ncart s.sj.l := by
    intro n hn
    rw [hnf] at hn
    refine ⟨Nat.mod_lt _ (ncart_pos _), Nat.mod_lt _ (ncart_pos _), Nat.mod_lt _ Nat.one_pos, ?_⟩
    rw [Nat.div_one, Nat.div_lt_iff_lt_mul (ncart_pos _), Nat.div_lt_iff_lt_mul (ncart_pos _)]
    exact hn
  have key := eri_kernel (R := R) (e := s.env eriInt) (d := { s.g3P rij ip jp kp with rk := fun _ => 0 })
    (cutoff := s.cutoff eriInt L - V ip jp 4)
    (g := g) (idx := idx) (leng := s.leng eriInt) (nf := (s.env eriInt).nf) (T := T)
    (I := i4 (s.env eriInt)) (J := j4 (s.env eriInt)) (K := l4 (s.env eriInt)) (L := k4 (s.env eriInt))
    (shape4_int3c2e _ _ _ _ _) (by
      show 3 * (s.env eriInt).g_size ≤ (s.env eriInt).g_size * 3 * (2^0+1)
      omega) (by
      show (s.si.l + 0 + (s.sj.l + 0) + (s.sk.l + 0))/2 + 1 = (s.si.l + 0 + (s.sj.l + 0) + 0 + (s.sk.l + 0))/2 + 1
      omega) (by
      show srRoots _ _ = _ ∨ srRoots _ _ = 2 * _
      unfold srRoots
      split
      · right
        exact Nat.mul_comm _ 2
      · left; rfl) hR (hp.ij ip jp hip hjp) (by
      show 0 < s.sk.a kp + 0
      rw [add_zero]
      exact hp.k kp hkp) (by
      intro n c hn hc
      obtain ⟨d1, d2, d3, d4⟩ := dig n hn
      exact ⟨pw_le d1, pw_le d4, pw_le d3, pw_le d2⟩) (by
      intro n hn
      obtain ⟨d1, d2, d3, d4⟩ := dig n hn
      simp only [Finset.sum_add_distrib]
      have e1 : ∑ c : Fin 3, i4 (s.env eriInt) c n = s.si.l := pw_sum d1
      have e2 : ∑ c : Fin 3, j4 (s.env eriInt) c n = s.sj.l := pw_sum d4
      have e3 : ∑ c : Fin 3, k4 (s.env eriInt) c n = s.sk.l := pw_sum d2
      have e4 : ∑ c : Fin 3, l4 (s.env eriInt) c n = 0 := pw_sum d3
      rw [e1, e2, e3, e4]
      show _ < 2 * ((s.si.l + 0 + (s.sj.l + 0) + (s.sk.l + 0))/2 + 1)
      omega) hT
  have k1 : G2.kept { s.g3P rij ip jp kp with rk := fun _ => 0 } (s.cutoff eriInt L - V ip jp 4) ↔
      G2.kept { s.g3P (V ip jp) ip jp kp with rk := fun _ => 0 } (s.cutoff eriInt L - V ip jp 4) := by
    have hx : G2.x { s.g3P rij ip jp kp with rk := fun _ => 0 } = G2.x { s.g3P (V ip jp) ip jp kp with rk := fun _ => 0 } := by
      unfold G2.x Call3.g3P G2.a0
      dsimp only
      rw [hr 0 (by omega), hr 1 (by omega), hr 2 (by omega)]
    unfold G2.kept
    rw [hx]
    exact Iff.rfl
  have k2 : ∀ n, eriW { s.g3P rij ip jp kp with rk := fun _ => 0 } (fun c => i4 (s.env eriInt) c n) (fun c => j4 (s.env eriInt) c n)
      (fun c => l4 (s.env eriInt) c n) (fun c => k4 (s.env eriInt) c n) =
      eriW { s.g3P (V ip jp) ip jp kp with rk := fun _ => 0 } (fun c => i4 (s.env eriInt) c n) (fun c => j4 (s.env eriInt) c n)
      (fun c => l4 (s.env eriInt) c n) (fun c => k4 (s.env eriInt) c n) := by
    intro n
    have f : (fun k : Fin 3 => rij k) = fun k : Fin 3 => V ip jp k := funext fun k => hr k k.isLt
    unfold eriW Call3.g3P
    dsimp only
    rw [f]
  show KernelSpec T _ (fun _ gout em => gout2e (s.env eriInt).nf _ idx g gout em) _ ((s.env eriInt).nf * 1) _ _
  rw [Nat.mul_one]
  simp only [k1, k2] at key
  exact key

/-- **C45** int3c2e_cart with an optimizer, nothing screened: exactly the repulsion integral of the product of the first two
contracted functions with the third. -/
theorem C45_three_centre_with_optimizer {L : MathLib ℝ} {B : Nat → PShell ℝ} {nbas i j k : Nat} {envCut omega : ℝ} {R : Rys2 ℝ}
    (Q : Optim3 eriInt L B nbas envCut omega) (A : CartMem3 eriInt (basisCall3 B envCut omega i j k)) (W : CallsWith3 Q A)
    (H : InBasis3 B nbas i j k) (hL : L.exp = Real.exp) (hkept : AllKept3 L (basisCall3 B envCut omega i j k))
    (hp : PosExp3 (basisCall3 B envCut omega i j k)) (hR : RootsOK3 R (basisCall3 B envCut omega i j k)) :
    ∃ has h', CartEnds3O Q A R realK has h' ∧
      ∀ ic jc kc a b c, ic < (B i).nctr → jc < (B j).nctr → kc < (B k).nctr →
        a < ncart (B i).l → b < ncart (B j).l → c < ncart (B k).l →
        A.elem h' 0 ic a jc b kc c = .val (spNorm (B i).l * spNorm (B j).l * spNorm (B k).l *
          repulsion (interaction omega) (fun r => cfun (B i) ic a r * cfun (B j) jc b r) (cfun (B k) kc c)) := by
  let D := blankMem3 eriInt (basisCall3 B envCut omega i j k) A.hs.nctr_pos
  have h15 : LOK3 (basisCall3 B envCut omega i j k) := H.ls envCut omega
  obtain ⟨rc, hc, e1, v1⟩ := C45_three_centre_exact (R := R) D hL hkept hp hR h15
  obtain ⟨ra, ha, rb, hb, e2, e3, _, v2⟩ := C11_three_centre_cart (R := R) (K := realK) Q D A W H (le_refl 1) (le_refl _)
    (fun ip jp a b => (hp.ij ip jp a b).ne') (eri_eval3V (L := L) hp hR _)
  have hAC : ha = hc := by
    have e : some (ra, ha) = some (rc, hc) := e2.symm.trans e1
    simp only [Option.some.injEq, Prod.mk.injEq] at e
    exact e.2
  subst hAC
  refine ⟨rb, hb, e3, fun ic jc kc a b c a1 a2 a3 a4 a5 a6 => ?_⟩
  obtain ⟨x, x1, x2⟩ := v2 0 ic jc kc a b c Nat.zero_lt_one a1 a2 a3 a4 a5 a6
  exact x2.trans (x1.symm.trans (v1 ic jc kc a b c a1 a2 a3 a4 a5 a6))

/-! ### The hypotheses can be met -/

namespace Opt3Demo
open OvlpDemo SphDemo EriDemo Eri3Demo OptDemo

theorem blankOpt3 (B : Nat → PShell ℝ) (nbas : Nat) : OptMem3 B nbas ptrs ⟨28, 0⟩ blank :=
  ⟨fun _ _ => by simp [blank], fun _ _ => by simp [blank], fun _ _ => by simp [blank], fun _ _ => by simp [blank],
    fun _ _ => by simp [blank], fun _ _ => by simp [blank], fun _ _ => by simp [blank], fun _ _ => by simp [blank],
    fun _ _ => by simp [blank], by decide⟩

/-- p, d and f shells -/
noncomputable def basis3 : Nat → PShell ℝ
  | 0 => (call3 0).si
  | 1 => (call3 0).sj
  | _ => (call3 0).sk

theorem basis3_in : InBasis3 basis3 3 0 1 2 := by
  refine ⟨by omega, by omega, by omega, ?_, by decide⟩
  intro t ht
  match t, ht with
  | 0, _ => show 1 ≤ 15; omega
  | 1, _ => show 2 ≤ 15; omega
  | 2, _ => show 3 ≤ 15; omega

theorem basis3_call (o : ℝ) : basisCall3 basis3 0 o 0 1 2 = call3 o := rfl

variable {omega : ℝ}

/-- memory with the optimizer's arrays as the constructor left them, and everything else not initialised except the table
of the spherical transformation -/
noncomputable def beside3 (Q : Optim3 eriInt lib basis3 3 0 omega) : Heap ℝ where
  D q := if q.buf < 20 then memR.D q else Q.h1.D q
  I q := if q.buf < 20 then .undef else Q.h1.I q

theorem beside3_D {Q : Optim3 eriInt lib basis3 3 0 omega} {q : Ptr} (h : q.buf < 20) : (beside3 Q).D q ≠ .oob := by
  rw [show (beside3 Q).D q = memR.D q from if_pos h]; exact memR_ne
theorem beside3_I {Q : Optim3 eriInt lib basis3 3 0 omega} {q : Ptr} (h : q.buf < 20) : (beside3 Q).I q ≠ .oob := by
  rw [show (beside3 Q).I q = .undef from if_pos h]; simp

/-- Cartesian call -/
noncomputable def cart3O (Q : Optim3 eriInt lib basis3 3 0 omega) (s : Call3 ℝ) (h : ∀ t, t < 4 → 0 < Call3.nctrs s t) :
    CartMem3 eriInt s where
  fpd := 1
  buf := 0
  size := cacheSize3c2e eriInt s
  empty := ⟨4, 0⟩
  fl := ⟨1, 0⟩
  loc := ⟨2, 0⟩
  counts := ⟨3, 0⟩
  out := ⟨5, 7⟩
  dims := none
  nd := fun t => ncar (Call3.ls s) t * Call3.nctrs s t
  h := beside3 Q
  hs := (blankMem3 eriInt s h).hs
  M := ⟨by omega, fun k _ => beside3_D (by show 0 < 20; omega), fun k _ => beside3_I (by show 0 < 20; omega),
    beside3_I (by show 4 < 20; omega), fun k _ => beside3_I (by show 1 < 20; omega),
    fun k _ => beside3_I (by show 2 < 20; omega), fun k _ => beside3_I (by show 3 < 20; omega),
    by decide, by decide, by decide, by decide, by decide⟩
  hsize := le_refl _
  O := { h_dims := fun t _ => rfl
         h_dbuf := fun d hd => nomatch hd
         h_out := fun m _ => beside3_D (by show 5 < 20; omega)
         h_obuf := by decide }

/-- spherical call -/
noncomputable def sph3O (Q : Optim3 eriInt lib basis3 3 0 omega) (s : Call3 ℝ) (h : ∀ t, t < 4 → 0 < Call3.nctrs s t) :
    SphMem3 eriInt s where
  fpd := 1
  buf := 0
  size := cacheSize3c2e eriInt s
  empty := ⟨4, 0⟩
  fl := ⟨1, 0⟩
  loc := ⟨2, 0⟩
  counts := ⟨3, 0⟩
  out := ⟨5, 7⟩
  dims := none
  nd := fun t => nsph (Call3.ls s) t * Call3.nctrs s t
  h := beside3 Q
  hs := (sphMem3 s h).hs
  M := ⟨by omega, fun k _ => beside3_D (by show 0 < 20; omega), fun k _ => beside3_I (by show 0 < 20; omega),
    beside3_I (by show 4 < 20; omega), fun k _ => beside3_I (by show 1 < 20; omega),
    fun k _ => beside3_I (by show 2 < 20; omega), fun k _ => beside3_I (by show 3 < 20; omega),
    by decide, by decide, by decide, by decide, by decide⟩
  hsize := le_refl _
  O := { h_dims := fun t _ => rfl
         h_dbuf := fun d hd => nomatch hd
         h_out := fun m _ => beside3_D (by show 5 < 20; omega)
         h_obuf := by decide }
  tab := ⟨9, 0⟩
  hT := fun l hl x hx => (show (beside3 Q).D _ = memR.D _ from if_pos (by show 9 < 20; omega)).trans (tabR l hl x hx)
  htb := by decide
  hto := by decide

theorem intact3 (Q : Optim3 eriInt lib basis3 3 0 omega) (hP : Q.P = ptrs) : Q.Intact (beside3 Q) := by
  intro q hq
  have : ¬ q.buf < 20 := fun h => hq (by rw [hP]; exact apart_lt h)
  exact ⟨if_neg this, if_neg this⟩

theorem calls3Cart (Q : Optim3 eriInt lib basis3 3 0 omega) (hP : Q.P = ptrs) (s : Call3 ℝ) (h : ∀ t, t < 4 → 0 < Call3.nctrs s t) :
    CallsWith3 Q (cart3O Q s h) := by
  have a : ∀ b, b < 20 → Apart Q.P b := fun b hb => by rw [hP]; exact apart_lt hb
  exact ⟨intact3 Q hP, a 0 (by omega), a 5 (by omega), a 4 (by omega), a 1 (by omega), a 2 (by omega), a 3 (by omega),
    fun e => absurd (show 1 = 2 from e) (by omega)⟩

theorem calls3Sph (Q : Optim3 eriInt lib basis3 3 0 omega) (hP : Q.P = ptrs) (s : Call3 ℝ) (h : ∀ t, t < 4 → 0 < Call3.nctrs s t) :
    CallsWith3 Q (sph3O Q s h).toMem3 := by
  have a : ∀ b, b < 20 → Apart Q.P b := fun b hb => by rw [hP]; exact apart_lt hb
  exact ⟨intact3 Q hP, a 0 (by omega), a 5 (by omega), a 4 (by omega), a 1 (by omega), a 2 (by omega), a 3 (by omega),
    fun e => absurd (show 1 = 2 from e) (by omega)⟩

theorem opt3 (o : ℝ) : ∃ Q : Optim3 eriInt lib basis3 3 0 o, Q.P = ptrs := by
  obtain ⟨Q, h, _⟩ := C11_three_centre_build (X := eriInt) (L := lib) (envCut := 0) (omega := o) (blankOpt3 basis3 3)
    basis3_in.some_prim basis3_in.tall
  exact ⟨Q, h⟩

/-- the short-range integral of p_y (second contraction), d_xz and the fifth f function, with the optimizer -/
example : ∃ (Q : Optim3 eriInt lib basis3 3 0 (-1/2)) (A : CartMem3 eriInt (basisCall3 basis3 0 (-1/2) 0 1 2)),
    CallsWith3 Q A ∧ ∃ R has h', CartEnds3O Q A R realK has h' ∧
      A.elem h' 0 1 1 0 2 1 4 = .val (spNorm 1 * spNorm 2 * spNorm 3 *
      repulsion (interaction (-1/2)) (fun r => cfun (basis3 0) 1 1 r * cfun (basis3 1) 0 2 r) (cfun (basis3 2) 1 4)) := by
  obtain ⟨Q, hP⟩ := opt3 (-1/2)
  obtain ⟨R, hR⟩ := exists_rys2
  obtain ⟨has, h', e1, e2⟩ := C45_three_centre_with_optimizer (R := R) Q
    (cart3O Q (basisCall3 basis3 0 (-1/2) 0 1 2) (ctr_pos3 (-1/2))) (calls3Cart Q hP _ _) basis3_in rfl (allKept3 (-1/2)) (posExp3 (-1/2)) (hR _)
  exact ⟨Q, _, calls3Cart Q hP _ _, R, has, h', e1, e2 1 0 1 1 2 4 (by show 1 < 2; omega) (by show 0 < 2; omega)
    (by show 1 < 2; omega) (by show 1 < ncart 1; decide) (by show 2 < ncart 2; decide) (by show 4 < ncart 3; decide)⟩

/-- with and without the optimizer, spherical functions; the pair (0, 1) is none of the exceptions -/
example : ∃ (Q : Optim3 eriInt lib basis3 3 0 (1/3)) (A A' : SphMem3 eriInt (basisCall3 basis3 0 (1/3) 0 1 2)),
    CallsWith3 Q A'.toMem3 ∧ ∃ R res ha hb, SphEnds3 A R realK lib res ha ∧ SphEnds3O Q A' R realK res hb := by
  obtain ⟨Q, hP⟩ := opt3 (1/3)
  obtain ⟨R, hR⟩ := exists_rys2
  obtain ⟨ra, ha, rb, hb, e1, e2, e3, _⟩ := C11_three_centre_sph (R := R) (K := realK) Q
    (sphMem3 (basisCall3 basis3 0 (1/3) 0 1 2) (ctr_pos3 (1/3)))
    (sph3O Q (basisCall3 basis3 0 (1/3) 0 1 2) (ctr_pos3 (1/3))) (calls3Sph Q hP _ _) basis3_in (le_refl 1) (le_refl _)
    (fun ip jp a b => ((posExp3 (1/3)).ij ip jp a b).ne') (eri_eval3V (L := lib) (s := call3 (1/3)) (posExp3 _) (hR _) _)
  obtain rfl := e3 (fun x => absurd x.2.1 (by omega))
  exact ⟨Q, _, _, calls3Sph Q hP _ _, R, ra, ha, hb, e1, e2⟩

/-- the theorems for arbitrary integrals apply to electron repulsion -/
example (o : ℝ) : ∃ R : Rys2 ℝ, EvalAll3 R realK lib eriInt (call3 o) := by
  obtain ⟨R, hR⟩ := exists_rys2
  exact ⟨R, fun V => ⟨_, _, eri_eval3V (posExp3 o) (hR _) V⟩⟩

end Opt3Demo
end Verif.Props
