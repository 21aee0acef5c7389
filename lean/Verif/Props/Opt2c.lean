import Verif.Lemmas.Drv2cOpt
import Verif.Props.Eri2c
import Verif.Props.Opt2eDemo

/-!
C11 — a two-centre integral evaluated with an optimizer equals the one evaluated with a NULL optimizer.
C14 — the queried cache size suffices, with an optimizer (two-centre two-electron integrals).
-/
namespace Verif.Props
open Verif Verif.Model Verif.Prog Verif.Lemmas Verif.Spec

section
variable {α : Type} [Field α] [LinearOrder α]

/-- An optimizer for two-centre integrals, built for a basis of `nbas` shells: where its arrays are, the memory before and
after the call of the constructor. -/
structure Optim2c (X : Int2e α) (B : Nat → PShell α) (nbas : Nat) (omega : α) where
  P : OptPtrs
  loc : Ptr
  h0 : Heap α
  M : OptMem2c B nbas P loc h0
  O : Opt2
  h1 : Heap α
  built : run (optimizer2c2e X B nbas omega P loc) h0 = some (O, h1)

/-- buffer `b` is not one of the optimizer's arrays -/
def Apart2c (P : OptPtrs) (b : Nat) : Prop :=
  b ∉ [P.ctab.buf, P.cpool.buf, P.stab.buf, P.spool.buf, P.ixa.buf, P.ixbuf.buf]

variable {R : Rys2 α} {K : Consts α} {X : Int2e α} {B : Nat → PShell α} {nbas : Nat} {envCut omega : α}
  {s : Call2c α} {d : Nat → Nat}

/-- The optimizer's arrays hold in memory `h` what the constructor left in them. -/
def Optim2c.Intact (Q : Optim2c X B nbas omega) (h : Heap α) : Prop :=
  ∀ q : Ptr, ¬ Apart2c Q.P q.buf → h.I q = Q.h1.I q

/-- The call may use the optimizer: its arrays are intact, and the cache and local variables are elsewhere. -/
structure CallsWith2c (Q : Optim2c X B nbas omega) (A : Mem2c X s d) : Prop where
  intact : Q.Intact A.h
  cache : Apart2c Q.P A.buf
  empty : Apart2c Q.P A.empty.buf
  fl : Apart2c Q.P A.fl.buf
  loc : Apart2c Q.P A.loc.buf
  counts : Apart2c Q.P A.counts.buf

/-- the Cartesian call with the optimizer returns `has` and ends with memory `h'` -/
def CartEnds2cO (Q : Optim2c X B nbas omega) {i k : Nat} (A : CartMem2c X (basisCall2c B envCut omega i k))
    (R : Rys2 α) (K : Consts α) (has : Bool) (h' : Heap α) : Prop :=
  run (drv2c2eOpt X (basisCall2c B envCut omega i k) R K Q.O A.fpd (fun _ _ => pure)
    (ncar (Call2c.ls (basisCall2c B envCut omega i k))) A.out A.dims A.buf 0 A.empty A.fl A.counts) A.h = some (has, h')

/-- the spherical call with the optimizer returns `has` and ends with memory `h'` -/
def SphEnds2cO (Q : Optim2c X B nbas omega) {i k : Nat} (A : SphMem2c X (basisCall2c B envCut omega i k))
    (R : Rys2 α) (K : Consts α) (has : Bool) (h' : Heap α) : Prop :=
  run (drv2c2eOpt X (basisCall2c B envCut omega i k) R K Q.O A.fpd (sphTrans1e A.tab A.fpd (B i).l (B k).l)
    (nsph (Call2c.ls (basisCall2c B envCut omega i k))) A.out A.dims A.buf 0 A.empty A.fl A.counts) A.h = some (has, h')

/-- **C11**, construction for two-centre integrals: given the memory the constructor asks for, it completes without undefined
behaviour for every basis (with at least one primitive) and every integral type, and changes no other memory. -/
theorem C11_two_centre_build {P : OptPtrs} {loc : Ptr} {h0 : Heap α} (M : OptMem2c B nbas P loc h0) (ht : 0 < totPrim B nbas)
    (hl : ∀ t, t < nbas → (B t).l ≤ 15) :
    ∃ Q : Optim2c X B nbas omega, Q.P = P ∧ Q.h0 = h0 ∧ Q.h1.D = h0.D ∧
      (∀ q : Ptr, Apart2c P q.buf → q.buf ≠ loc.buf → Q.h1.I q = h0.I q) := by
  obtain ⟨O, h1, hr, _, _, aD, aI⟩ := run_of_wp (optimizer2c2e_wp (X := X) (omega := omega) M ht hl)
  refine ⟨⟨P, loc, h0, M, O, h1, hr⟩, rfl, rfl, aD, fun q hq hq' => aI q ?_⟩
  unfold Apart2c at hq
  simp only [List.mem_cons, List.not_mem_nil, or_false, not_or] at hq ⊢
  tauto

theorem optim2c_ok (Q : Optim2c X B nbas omega) (ht : 0 < totPrim B nbas) (hl : ∀ t, t < nbas → (B t).l ≤ 15) :
    Q.O = ⟨nbas, none, Q.P.ctab, Q.P.cpool, Q.P.stab, Q.P.spool, Q.P.ixa, Q.P.ixbuf⟩ ∧
    ∀ i k, i < nbas → k < nbas → IxAt2c Q.O Q.h1 (B i).l (B k).l (initInt2c2e (B i).l (B k).l X.ng (decide (omega < 0))) := by
  obtain ⟨O, h1, hr, a, b, _, _⟩ := run_of_wp (optimizer2c2e_wp (X := X) (omega := omega) Q.M ht hl)
  have := hr.symm.trans Q.built
  simp only [Option.some.injEq, Prod.mk.injEq] at this
  obtain ⟨rfl, rfl⟩ := this
  exact ⟨a, b⟩

/-- two shells of the basis -/
structure InBasis2c (B : Nat → PShell α) (nbas i k : Nat) : Prop where
  hi : i < nbas
  hk : k < nbas
  tall : ∀ t, t < nbas → (B t).l ≤ 15
  some_prim : 0 < totPrim B nbas

section
variable {i k : Nat} {keep : Nat → Nat → Bool} {w : Nat → Nat → Nat → α}

theorem InBasis2c.ls (H : InBasis2c B nbas i k) (envCut omega : α) :
    ∀ t, t < 4 → Call2c.ls (basisCall2c B envCut omega i k) t ≤ 15 := by
  intro t ht
  match t, ht with
  | 0, _ => exact H.tall i H.hi
  | 1, _ => exact H.tall k H.hk
  | 2, _ => exact Nat.zero_le _
  | 3, _ => exact Nat.zero_le _

theorem opt2c_loop {Q : Optim2c X B nbas omega} {A : Mem2c X (basisCall2c B envCut omega i k) d} (W : CallsWith2c Q A)
    (H : InBasis2c B nbas i k) (hnc : 1 ≤ X.nComp) (hK : EvalOK2c R K X (basisCall2c B envCut omega i k) keep w) :
    wp (loop2c2eOpt X (basisCall2c B envCut omega i k) R K Q.O A.fpd ⟨A.buf, 0⟩ A.empty A.buf
      (A.fpd * (((basisCall2c B envCut omega i k).env X).nf * ((B i).nctr * (B k).nctr) * X.nComp)) A.fl)
      (Post2c K X (basisCall2c B envCut omega i k) keep w A.buf 0 A.empty A.fl A.loc (A.h.setI A.empty 1)) (A.h.setI A.empty 1) := by
  obtain ⟨hO, hix⟩ := optim2c_ok Q H.some_prim H.tall
  have eb : Q.O.ixbuf = Q.P.ixbuf := by rw [hO]
  have ea : Q.O.ixa = Q.P.ixa := by rw [hO]
  have nb : ∀ {b}, Apart2c Q.P b → b ≠ Q.O.ixbuf.buf ∧ b ≠ Q.O.ixa.buf := by
    intro b hb
    rw [eb, ea]
    unfold Apart2c at hb
    simp only [List.mem_cons, List.not_mem_nil, or_false, not_or] at hb
    exact ⟨hb.2.2.2.2.2, hb.2.2.2.2.1⟩
  refine drv2c2e_opt A.M A.hsize ?_ (nb W.cache).1 (nb W.empty).1 (nb W.fl).1 (nb W.empty).2 A.hs.nctr_pos hK hnc
  refine (hix i k H.hi H.hk).agree (W := fun q => Apart2c Q.P q.buf) (fun q hq => W.intact q hq) ?_
  intro q hq
  exact ⟨(nb hq).2, (nb hq).1⟩

theorem intact2c_of_frame {Q : Optim2c X B nbas omega} {A : Mem2c X s d} (W : CallsWith2c Q A) {h' : Heap α} {nd cnt : Nat → Nat}
    {n : Nat} (F : Frame2 A.h h' nd cnt n A.buf A.out A.empty A.fl A.loc A.counts) : Q.Intact h' := by
  intro q hq
  have ne : ∀ {b : Nat}, Apart2c Q.P b → q.buf ≠ b := fun hb e => hq (e ▸ hb)
  exact (F.2 q (ne W.cache) (ne W.empty) (ne W.fl) (ne W.loc) (ne W.counts)).trans (W.intact q hq)

/-- **C14**, two-centre integrals with an optimizer and Cartesian output: a cache of the queried size suffices, and the optimizer
is left as it was, so that it can be used again any number of times. -/
theorem C14_2c2e_opt_cart (Q : Optim2c X B nbas omega) (A : CartMem2c X (basisCall2c B envCut omega i k)) (W : CallsWith2c Q A)
    (H : InBasis2c B nbas i k) (hnc : 1 ≤ X.nComp) (hK : EvalOK2c R K X (basisCall2c B envCut omega i k) keep w) :
    ∃ has h', CartEnds2cO Q A R K has h' ∧ Q.Intact h' := by
  obtain ⟨has, h', hr, _, _, F, _⟩ := drv2c2eBy_cart (loop := fun g c => loop2c2eOpt X (basisCall2c B envCut omega i k) R K Q.O A.fpd g A.empty A.buf c A.fl)
    A.M (opt2c_loop W H hnc hK) A.hs A.O A.hd2
  exact ⟨has, h', hr, intact2c_of_frame W F⟩

/-- **C14**, two-centre integrals with an optimizer and spherical output. -/
theorem C14_2c2e_opt_sph (Q : Optim2c X B nbas omega) (A : SphMem2c X (basisCall2c B envCut omega i k))
    (W : CallsWith2c Q A.toMem2c)
    (H : InBasis2c B nbas i k) (hnc : 1 ≤ X.nComp) (hK : EvalOK2c R K X (basisCall2c B envCut omega i k) keep w) :
    ∃ has h', SphEnds2cO Q A R K has h' ∧ Q.Intact h' := by
  obtain ⟨has, h', hr, _, _, F, _⟩ := drv2c2eBy_sph (loop := fun g c => loop2c2eOpt X (basisCall2c B envCut omega i k) R K Q.O A.fpd g A.empty A.buf c A.fl)
    A.M (opt2c_loop W H hnc hK) A.hsize A.hs A.O A.hd2 A.hT A.htb A.hto
    (H.ls envCut omega)
  exact ⟨has, h', hr, intact2c_of_frame W F⟩

/-- **C11**, two-centre integrals with Cartesian output: with and without the optimizer the same value is returned and the same
numbers are stored, for every integral whose integrand evaluates correctly. -/
theorem C11_two_centre_cart (Q : Optim2c X B nbas omega) (A A' : CartMem2c X (basisCall2c B envCut omega i k)) (W : CallsWith2c Q A')
    (H : InBasis2c B nbas i k) (hnc : 1 ≤ X.nComp) (hK : EvalOK2c R K X (basisCall2c B envCut omega i k) keep w) :
    ∃ res ha hb, CartEnds2c A R K res ha ∧ CartEnds2cO Q A' R K res hb ∧
      ∀ n ic kc a c, n < X.nComp → ic < (B i).nctr → kc < (B k).nctr → a < ncart (B i).l → c < ncart (B k).l →
        ∃ x, A.elem ha n ic a kc c = .val x ∧ A'.elem hb n ic a kc c = .val x := by
  obtain ⟨ra, ha, e1, v1, _, _, r1⟩ := drv2c2e_cart A.M A.hsize A.hs A.O A.hd2 hK hnc (H.ls envCut omega)
  obtain ⟨rb, hb, e2, v2, _, _, r2⟩ := drv2c2eBy_cart (loop := fun g c => loop2c2eOpt X (basisCall2c B envCut omega i k) R K Q.O A'.fpd g A'.empty A'.buf c A'.fl)
    A'.M (opt2c_loop W H hnc hK) A'.hs A'.O A'.hd2
  obtain rfl : ra = rb := Bool.eq_iff_iff.2 (r1.trans r2.symm)
  exact ⟨ra, ha, hb, e1, e2, fun n ic kc a c a1 a2 a3 a4 a5 => ⟨_, v1 n ic kc a c a1 a2 a3 a4 a5, v2 n ic kc a c a1 a2 a3 a4 a5⟩⟩

/-- **C11**, two-centre integrals with spherical output. -/
theorem C11_two_centre_sph (Q : Optim2c X B nbas omega) (A A' : SphMem2c X (basisCall2c B envCut omega i k))
    (W : CallsWith2c Q A'.toMem2c)
    (H : InBasis2c B nbas i k) (hnc : 1 ≤ X.nComp) (hK : EvalOK2c R K X (basisCall2c B envCut omega i k) keep w) :
    ∃ res ha hb, SphEnds2c A R K res ha ∧ SphEnds2cO Q A' R K res hb ∧
      ∀ n ic kc a c, n < X.nComp → ic < (B i).nctr → kc < (B k).nctr → a < (B i).l*2+1 → c < (B k).l*2+1 →
        ∃ x, A.elem ha n ic a kc c = .val x ∧ A'.elem hb n ic a kc c = .val x := by
  obtain ⟨ra, ha, e1, v1, _, _, r1⟩ := drv2c2e_sph A.M A.hsize A.hs A.O A.hd2 A.hT A.htb A.hto hK hnc (H.ls envCut omega)
  obtain ⟨rb, hb, e2, v2, _, _, r2⟩ := drv2c2eBy_sph (loop := fun g c => loop2c2eOpt X (basisCall2c B envCut omega i k) R K Q.O A'.fpd g A'.empty A'.buf c A'.fl)
    A'.M (opt2c_loop W H hnc hK) A'.hsize A'.hs A'.O A'.hd2 A'.hT A'.htb A'.hto
    (H.ls envCut omega)
  obtain rfl : ra = rb := Bool.eq_iff_iff.2 (r1.trans r2.symm)
  exact ⟨ra, ha, hb, e1, e2, fun n ic kc a c a1 a2 a3 a4 a5 => ⟨_, v1 n ic kc a c a1 a2 a3 a4 a5, v2 n ic kc a c a1 a2 a3 a4 a5⟩⟩

/-- **C14**, inside the primitive loop with an optimizer (see `C14_2c2e_loop`). -/
theorem C14_2c2e_opt_loop {fpd buf : Nat} {empty fl : Ptr} (Q : Optim2c X B nbas omega) (H : InBasis2c B nbas i k)
    (hK : EvalOK2c R K X (basisCall2c B envCut omega i k) keep w) (hf : 0 < fpd) (hnc : 1 ≤ X.nComp)
    (hc : ∀ t, t < nbas → 1 ≤ (B t).nctr)
    (he : empty.buf ≠ buf ∧ empty.buf ≠ fl.buf) (hfl : fl.buf ≠ buf)
    (ha : Apart2c Q.P buf ∧ Apart2c Q.P empty.buf ∧ Apart2c Q.P fl.buf) :
    ∃ isI : Nat → Prop, ∀ h : Heap α, CacheMem h fpd buf (cacheSize2c2e X (basisCall2c B envCut omega i k)) isI →
      Q.Intact h → h.I empty = .val 1 → (∀ k, k < 3 → h.I (fl + k) ≠ .oob) →
      ∃ res h', run (loop2c2eOpt X (basisCall2c B envCut omega i k) R K Q.O fpd ⟨buf, 0⟩ empty buf
        (fpd * (((basisCall2c B envCut omega i k).env X).nf * (B i).nctr * (B k).nctr * X.nComp)) fl) h = some (res, h') := by
  obtain ⟨hO, hix⟩ := optim2c_ok Q H.some_prim H.tall
  have eb : Q.O.ixbuf = Q.P.ixbuf := by rw [hO]
  have ea : Q.O.ixa = Q.P.ixa := by rw [hO]
  have nb : ∀ {b}, Apart2c Q.P b → b ≠ Q.O.ixbuf.buf ∧ b ≠ Q.O.ixa.buf := by
    intro b hb
    rw [eb, ea]
    unfold Apart2c at hb
    simp only [List.mem_cons, List.not_mem_nil, or_false, not_or] at hb
    exact ⟨hb.2.2.2.2.2, hb.2.2.2.2.1⟩
  refine ⟨intSlots2cO (basisCall2c B envCut omega i k) fpd (((basisCall2c B envCut omega i k).env X).nf * (B i).nctr * (B k).nctr * X.nComp),
    fun h hm hin h0 h1 => ?_⟩
  obtain ⟨res, h', hr, _⟩ := run_of_wp (loop2c2eOpt_wp (o0 := 0) (loc := empty) (O := Q.O)
    ⟨hf, hm, used2cO_le_cacheSize X (basisCall2c B envCut omega i k) hf,
      le_of_eq (by rw [Nat.zero_add, Nat.mul_assoc (((basisCall2c B envCut omega i k).env X).nf) (B i).nctr]; rfl), h0, h1, he.1, he.2, hfl,
      (nb ha.1).1, (nb ha.2.1).1, (nb ha.2.2).1⟩
    ((hix i k H.hi H.hk).agree (W := fun q => Apart2c Q.P q.buf) (fun q hq => hin q hq) (fun q hq => ⟨(nb hq).2, (nb hq).1⟩))
    hK (hc i H.hi) (hc k H.hk) hnc)
  exact ⟨res, h', hr⟩
end
end

/-! ### The hypotheses can be met -/

namespace Opt2cDemo
open OvlpDemo SphDemo EriDemo Eri2cDemo OptDemo

theorem blankOpt2c (B : Nat → PShell ℝ) (nbas : Nat) : OptMem2c B nbas ptrs ⟨28, 0⟩ blank :=
  ⟨fun _ _ => by simp [blank], fun _ _ => by simp [blank], fun _ _ => by simp [blank], fun _ _ => by simp [blank],
    fun _ _ => by simp [blank], fun _ _ => by simp [blank], fun _ _ => by simp [blank], by decide⟩

theorem apart_lt2c {b : Nat} (h : b < 20) : Apart2c ptrs b := by
  unfold Apart2c ptrs
  simp only [List.mem_cons, List.not_mem_nil, or_false, not_or]
  omega

/-- p and f shells -/
noncomputable def basis2c : Nat → PShell ℝ
  | 0 => (call2c 0).si
  | _ => (call2c 0).sk

theorem basis2c_in : InBasis2c basis2c 2 0 1 := by
  refine ⟨by omega, by omega, ?_, by decide⟩
  intro t ht
  match t, ht with
  | 0, _ => show 1 ≤ 15; omega
  | 1, _ => show 3 ≤ 15; omega

theorem basis2c_call (o : ℝ) : basisCall2c basis2c 0 o 0 1 = call2c o := rfl

variable {omega : ℝ}

/-- memory with the optimizer's arrays as the constructor left them, and everything else not initialised except the table
of the spherical transformation -/
noncomputable def beside2c (Q : Optim2c eriInt basis2c 2 omega) : Heap ℝ where
  D q := memR.D q
  I q := if q.buf < 20 then .undef else Q.h1.I q

theorem beside2c_I {Q : Optim2c eriInt basis2c 2 omega} {q : Ptr} (h : q.buf < 20) : (beside2c Q).I q ≠ .oob := by
  rw [show (beside2c Q).I q = .undef from if_pos h]; simp

/-- Cartesian call -/
noncomputable def cart2cO (Q : Optim2c eriInt basis2c 2 omega) (s : Call2c ℝ) (h : ∀ t, t < 4 → 0 < Call2c.nctrs s t) :
    CartMem2c eriInt s where
  fpd := 1
  buf := 0
  size := cacheSize2c2e eriInt s
  empty := ⟨4, 0⟩
  fl := ⟨1, 0⟩
  loc := ⟨2, 0⟩
  counts := ⟨3, 0⟩
  out := ⟨5, 7⟩
  dims := none
  nd := fun t => ncar (Call2c.ls s) t * Call2c.nctrs s t
  h := beside2c Q
  hs := (blankMem2c eriInt s h).hs
  M := ⟨by omega, fun k _ => memR_ne (q := ⟨0, k⟩), fun k _ => beside2c_I (by show 0 < 20; omega),
    beside2c_I (by show 4 < 20; omega), fun k _ => beside2c_I (by show 1 < 20; omega),
    fun k _ => beside2c_I (by show 2 < 20; omega), fun k _ => beside2c_I (by show 3 < 20; omega),
    by decide, by decide, by decide, by decide, by decide⟩
  hsize := le_refl _
  O := { h_dims := fun t _ => rfl
         h_dbuf := fun d hd => nomatch hd
         h_out := fun m _ => memR_ne (q := (⟨5, 7⟩ : Ptr) + m)
         h_obuf := by decide }
  hd2 := fun d hd => nomatch hd

/-- spherical call -/
noncomputable def sph2cO (Q : Optim2c eriInt basis2c 2 omega) (s : Call2c ℝ) (h : ∀ t, t < 4 → 0 < Call2c.nctrs s t) :
    SphMem2c eriInt s where
  fpd := 1
  buf := 0
  size := cacheSize2c2e eriInt s
  empty := ⟨4, 0⟩
  fl := ⟨1, 0⟩
  loc := ⟨2, 0⟩
  counts := ⟨3, 0⟩
  out := ⟨5, 7⟩
  dims := none
  nd := fun t => nsph (Call2c.ls s) t * Call2c.nctrs s t
  h := beside2c Q
  hs := (sphMem2c s h).hs
  M := ⟨by omega, fun k _ => memR_ne (q := ⟨0, k⟩), fun k _ => beside2c_I (by show 0 < 20; omega),
    beside2c_I (by show 4 < 20; omega), fun k _ => beside2c_I (by show 1 < 20; omega),
    fun k _ => beside2c_I (by show 2 < 20; omega), fun k _ => beside2c_I (by show 3 < 20; omega),
    by decide, by decide, by decide, by decide, by decide⟩
  hsize := le_refl _
  O := { h_dims := fun t _ => rfl
         h_dbuf := fun d hd => nomatch hd
         h_out := fun m _ => memR_ne (q := (⟨5, 7⟩ : Ptr) + m)
         h_obuf := by decide }
  hd2 := fun d hd => nomatch hd
  tab := ⟨9, 0⟩
  hT := fun l hl x hx => tabR l hl x hx
  htb := by decide
  hto := by decide

theorem intact2c (Q : Optim2c eriInt basis2c 2 omega) (hP : Q.P = ptrs) : Q.Intact (beside2c Q) := by
  intro q hq
  exact if_neg (fun h => hq (by rw [hP]; exact apart_lt2c h))

theorem calls2cCart (Q : Optim2c eriInt basis2c 2 omega) (hP : Q.P = ptrs) (s : Call2c ℝ) (h : ∀ t, t < 4 → 0 < Call2c.nctrs s t) :
    CallsWith2c Q (cart2cO Q s h) := by
  have a : ∀ b, b < 20 → Apart2c Q.P b := fun b hb => by rw [hP]; exact apart_lt2c hb
  exact ⟨intact2c Q hP, a 0 (by omega), a 4 (by omega), a 1 (by omega), a 2 (by omega), a 3 (by omega)⟩

theorem calls2cSph (Q : Optim2c eriInt basis2c 2 omega) (hP : Q.P = ptrs) (s : Call2c ℝ) (h : ∀ t, t < 4 → 0 < Call2c.nctrs s t) :
    CallsWith2c Q (sph2cO Q s h).toMem2c := by
  have a : ∀ b, b < 20 → Apart2c Q.P b := fun b hb => by rw [hP]; exact apart_lt2c hb
  exact ⟨intact2c Q hP, a 0 (by omega), a 4 (by omega), a 1 (by omega), a 2 (by omega), a 3 (by omega)⟩

theorem opt2c (o : ℝ) : ∃ Q : Optim2c eriInt basis2c 2 o, Q.P = ptrs := by
  obtain ⟨Q, h, _⟩ := C11_two_centre_build (X := eriInt) (omega := o) (blankOpt2c basis2c 2) basis2c_in.some_prim basis2c_in.tall
  exact ⟨Q, h⟩

/-- short-range integrals of the p and f shells, with and without the optimizer -/
example : ∃ (Q : Optim2c eriInt basis2c 2 (-1/2)) (A A' : CartMem2c eriInt (basisCall2c basis2c 0 (-1/2) 0 1)),
    CallsWith2c Q A' ∧ ∃ R res ha hb, CartEnds2c A R realK res ha ∧ CartEnds2cO Q A' R realK res hb ∧
      ∃ x, A.elem ha 0 1 2 1 9 = .val x ∧ A'.elem hb 0 1 2 1 9 = .val x := by
  obtain ⟨Q, hP⟩ := opt2c (-1/2)
  obtain ⟨R, hR⟩ := exists_rys2
  obtain ⟨res, ha, hb, e1, e2, e3⟩ := C11_two_centre_cart (R := R) (K := realK) (envCut := 0) Q (blankMem2c eriInt (basisCall2c basis2c 0 (-1/2) 0 1) (ctr_pos2c (-1/2)))
    (cart2cO Q (basisCall2c basis2c 0 (-1/2) 0 1) (ctr_pos2c (-1/2))) (calls2cCart Q hP _ _) basis2c_in (le_refl 1)
    (eri_eval2c (s := call2c (-1/2)) (posExp2c _) (hR _))
  exact ⟨Q, _, _, calls2cCart Q hP _ _, R, res, ha, hb, e1, e2, e3 0 1 1 2 9 Nat.zero_lt_one (by show 1 < 2; omega)
    (by show 1 < 2; omega) (by show 2 < ncart 1; decide) (by show 9 < ncart 3; decide)⟩

example : ∃ (Q : Optim2c eriInt basis2c 2 (1/3)) (A A' : SphMem2c eriInt (basisCall2c basis2c 0 (1/3) 0 1)),
    CallsWith2c Q A'.toMem2c ∧ ∃ R res ha hb, SphEnds2c A R realK res ha ∧ SphEnds2cO Q A' R realK res hb := by
  obtain ⟨Q, hP⟩ := opt2c (1/3)
  obtain ⟨R, hR⟩ := exists_rys2
  obtain ⟨res, ha, hb, e1, e2, e3⟩ := C11_two_centre_sph (R := R) (K := realK) (envCut := 0) Q (sphMem2c (basisCall2c basis2c 0 (1/3) 0 1) (ctr_pos2c (1/3)))
    (sph2cO Q (basisCall2c basis2c 0 (1/3) 0 1) (ctr_pos2c (1/3))) (calls2cSph Q hP _ _) basis2c_in (le_refl 1)
    (eri_eval2c (s := call2c (1/3)) (posExp2c _) (hR _))
  exact ⟨Q, _, _, calls2cSph Q hP _ _, R, res, ha, hb, e1, e2⟩

end Opt2cDemo
end Verif.Props
