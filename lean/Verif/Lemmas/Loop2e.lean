import Verif.Lemmas.Loop

namespace Verif.Model
open Verif Prog

variable {α : Type} [CommRing α] [DecidableEq α]

section
variable {T : Ptr → Option Int} {flag p : Ptr} {N : Nat} {SD SI : Ptr → Prop}

theorem Contrib.loopFac {n : Nat} {op : Nat → Prog α Unit} {b : Nat → Bool} {f : Nat → Nat → α}
    {fac : α} (hTf : T flag = none) (hTS : ∀ q, SI q → T q = none)
    (H : ∀ t, t < n → Contrib T (op t) flag p N (b t) (fun m => fac * f t m) SD SI) :
    Contrib T (forN n op) flag p N ((List.range n).any b)
      (fun m => fac * ∑ t ∈ Finset.range n, f t m) SD SI :=
  (Contrib.loop hTf hTS H).congr rfl (fun i _ => by rw [Finset.mul_sum])

theorem Contrib.ite {op : Prog α Unit} {s b : Bool} {f : Nat → α} {fac : α}
    (H : s = false → Contrib T op flag p N b (fun m => fac * f m) SD SI) :
    Contrib T (if s then pure () else op) flag p N (!s && b)
      (fun m => fac * (if s then 0 else f m)) SD SI := by
  cases s with
  | false => simpa using H rfl
  | true => simp only [if_true, Bool.not_true, Bool.false_and, mul_zero]; exact Contrib.skip

end

/-- flags of levels outside the r innermost ones -/
structure FlagOk (T : Ptr → Option Int) (fl : Ptr) (r : Nat) (flag : Ptr) : Prop where
  ne : ∀ k, k < r → flag ≠ fl + k
  ro : T flag = none

theorem FlagOk.alias {T : Ptr → Option Int} {fl : Ptr} {r r' : Nat} {flag : Ptr}
    (H : FlagOk T fl r flag) (hr : r' ≤ r) (hT : T (fl + r') = none) (ctr : Nat) (p g1 : Ptr) (n : Nat) :
    FlagOk T fl r' (aliasAddr ctr p flag (fl + r') g1 n).2.1 := by
  unfold aliasAddr
  split
  · exact ⟨fun k hk => H.ne k (by omega), H.ro⟩
  · refine ⟨fun k hk e => ?_, hT⟩
    have := (Ptr.add_right_inj _ _ _).1 e
    omega

/-- the `r` innermost flags -/
def FlS (fl : Ptr) (r : Nat) (q : Ptr) : Prop := ∃ k, k < r ∧ q = fl + k

theorem FlS.mono {fl : Ptr} {r r' : Nat} (h : r ≤ r') {q : Ptr} (H : FlS fl r q) : FlS fl r' q := by
  obtain ⟨k, hk, e⟩ := H; exact ⟨k, by omega, e⟩

theorem FlagOk.not_flS {T : Ptr → Option Int} {fl : Ptr} {r : Nat} {flag : Ptr}
    (H : FlagOk T fl r flag) : ¬ FlS fl r flag := by
  rintro ⟨k, hk, e⟩; exact H.ne k hk e

namespace Quartet
variable (Q : Quartet α) (keep : Nat → Nat → Nat → Nat → Bool)
  (w : Nat → Nat → Nat → Nat → Nat → α)

theorem leni_eq : Q.leni = Q.len0 * Q.iCtr := by unfold leni len0; ring
theorem lenj_eq : Q.lenj = Q.leni * Q.jCtr := by unfold lenj leni; ring
theorem lenk_eq : Q.lenk = Q.lenj * Q.kCtr := by unfold lenk lenj; ring
theorem lenl_eq : Q.lenl = Q.lenk * Q.lCtr := by unfold lenl lenk nc; ring
theorem lenl_eq' : Q.lenl = Q.nf * Q.nc * Q.nComp := rfl

def vI (jp kp lp m : Nat) : α := ∑ ip ∈ Finset.range Q.iPrim,
  if Q.skipIJ ip jp kp lp then 0 else
    if keep ip jp kp lp then
      Q.ci (Q.iPrim*(m/Q.len0)+ip) * ((Q.eij ip jp * Q.ekl kp lp) * w ip jp kp lp (m%Q.len0)) else 0
def vJ (kp lp m : Nat) : α := ∑ jp ∈ Finset.range Q.jPrim,
  Q.cj (Q.jPrim*(m/Q.leni)+jp) * Q.vI keep w jp kp lp (m%Q.leni)
def vK (lp m : Nat) : α := ∑ kp ∈ Finset.range Q.kPrim,
  if Q.skipKL kp lp then 0 else Q.ck (Q.kPrim*(m/Q.lenj)+kp) * Q.vJ keep w kp lp (m%Q.lenj)
def vL (m : Nat) : α := Q.common * ∑ lp ∈ Finset.range Q.lPrim,
  Q.cl (Q.lPrim*(m/Q.lenk)+lp) * Q.vK keep w lp (m%Q.lenk)

def bI (jp kp lp : Nat) : Bool := (List.range Q.iPrim).any fun ip =>
  !Q.skipIJ ip jp kp lp && keep ip jp kp lp
def bJ (kp lp : Nat) : Bool := (List.range Q.jPrim).any fun jp => Q.bI keep jp kp lp
def bK (lp : Nat) : Bool := (List.range Q.kPrim).any fun kp => !Q.skipKL kp lp && Q.bJ keep kp lp
/-- some primitive quartet survived the screening -/
def bL : Bool := (List.range Q.lPrim).any fun lp => Q.bK keep lp

/-- extent of the scratch memory used by the general loop beyond `g` -/
def usedGen : Nat := aliasLen Q.nComp Q.lenl + aliasLen Q.lCtr Q.lenk + aliasLen Q.kCtr Q.lenj
  + aliasLen Q.jCtr Q.leni + aliasLen Q.iCtr Q.len0

end Quartet

/-- Hypotheses under which the loops are run. -/
structure Setup2e (Q : Quartet α) (M : Mem2e) (T : Ptr → Option Int)
    (keep : Nat → Nat → Nat → Nat → Bool) (w : Nat → Nat → Nat → Nat → Nat → α)
    (used : Nat) (b0 : Bool) (u : Nat → α) (h : Heap α) : Prop where
  /-- every shell has at least one contraction, there is at least one component -/
  ictr : 1 ≤ Q.iCtr
  jctr : 1 ≤ Q.jCtr
  kctr : 1 ≤ Q.kCtr
  lctr : 1 ≤ Q.lCtr
  ncomp : 1 ≤ Q.nComp
  /-- the read-only tables hold the sparsity tables of the four shells -/
  ti : TblRO T M.non0ctri M.non0idxi Q.ci Q.iPrim Q.iCtr
  tj : TblRO T M.non0ctrj M.non0idxj Q.cj Q.jPrim Q.jCtr
  tk : TblRO T M.non0ctrk M.non0idxk Q.ck Q.kPrim Q.kCtr
  tl : TblRO T M.non0ctrl M.non0idxl Q.cl Q.lPrim Q.lCtr
  ro : RO T h
  /-- the local flags and the caller's flag are writable and separate from the tables -/
  fl : ∀ k, k < 5 → h.I (M.fl + k) ≠ .oob
  flT : ∀ k, k < 5 → T (M.fl + k) = none
  emptyT : T M.empty = none
  emptyfl : ∀ k, k < 5 → M.empty ≠ M.fl + k
  /-- the scratch block `g` is writable and separate from the output -/
  g : AllocD h M.g (Q.leng + used)
  disj : Disj M.gctr (Q.nf * Q.nc * Q.nComp) M.g (Q.leng + used)
  /-- the caller's accumulator -/
  acc : AccSt h M.empty M.gctr (Q.nf * Q.nc * Q.nComp) b0 u
  /-- the callbacks evaluate primitive quartets -/
  kern : ∀ ip jp kp lp, ip < Q.iPrim → jp < Q.jPrim → kp < Q.kPrim → lp < Q.lPrim →
    KernelSpec T (Q.g0 ip jp kp lp) (Q.gout ip jp kp lp) (Blk M.g Q.leng) Q.len0
      (keep ip jp kp lp) (w ip jp kp lp)

/-- What every loop function must do: add the contracted integrals `v` (component fastest) to
the accumulator, return whether it is non-empty now, touch only scratch. -/
def LoopPost (Q : Quartet α) (M : Mem2e) (used : Nat) (b0 : Bool) (u : Nat → α) (b : Bool)
    (v : Nat → α) (h : Heap α) (res : Bool) (h' : Heap α) : Prop :=
  res = (b0 || b) ∧
  AccSt h' M.empty M.gctr (Q.nf * Q.nc * Q.nComp) (b0 || b)
    (fun x => u x + compMajor (Q.nf * Q.nc) Q.nComp v x) ∧
  AgreeD h h' (fun q => Blk M.gctr (Q.nf * Q.nc * Q.nComp) q ∨ Blk M.g (Q.leng + used) q) ∧
  AgreeI h h' (fun q => q = M.empty ∨ Blk M.fl 5 q)

section
variable {Q : Quartet α} {M : Mem2e} {T : Ptr → Option Int}
  {keep : Nat → Nat → Nat → Nat → Bool} {w : Nat → Nat → Nat → Nat → Nat → α}
  {b0 : Bool} {u : Nat → α} {h : Heap α}

theorem withG_ext {T : Ptr → Option Int} {fl : Ptr} (h4 : T fl = none) {q : Ptr} {v : Int}
    (hq : T q = some v) : withG T fl q = some v := by
  unfold withG
  rw [if_neg (fun e => by rw [e, h4] at hq; cases hq)]; exact hq

theorem withG_none {T : Ptr → Option Int} {fl q : Ptr} (hq : T q = none) (hne : q ≠ fl) :
    withG T fl q = none := by unfold withG; rw [if_neg hne]; exact hq

theorem TblRO.withG {T : Ptr → Option Int} {fl a b : Ptr} {c : Nat → α} {n m : Nat}
    (H : TblRO T a b c n m) (h4 : T fl = none) : TblRO (withG T fl) a b c n m :=
  fun x hx => withG_ext h4 (H x hx)

theorem loop2eCore_wp {used : Nat} (hu : Q.usedGen ≤ used)
    (S : Setup2e Q M T keep w used b0 u h)
    (facI : Quartet α → α → Nat → Nat → Nat → Nat → α)
    (hfac : ∀ fac ip jp kp lp, facI Q fac ip jp kp lp =
      if Q.iCtr = 1 then fac * Q.ci ip * (Q.eij ip jp * Q.ekl kp lp)
      else fac * (Q.eij ip jp * Q.ekl kp lp)) :
    wp (loop2eCore Q M facI) (LoopPost Q M used b0 u (Q.bL keep) (Q.vL keep w) h) h := by
  have h4 := S.flT 4 (by omega)
  have hTn : ∀ r, r < 4 → withG T (M.fl + 4) (M.fl + r) = none := fun r hr =>
    withG_none (S.flT r (by omega)) (fun e => by have := (Ptr.add_right_inj _ _ _).1 e; omega)
  have hFlS : ∀ r, r ≤ 4 → ∀ q, FlS M.fl r q → withG T (M.fl + 4) q = none := by
    rintro r hr q ⟨k, hk, rfl⟩; exact hTn k (by omega)
  -- the chain of blocks
  rcases e1 : aliasAddr Q.nComp M.gctr M.empty (M.fl + 3) (M.g + Q.leng) Q.lenl with ⟨gl, fl, g1⟩
  rcases e2 : aliasAddr Q.lCtr gl fl (M.fl + 2) g1 Q.lenk with ⟨gk, fk, g2⟩
  rcases e3 : aliasAddr Q.kCtr gk fk (M.fl + 1) g2 Q.lenj with ⟨gj, fj, g3⟩
  rcases e4 : aliasAddr Q.jCtr gj fj M.fl g3 Q.leni with ⟨gi, fi, g4⟩
  rcases e5 : aliasAddr Q.iCtr gi fi (M.fl + 4) g4 Q.len0 with ⟨go, fo, g5⟩
  have hd := S.disj
  -- free pointers
  have o1 : g1.off = M.g.off + Q.leng + aliasLen Q.nComp Q.lenl := by
    have := @alias_off Q.nComp Q.lenl M.gctr M.empty (M.fl+3) (M.g+Q.leng)
    rw [e1] at this; simpa using this
  have o2 : g2.off = g1.off + aliasLen Q.lCtr Q.lenk := by
    have := @alias_off Q.lCtr Q.lenk gl fl (M.fl+2) g1; rw [e2] at this; exact this
  have o3 : g3.off = g2.off + aliasLen Q.kCtr Q.lenj := by
    have := @alias_off Q.kCtr Q.lenj gk fk (M.fl+1) g2; rw [e3] at this; exact this
  have o4 : g4.off = g3.off + aliasLen Q.jCtr Q.leni := by
    have := @alias_off Q.jCtr Q.leni gj fj M.fl g3; rw [e4] at this; exact this
  have o5 : g5.off = g4.off + aliasLen Q.iCtr Q.len0 := by
    have := @alias_off Q.iCtr Q.len0 gi fi (M.fl+4) g4; rw [e5] at this; exact this
  have hE : g5.off ≤ M.g.off + (Q.leng + used) := by
    unfold Quartet.usedGen at hu; omega
  -- layout of the blocks
  have L1 : Lay M.g Q.leng g1 (M.g.off + (Q.leng + used)) gl Q.lenl :=
    Lay.outer e1 (by omega) hd
  have L2 := L1.alias (ctr := Q.lCtr) (Ny := Q.lenk) fl (M.fl+2) Q.lenl_eq
  rw [e2] at L2
  have L3 := L2.alias (ctr := Q.kCtr) (Ny := Q.lenj) fk (M.fl+1) Q.lenk_eq
  rw [e3] at L3
  have L4 := L3.alias (ctr := Q.jCtr) (Ny := Q.leni) fj M.fl Q.lenj_eq
  rw [e4] at L4
  dsimp only at L2 L3 L4
  -- flags
  have F0 : FlagOk (withG T (M.fl + 4)) M.fl 4 M.empty :=
    ⟨fun k hk => S.emptyfl k (by omega), withG_none S.emptyT (S.emptyfl 4 (by omega))⟩
  have F1 := F0.alias (r' := 3) (by omega) (hTn 3 (by omega)) Q.nComp M.gctr (M.g+Q.leng) Q.lenl
  rw [e1] at F1
  have F2 := F1.alias (r' := 2) (by omega) (hTn 2 (by omega)) Q.lCtr gl g1 Q.lenk
  rw [e2] at F2
  have F3 := F2.alias (r' := 1) (by omega) (hTn 1 (by omega)) Q.kCtr gk g2 Q.lenj
  rw [e3] at F3
  have F4 := F3.alias (r' := 0) (by omega) (hTn 0 (by omega)) Q.jCtr gj g3 Q.leni
  rw [show M.fl + 0 = M.fl from rfl, e4] at F4
  dsimp only at F1 F2 F3 F4
  -- the nest, from the inside out
  have Hi : ∀ jp kp lp, jp < Q.jPrim → kp < Q.kPrim → lp < Q.lPrim → ∀ fac,
      Contrib (withG T (M.fl + 4)) (forN Q.iPrim fun ip =>
        if Q.skipIJ ip jp kp lp then pure () else
        primBody Q.iCtr Q.iPrim fi fo gi go Q.ci Q.len0 M.non0ctri M.non0idxi
          ip (facI Q fac ip jp kp lp) (Q.g0 ip jp kp lp) (Q.gout ip jp kp lp))
        fi gi Q.leni (Q.bI keep jp kp lp) (fun m => fac * Q.vI keep w jp kp lp m)
        (Scr M.g Q.leng g4 (M.g.off + (Q.leng + used))) (FlS M.fl 0) := by
    intro jp kp lp hjp hkp hlp fac
    refine Contrib.loopFac F4.ro (hFlS 0 (by omega)) (fun ip hip => Contrib.ite (fun _ => ?_))
    rw [Q.leni_eq]
    refine Contrib.primA e5 (by rw [← Q.leni_eq]; exact L4) (by omega) S.ictr hip (fun _ => S.ti.withG h4)
      (fun _ => by unfold withG; rw [if_pos rfl])
      ((S.kern ip jp kp lp hip hjp hkp hlp).mono (fun q v => withG_ext h4)) fac _ (hfac _ _ _ _ _)
  have Hj : ∀ kp lp, kp < Q.kPrim → lp < Q.lPrim → ∀ fac,
      Contrib (withG T (M.fl + 4)) (forN Q.jPrim fun jp =>
        levelBody Q.jCtr Q.jPrim fj fi gj gi Q.cj Q.leni M.non0ctrj M.non0idxj jp
              (fun fac1j => forN Q.iPrim fun ip =>
                if Q.skipIJ ip jp kp lp then pure () else
                primBody Q.iCtr Q.iPrim fi fo gi go Q.ci Q.len0 M.non0ctri M.non0idxi
                  ip (facI Q fac1j ip jp kp lp) (Q.g0 ip jp kp lp) (Q.gout ip jp kp lp))
              fac)
        fj gj Q.lenj (Q.bJ keep kp lp) (fun m => fac * Q.vJ keep w kp lp m)
        (Scr M.g Q.leng g3 (M.g.off + (Q.leng + used))) (FlS M.fl 1) := by
    intro kp lp hkp hlp fac
    refine Contrib.loopFac F3.ro (hFlS 1 (by omega)) (fun jp hjp => ?_)
    rw [Q.lenj_eq]
    exact Contrib.levelA e4 (by rw [← Q.lenj_eq]; exact L3) (by omega) S.jctr hjp (fun _ => S.tj.withG h4)
      (fun _ => ⟨F3.ne 0 (by omega), hTn 0 (by omega), 0, by omega, rfl⟩) (hFlS 0 (by omega))
      (fun ⟨k, hk, _⟩ => by omega) (fun q hq => hq.mono (by omega)) (Hi jp kp lp hjp hkp hlp) fac
  have Hk : ∀ lp, lp < Q.lPrim → ∀ fac,
      Contrib (withG T (M.fl + 4)) (forN Q.kPrim fun kp =>
        if Q.skipKL kp lp then pure () else
        levelBody Q.kCtr Q.kPrim fk fj gk gj Q.ck Q.lenj M.non0ctrk M.non0idxk kp
          (fun fac1k => forN Q.jPrim fun jp =>
            levelBody Q.jCtr Q.jPrim fj fi gj gi Q.cj Q.leni M.non0ctrj M.non0idxj jp
              (fun fac1j => forN Q.iPrim fun ip =>
                if Q.skipIJ ip jp kp lp then pure () else
                primBody Q.iCtr Q.iPrim fi fo gi go Q.ci Q.len0 M.non0ctri M.non0idxi
                  ip (facI Q fac1j ip jp kp lp) (Q.g0 ip jp kp lp) (Q.gout ip jp kp lp))
              fac1k) fac)
        fk gk Q.lenk (Q.bK keep lp) (fun m => fac * Q.vK keep w lp m)
        (Scr M.g Q.leng g2 (M.g.off + (Q.leng + used))) (FlS M.fl 2) := by
    intro lp hlp fac
    refine Contrib.loopFac F2.ro (hFlS 2 (by omega)) (fun kp hkp => Contrib.ite (fun _ => ?_))
    rw [Q.lenk_eq]
    exact Contrib.levelA e3 (by rw [← Q.lenk_eq]; exact L2) (by omega) S.kctr hkp (fun _ => S.tk.withG h4)
      (fun _ => ⟨F2.ne 1 (by omega), hTn 1 (by omega), 1, by omega, rfl⟩) (hFlS 1 (by omega))
      (fun ⟨k, hk, e⟩ => F2.ne k (by omega) e) (fun q hq => hq.mono (by omega)) (Hj kp lp hkp hlp) fac
  have Hl : Contrib (withG T (M.fl + 4)) (forN Q.lPrim fun lp =>
      levelBody Q.lCtr Q.lPrim fl fk gl gk Q.cl Q.lenk M.non0ctrl M.non0idxl lp
        (fun fac1l => forN Q.kPrim fun kp =>
          if Q.skipKL kp lp then pure () else
          levelBody Q.kCtr Q.kPrim fk fj gk gj Q.ck Q.lenj M.non0ctrk M.non0idxk kp
            (fun fac1k => forN Q.jPrim fun jp =>
              levelBody Q.jCtr Q.jPrim fj fi gj gi Q.cj Q.leni M.non0ctrj M.non0idxj jp
                (fun fac1j => forN Q.iPrim fun ip =>
                  if Q.skipIJ ip jp kp lp then pure () else
                  primBody Q.iCtr Q.iPrim fi fo gi go Q.ci Q.len0 M.non0ctri M.non0idxi
                    ip (facI Q fac1j ip jp kp lp) (Q.g0 ip jp kp lp) (Q.gout ip jp kp lp))
                fac1k) fac1l) Q.common)
        fl gl Q.lenl (Q.bL keep) (Q.vL keep w)
        (Scr M.g Q.leng g1 (M.g.off + (Q.leng + used))) (FlS M.fl 3) := by
    refine Contrib.loopFac F1.ro (hFlS 3 (by omega)) (fun lp hlp => ?_)
    rw [Q.lenl_eq]
    exact Contrib.levelA e2 (by rw [← Q.lenl_eq]; exact L1) (by omega) S.lctr hlp (fun _ => S.tl.withG h4)
      (fun _ => ⟨F1.ne 2 (by omega), hTn 2 (by omega), 2, by omega, rfl⟩) (hFlS 2 (by omega))
      (fun ⟨k, hk, e⟩ => F1.ne k (by omega) e) (fun q hq => hq.mono (by omega)) (Hk lp hlp) Q.common
  have hF := loopFrame_wp (T := T) (T' := withG T (M.fl + 4)) (fl := M.fl) (R := Q.nf * Q.nc) (r := 3)
    (by
      intro q x hq
      unfold withG at hq
      split at hq
      · rename_i e; exact Or.inr ⟨4, by omega, e, by cases hq; rfl⟩
      · exact Or.inl hq) e1 S.ncomp (by omega) rfl
    (by rintro q ⟨k, hk, rfl⟩; exact ⟨k, by omega, by omega, rfl⟩) S.fl S.flT S.emptyT S.emptyfl
    S.ro S.acc S.g (by omega) (by omega) S.disj Hl
  unfold loop2eCore
  simp only [e1, e2, e3, e4, e5]
  exact hF

end

end Verif.Model
