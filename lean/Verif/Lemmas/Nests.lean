import Verif.Lemmas.Loop2e
import Verif.Model.Nests

/-
The two- and three-level nests add the contracted integrals to their outer block.
-/
namespace Verif.Model
open Verif Prog

variable {α : Type} [CommRing α] [DecidableEq α]

namespace Nest2
variable (P : Nest2 α) (keep : Nat → Nat → Bool) (w : Nat → Nat → Nat → α)

def vI (jp m : Nat) : α := ∑ ip ∈ Finset.range P.iPrim,
  if P.skip ip jp then 0 else
    if keep ip jp then P.ci (P.iPrim*(m/P.len0)+ip) * (P.eij ip jp * w ip jp (m%P.len0)) else 0
def vJ (m : Nat) : α := P.common * ∑ jp ∈ Finset.range P.jPrim,
  P.cj (P.jPrim*(m/P.leni)+jp) * P.vI keep w jp (m%P.leni)
def bI (jp : Nat) : Bool := (List.range P.iPrim).any fun ip => !P.skip ip jp && keep ip jp
def bJ : Bool := (List.range P.jPrim).any fun jp => P.bI keep jp

theorem contrib {P : Nest2 α} {keep : Nat → Nat → Bool} {w : Nat → Nat → Nat → α}
    {T : Ptr → Option Int} {ti tj : Tbl} {facI : α → Nat → Nat → α}
    {fj gj g1 gi fi g2 go fo g3 fli flg g : Ptr} {leng E Ai A0 : Nat}
    (hAi : P.leni ≤ Ai) (hA0 : P.len0 ≤ A0)
    (e2 : aliasAddr P.jCtr gj fj fli g1 Ai = (gi, fi, g2))
    (e3 : aliasAddr P.iCtr gi fi flg g2 A0 = (go, fo, g3))
    (L : Lay g leng g1 E gj P.lenj) (room : g3.off ≤ E)
    (ictr : 1 ≤ P.iCtr) (jctr : 1 ≤ P.jCtr)
    (hti : P.iCtr ≠ 1 → TblRO T ti.ctr ti.idx P.ci P.iPrim P.iCtr)
    (htj : P.jCtr ≠ 1 → TblRO T tj.ctr tj.idx P.cj P.jPrim P.jCtr)
    (hfj : T fj = none) (hne : fj ≠ fli) (hfli : T fli = none) (hflg : T flg = some 1)
    (kern : ∀ ip jp, ip < P.iPrim → jp < P.jPrim → KernelSpec T (P.g0 ip jp) (P.gout ip jp)
      (Blk g leng) P.len0 (keep ip jp) (w ip jp))
    (hfac : ∀ fac ip jp, facI fac ip jp =
      if P.iCtr = 1 then fac * P.ci ip * P.eij ip jp else fac * P.eij ip jp) :
    Contrib T (P.nest ti tj facI fj fi fo gj gi go) fj gj P.lenj (P.bJ keep) (P.vJ keep w)
      (Scr g leng g1 E) (fun q => q = fli) := by
  have o2 : g2.off = g1.off + aliasLen P.jCtr Ai := by
    have := @alias_off P.jCtr Ai gj fj fli g1; rw [e2] at this; exact this
  have o3 : g3.off = g2.off + aliasLen P.iCtr A0 := by
    have := @alias_off P.iCtr A0 gi fi flg g2; rw [e3] at this; exact this
  have L2 := L.alias' (ctr := P.jCtr) (Ny := P.leni) fj fli rfl hAi
  rw [e2] at L2
  dsimp only at L2
  have hfi : T fi = none := by
    unfold aliasAddr at e2
    split at e2 <;> (simp only [Prod.mk.injEq] at e2; obtain ⟨_, rfl, _⟩ := e2; assumption)
  have hno : ∀ q : Ptr, False → T q = none := fun q h => h.elim
  have Hi : ∀ jp, jp < P.jPrim → ∀ fac,
      Contrib T (forN P.iPrim fun ip =>
        if P.skip ip jp then pure () else
        primBody P.iCtr P.iPrim fi fo gi go P.ci P.len0 ti.ctr ti.idx ip
          (facI fac ip jp) (P.g0 ip jp) (P.gout ip jp))
        fi gi P.leni (P.bI keep jp) (fun m => fac * P.vI keep w jp m)
        (Scr g leng g2 E) (fun _ => False) := by
    intro jp hjp fac
    refine Contrib.loopFac hfi hno (fun ip hip => Contrib.ite (fun _ => ?_))
    exact Contrib.primA' hA0 e3 L2 room ictr hip hti (fun _ => hflg) (kern ip jp hip hjp) fac _ (hfac _ _ _)
  refine Contrib.loopFac hfj (by rintro q rfl; exact hfli) (fun jp hjp => ?_)
  exact Contrib.levelA' (SI' := fun q => q = fli) hAi e2 L (by omega) jctr hjp htj (fun _ => ⟨hne, hfli, rfl⟩) hno (fun h => h)
    (fun q h => h.elim) (Hi jp hjp) P.common
end Nest2

namespace Nest3
variable (P : Nest3 α) (keep : Nat → Nat → Nat → Bool) (w : Nat → Nat → Nat → Nat → α)

theorem leni_eq : P.leni = P.len0 * P.iCtr := by unfold leni len0; ring
theorem lenj_eq : P.lenj = P.leni * P.jCtr := by unfold lenj leni; ring
theorem lenk_eq : P.lenk = P.lenj * P.kCtr := by unfold lenk lenj nc; ring

def vI (jp kp m : Nat) : α := ∑ ip ∈ Finset.range P.iPrim,
  if P.skip ip jp kp then 0 else
    if keep ip jp kp then
      P.ci (P.iPrim*(m/P.len0)+ip) * (P.eij ip jp kp * w ip jp kp (m%P.len0)) else 0
def vJ (kp m : Nat) : α := ∑ jp ∈ Finset.range P.jPrim,
  P.cj (P.jPrim*(m/P.leni)+jp) * P.vI keep w jp kp (m%P.leni)
def vK (m : Nat) : α := P.common * ∑ kp ∈ Finset.range P.kPrim,
  P.ck (P.kPrim*(m/P.lenj)+kp) * P.vJ keep w kp (m%P.lenj)
def bI (jp kp : Nat) : Bool := (List.range P.iPrim).any fun ip => !P.skip ip jp kp && keep ip jp kp
def bJ (kp : Nat) : Bool := (List.range P.jPrim).any fun jp => P.bI keep jp kp
/-- some primitive triple survived the screening -/
def bK : Bool := (List.range P.kPrim).any fun kp => P.bJ keep kp

/-- scratch used beyond `g` -/
def used : Nat := aliasLen P.nComp P.lenk + aliasLen P.kCtr P.lenj + aliasLen P.jCtr P.leni
  + aliasLen P.iCtr P.len0
end Nest3

/-- Hypotheses of the three-centre loops. -/
structure Setup3 (P : Nest3 α) (M : MemN) (ti tj tk : Tbl) (T : Ptr → Option Int)
    (keep : Nat → Nat → Nat → Bool) (w : Nat → Nat → Nat → Nat → α)
    (used : Nat) (b0 : Bool) (u : Nat → α) (h : Heap α) : Prop where
  ictr : 1 ≤ P.iCtr
  jctr : 1 ≤ P.jCtr
  kctr : 1 ≤ P.kCtr
  ncomp : 1 ≤ P.nComp
  /-- the read-only memory `T` contains the sparsity tables of the shells -/
  ti : TblRO T ti.ctr ti.idx P.ci P.iPrim P.iCtr
  tj : TblRO T tj.ctr tj.idx P.cj P.jPrim P.jCtr
  tk : TblRO T tk.ctr tk.idx P.ck P.kPrim P.kCtr
  ro : RO T h
  /-- the flags are writable and separate from the tables -/
  fl : ∀ k, k < 4 → h.I (M.fl + k) ≠ .oob
  flT : ∀ k, k < 4 → T (M.fl + k) = none
  emptyT : T M.empty = none
  emptyfl : ∀ k, k < 4 → M.empty ≠ M.fl + k
  /-- the scratch block `g` is writable and separate from the output -/
  g : AllocD h M.g (P.leng + used)
  disj : Disj M.gctr (P.nf * P.nc * P.nComp) M.g (P.leng + used)
  /-- the caller's accumulator -/
  acc : AccSt h M.empty M.gctr (P.nf * P.nc * P.nComp) b0 u
  /-- the callbacks evaluate primitive triples -/
  kern : ∀ ip jp kp, ip < P.iPrim → jp < P.jPrim → kp < P.kPrim →
    KernelSpec T (P.g0 ip jp kp) (P.gout ip jp kp) (Blk M.g P.leng) P.len0
      (keep ip jp kp) (w ip jp kp)

/-- What a three-centre loop must do. -/
def LoopPost3 (P : Nest3 α) (M : MemN) (used : Nat) (b0 : Bool) (u : Nat → α) (b : Bool)
    (v : Nat → α) (h : Heap α) (res : Bool) (h' : Heap α) : Prop :=
  res = (b0 || b) ∧
  AccSt h' M.empty M.gctr (P.nf * P.nc * P.nComp) (b0 || b)
    (fun x => u x + compMajor (P.nf * P.nc) P.nComp v x) ∧
  AgreeD h h' (fun q => Blk M.gctr (P.nf * P.nc * P.nComp) q ∨ Blk M.g (P.leng + used) q) ∧
  AgreeI h h' (fun q => q = M.empty ∨ Blk M.fl 4 q)

section
variable {P : Nest3 α} {M : MemN} {ti tj tk : Tbl} {T : Ptr → Option Int}
  {keep : Nat → Nat → Nat → Bool} {w : Nat → Nat → Nat → Nat → α}
  {b0 : Bool} {u : Nat → α} {h : Heap α}

theorem loop3c_wp {used : Nat} (hu : P.used ≤ used)
    (S : Setup3 P M ti tj tk T keep w used b0 u h) :
    wp (loop3c P M ti tj tk) (LoopPost3 P M used b0 u (P.bK keep) (P.vK keep w) h) h := by
  have h4 := S.flT 3 (by omega)
  have hTn : ∀ r, r < 3 → withG T (M.fl + 3) (M.fl + r) = none := fun r hr =>
    withG_none (S.flT r (by omega)) (fun e => by have := (Ptr.add_right_inj _ _ _).1 e; omega)
  have hFlS : ∀ r, r ≤ 3 → ∀ q, FlS M.fl r q → withG T (M.fl + 3) q = none := by
    rintro r hr q ⟨k, hk, rfl⟩; exact hTn k (by omega)
  rcases e2 : aliasAddr P.nComp M.gctr M.empty (M.fl + 2) (M.g + P.leng) P.lenk with ⟨gk, fk, g2⟩
  rcases e3 : aliasAddr P.kCtr gk fk (M.fl + 1) g2 P.lenj with ⟨gj, fj, g3⟩
  rcases e4 : aliasAddr P.jCtr gj fj M.fl g3 P.leni with ⟨gi, fi, g4⟩
  rcases e5 : aliasAddr P.iCtr gi fi (M.fl + 3) g4 P.len0 with ⟨go, fo, g5⟩
  have hd := S.disj
  have o2 : g2.off = M.g.off + P.leng + aliasLen P.nComp P.lenk := by
    have := @alias_off P.nComp P.lenk M.gctr M.empty (M.fl+2) (M.g+P.leng)
    rw [e2] at this; simpa using this
  have o3 : g3.off = g2.off + aliasLen P.kCtr P.lenj := by
    have := @alias_off P.kCtr P.lenj gk fk (M.fl+1) g2; rw [e3] at this; exact this
  have o4 : g4.off = g3.off + aliasLen P.jCtr P.leni := by
    have := @alias_off P.jCtr P.leni gj fj M.fl g3; rw [e4] at this; exact this
  have o5 : g5.off = g4.off + aliasLen P.iCtr P.len0 := by
    have := @alias_off P.iCtr P.len0 gi fi (M.fl+3) g4; rw [e5] at this; exact this
  have hE : g5.off ≤ M.g.off + (P.leng + used) := by
    unfold Nest3.used at hu; omega
  have L2 : Lay M.g P.leng g2 (M.g.off + (P.leng + used)) gk P.lenk :=
    Lay.outer e2 (by omega) hd
  have L3 := L2.alias (ctr := P.kCtr) (Ny := P.lenj) fk (M.fl+1) P.lenk_eq
  rw [e3] at L3
  have L4 := L3.alias (ctr := P.jCtr) (Ny := P.leni) fj M.fl P.lenj_eq
  rw [e4] at L4
  dsimp only at L2 L3 L4
  have F0 : FlagOk (withG T (M.fl + 3)) M.fl 3 M.empty :=
    ⟨fun k hk => S.emptyfl k (by omega), withG_none S.emptyT (S.emptyfl 3 (by omega))⟩
  have F2 := F0.alias (r' := 2) (by omega) (hTn 2 (by omega)) P.nComp M.gctr (M.g+P.leng) P.lenk
  rw [e2] at F2
  have F3 := F2.alias (r' := 1) (by omega) (hTn 1 (by omega)) P.kCtr gk g2 P.lenj
  rw [e3] at F3
  have F4 := F3.alias (r' := 0) (by omega) (hTn 0 (by omega)) P.jCtr gj g3 P.leni
  rw [show M.fl + 0 = M.fl from rfl, e4] at F4
  dsimp only at F2 F3 F4
  have Hi : ∀ jp kp, jp < P.jPrim → kp < P.kPrim → ∀ fac,
      Contrib (withG T (M.fl + 3)) (forN P.iPrim fun ip =>
        if P.skip ip jp kp then pure () else
        primBody P.iCtr P.iPrim fi fo gi go P.ci P.len0 ti.ctr ti.idx
          ip (P.facE fac ip jp kp) (P.g0 ip jp kp) (P.gout ip jp kp))
        fi gi P.leni (P.bI keep jp kp) (fun m => fac * P.vI keep w jp kp m)
        (Scr M.g P.leng g4 (M.g.off + (P.leng + used))) (FlS M.fl 0) := by
    intro jp kp hjp hkp fac
    refine Contrib.loopFac F4.ro (hFlS 0 (by omega)) (fun ip hip => Contrib.ite (fun _ => ?_))
    rw [P.leni_eq]
    refine Contrib.primA e5 (by rw [← P.leni_eq]; exact L4) (by omega) S.ictr hip
      (fun _ => S.ti.withG h4) (fun _ => by unfold withG; rw [if_pos rfl])
      ((S.kern ip jp kp hip hjp hkp).mono (fun q v => withG_ext h4)) fac _ rfl
  have Hj : ∀ kp, kp < P.kPrim → ∀ fac,
      Contrib (withG T (M.fl + 3)) (forN P.jPrim fun jp =>
        levelBody P.jCtr P.jPrim fj fi gj gi P.cj P.leni tj.ctr tj.idx jp
              (fun fac1j => forN P.iPrim fun ip =>
                if P.skip ip jp kp then pure () else
                primBody P.iCtr P.iPrim fi fo gi go P.ci P.len0 ti.ctr ti.idx
                  ip (P.facE fac1j ip jp kp) (P.g0 ip jp kp) (P.gout ip jp kp))
              fac)
        fj gj P.lenj (P.bJ keep kp) (fun m => fac * P.vJ keep w kp m)
        (Scr M.g P.leng g3 (M.g.off + (P.leng + used))) (FlS M.fl 1) := by
    intro kp hkp fac
    refine Contrib.loopFac F3.ro (hFlS 1 (by omega)) (fun jp hjp => ?_)
    rw [P.lenj_eq]
    exact Contrib.levelA e4 (by rw [← P.lenj_eq]; exact L3) (by omega) S.jctr hjp
      (fun _ => S.tj.withG h4)
      (fun _ => ⟨F3.ne 0 (by omega), hTn 0 (by omega), 0, by omega, rfl⟩) (hFlS 0 (by omega))
      (fun ⟨k, hk, _⟩ => by omega) (fun q hq => hq.mono (by omega)) (Hi jp kp hjp hkp) fac
  have Hk : Contrib (withG T (M.fl + 3)) (P.nest ti tj tk P.facE fk fj fi fo gk gj gi go)
        fk gk P.lenk (P.bK keep) (P.vK keep w)
        (Scr M.g P.leng g2 (M.g.off + (P.leng + used))) (FlS M.fl 2) := by
    refine Contrib.loopFac F2.ro (hFlS 2 (by omega)) (fun kp hkp => ?_)
    rw [P.lenk_eq]
    exact Contrib.levelA e3 (by rw [← P.lenk_eq]; exact L2) (by omega) S.kctr hkp
      (fun _ => S.tk.withG h4)
      (fun _ => ⟨F2.ne 1 (by omega), hTn 1 (by omega), 1, by omega, rfl⟩) (hFlS 1 (by omega))
      (fun ⟨k, hk, e⟩ => F2.ne k (by omega) e) (fun q hq => hq.mono (by omega)) (Hj kp hkp) P.common
  have hF := loopFrame_wp (T := T) (T' := withG T (M.fl + 3)) (fl := M.fl) (R := P.nf * P.nc) (r := 2)
    (nfl := 4)
    (by
      intro q x hq
      unfold withG at hq
      split at hq
      · rename_i e; exact Or.inr ⟨3, by omega, e, by cases hq; rfl⟩
      · exact Or.inl hq) e2 S.ncomp (by omega) rfl
    (by rintro q ⟨k, hk, rfl⟩; exact ⟨k, by omega, by omega, rfl⟩) S.fl S.flT S.emptyT S.emptyfl
    S.ro S.acc S.g (by omega) (by omega) S.disj Hk
  unfold loop3c
  simp only [e2, e3, e4, e5]
  exact hF
end

end Verif.Model
