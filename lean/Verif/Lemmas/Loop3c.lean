import Verif.Lemmas.Nests
import Verif.Lemmas.Loop2eSpecial
import Verif.Lemmas.Tables

namespace Verif.Model
open Verif Prog

variable {α : Type} [CommRing α] [DecidableEq α]

/-- innermost step with a single exponential factor -/
theorem Contrib.primOne1 {T : Ptr → Option Int} {flag p : Ptr} {SI : Ptr → Prop}
    {g g1 : Ptr} {leng E Ng : Nat} {prim t : Nat} {c : Nat → α}
    {g0 : α → Prog α Bool} {fgout : α → Ptr → Int → Prog α Unit} {e1 : α} {keep : Bool}
    {w : Nat → α} (L : Lay g leng g1 E p Ng) (ht : t < prim)
    (hK : KernelSpec T g0 fgout (Blk g leng) Ng keep w) (fac : α) :
    Contrib T (do
      let r ← g0 (fac * c t * e1)
      if r then do
        let e ← ldI flag
        fgout (fac * c t * e1) p e
        stI flag 0
      else pure () : Prog α Unit)
      flag p Ng keep
      (fun m => fac * (if keep then c (prim*(m/Ng)+t) * (e1 * w (m%Ng)) else 0))
      (Scr g leng g1 E) SI := by
  have := Contrib.primOne (SI := SI) (flag := flag) (c := c) (e1 := e1) (e2 := 1) L ht hK fac
  simpa only [mul_one] using this

section
variable {P : Nest3 α} {M : MemN} {ti tj tk : Tbl} {T : Ptr → Option Int}
  {keep : Nat → Nat → Nat → Bool} {w : Nat → Nat → Nat → Nat → α}
  {b0 : Bool} {u : Nat → α} {h : Heap α} {used : Nat}

theorem loop3c_111_wp (hi : P.iCtr = 1) (hj : P.jCtr = 1) (hk : P.kCtr = 1)
    (hu : aliasLen P.nComp P.len0 ≤ used) (S : Setup3 P M ti tj tk T keep w used b0 u h) :
    wp (loop3c_111 P M) (LoopPost3 P M used b0 u (P.bK keep) (P.vK keep w) h) h := by
  have l1 : P.leni = P.len0 := by rw [P.leni_eq, hi, Nat.mul_one]
  have l2 : P.lenj = P.len0 := by rw [P.lenj_eq, hj, Nat.mul_one, l1]
  have l3 : P.lenk = P.len0 := by rw [P.lenk_eq, hk, Nat.mul_one, l2]
  have hnc : P.nc = 1 := by unfold Nest3.nc; rw [hi, hj, hk]
  have hN : P.nf * P.nc * P.nComp = P.len0 := by rw [← l3]; rfl
  rcases e1 : aliasAddr P.nComp M.gctr M.empty (M.fl + 3) (M.g + P.leng) P.len0 with ⟨go, fo, g1⟩
  have o1 : g1.off = M.g.off + P.leng + aliasLen P.nComp P.len0 := by
    have := @alias_off P.nComp P.len0 M.gctr M.empty (M.fl+3) (M.g+P.leng)
    rw [e1] at this; simpa using this
  have hgo : (if P.nComp = 1 then M.gctr else M.g + P.leng) = go := by
    have := congrArg Prod.fst e1; dsimp only at this; rw [← this]; unfold aliasAddr; split <;> rfl
  have hfo : (if P.nComp = 1 then M.empty else M.fl + 3) = fo := by
    have := congrArg (fun x => x.2.1) e1; dsimp only at this; rw [← this]
    unfold aliasAddr; split <;> rfl
  have hd := S.disj
  rw [hN] at hd
  have L1 : Lay M.g P.leng g1 (M.g.off + (P.leng + used)) go P.len0 := Lay.outer e1 (by omega) hd
  have F0 : FlagOk T M.fl 3 M.empty := ⟨fun k hk => S.emptyfl k (by omega), S.emptyT⟩
  have F1 := F0.alias (r' := 3) (by omega) (S.flT 3 (by omega)) P.nComp M.gctr (M.g+P.leng) P.len0
  rw [e1] at F1
  dsimp only at F1
  have hnone : ∀ q, FlS M.fl 0 q → T q = none := fun q ⟨k, hk, _⟩ => by omega
  have H : Contrib T (forN P.kPrim fun kp =>
        forN P.jPrim fun jp =>
          forN P.iPrim fun ip =>
            if P.skip ip jp kp then pure () else do
            let r ← P.g0 ip jp kp (P.common * P.ck kp * P.cj jp * P.ci ip * P.eij ip jp kp)
            if r then do
              let e ← ldI fo
              P.gout ip jp kp (P.common * P.ck kp * P.cj jp * P.ci ip * P.eij ip jp kp) go e
              stI fo 0
            else pure ()) fo go P.len0 (P.bK keep) (P.vK keep w)
      (Scr M.g P.leng g1 (M.g.off + (P.leng + used))) (FlS M.fl 0) := by
    unfold Nest3.vK Nest3.bK
    refine Contrib.loopFac F1.ro hnone (fun kp hkp => ?_)
    rw [l2]
    refine Contrib.one ?_
    unfold Nest3.vJ Nest3.bJ
    refine Contrib.loopFac F1.ro hnone (fun jp hjp => ?_)
    rw [l1]
    refine Contrib.one ?_
    unfold Nest3.vI Nest3.bI
    refine Contrib.loopFac F1.ro hnone (fun ip hip => Contrib.ite (fun _ => ?_))
    exact Contrib.primOne1 L1 hip (S.kern ip jp kp hip hjp hkp) _
  have hR : P.nf * 1 * P.nComp = P.len0 := by rw [Nat.mul_one]; rfl
  have hA := S.acc
  rw [hN] at hA
  rw [← hR] at e1 hA hd H
  have hF := loopFrame_wp (T := T) (T' := T) (fl := M.fl) (R := P.nf * 1) (nC := P.nComp) (r := 3)
    (nfl := 4) (own := M.fl + 3) (E := P.leng + used) (SI := FlS M.fl 0)
    (fun q x hq => Or.inl hq) e1 S.ncomp (by omega) rfl
    (by rintro q ⟨k, hk, _⟩; omega) S.fl S.flT S.emptyT S.emptyfl
    S.ro hA S.g (by omega) (by omega) hd H
  unfold loop3c_111
  simp only [hgo, hfo]
  refine wp_mono hF ?_
  intro r h' hP
  unfold LoopPost3
  rw [hnc]
  exact hP

theorem loop3c_n11_wp (hi : P.iCtr ≠ 1) (hj : P.jCtr = 1) (hk : P.kCtr = 1)
    (hu : aliasLen P.nComp P.leni + P.len0 ≤ used)
    (S : Setup3 P M ti tj tk T keep w used b0 u h) :
    wp (loop3c_n11 P M ti) (LoopPost3 P M used b0 u (P.bK keep) (P.vK keep w) h) h := by
  have l2 : P.lenj = P.leni := by rw [P.lenj_eq, hj, Nat.mul_one]
  have l3 : P.lenk = P.leni := by rw [P.lenk_eq, hk, Nat.mul_one, l2]
  have hnc : P.nc = P.iCtr := by unfold Nest3.nc; rw [hj, hk]; simp
  have hN : P.nf * P.nc * P.nComp = P.leni := by rw [← l3]; rfl
  rcases e1 : aliasAddr P.nComp M.gctr M.empty M.fl (M.g + P.leng) P.leni with ⟨gi, fi, g1⟩
  have o1 : g1.off = M.g.off + P.leng + aliasLen P.nComp P.leni := by
    have := @alias_off P.nComp P.leni M.gctr M.empty M.fl (M.g+P.leng)
    rw [e1] at this; simpa using this
  have hd := S.disj
  rw [hN] at hd
  have L1 : Lay M.g P.leng g1 (M.g.off + (P.leng + used)) gi P.leni := Lay.outer e1 (by omega) hd
  have F0 : FlagOk T M.fl 0 M.empty := ⟨fun k hk => by omega, S.emptyT⟩
  have F1 := F0.alias (r' := 0) (by omega) (S.flT 0 (by omega)) P.nComp M.gctr (M.g+P.leng) P.leni
  rw [show M.fl + 0 = M.fl from rfl, e1] at F1
  dsimp only at F1
  have hnone : ∀ q, FlS M.fl 0 q → T q = none := fun q ⟨k, hk, _⟩ => by omega
  have H : Contrib T (forN P.kPrim fun kp =>
        forN P.jPrim fun jp =>
          forN P.iPrim fun ip =>
            if P.skip ip jp kp then pure () else do
            let r ← P.g0 ip jp kp (P.common * P.ck kp * P.cj jp * P.eij ip jp kp)
            if r then do
              P.gout ip jp kp (P.common * P.ck kp * P.cj jp * P.eij ip jp kp) g1 1
              prim2ctr P.iCtr P.iPrim fi gi g1 P.ci ip P.len0 ti.ctr ti.idx
            else pure ()) fi gi P.leni (P.bK keep) (P.vK keep w)
      (Scr M.g P.leng g1 (M.g.off + (P.leng + used))) (FlS M.fl 0) := by
    unfold Nest3.vK Nest3.bK
    refine Contrib.loopFac F1.ro hnone (fun kp hkp => ?_)
    rw [l2]
    refine Contrib.one ?_
    unfold Nest3.vJ Nest3.bJ
    refine Contrib.loopFac F1.ro hnone (fun jp hjp => ?_)
    refine Contrib.one ?_
    unfold Nest3.vI Nest3.bI
    refine Contrib.loopFac F1.ro hnone (fun ip hip => Contrib.ite (fun _ => ?_))
    rw [P.leni_eq]
    have hroom : g1.off + P.len0 ≤ M.g.off + (P.leng + used) := by omega
    have hgo : Lay M.g P.leng (g1 + P.len0) (M.g.off + (P.leng + used)) g1 P.len0 := by
      have := L1.alias (ctr := P.iCtr) (Ny := P.len0) fi fi P.leni_eq
      rwa [aliasAddr_ne hi] at this
    exact Contrib.prim (rdE := pure 1) (Gs := Blk M.g P.leng) S.ictr hip (fun _ => S.ti)
      (fun h => absurd h hi)
      (fun _ => ⟨fun h _ => by simp, L1.disj hroom |>.mono (le_refl _) (by rw [P.leni_eq]), by
        rintro q ⟨i, hi, rfl⟩
        exact ⟨L1.buf, Or.inr ⟨by simp, by simp only [Ptr.add_off]; omega⟩⟩⟩)
      (fun i hi hb => hgo.out i hi (blk_scr hb _ _)) (fun q hq => blk_scr hq _ _)
      (by rw [← P.leni_eq]; exact fun i hi hb => L1.out i hi (blk_scr hb _ _))
      (S.kern ip jp kp hip hjp hkp) _ _ (by rw [if_neg hi])
  have hR : P.nf * P.iCtr * P.nComp = P.leni := rfl
  have hA := S.acc
  rw [hN] at hA
  rw [← hR] at e1 hA hd H
  have hF := loopFrame_wp (T := T) (T' := T) (fl := M.fl) (R := P.nf * P.iCtr) (nC := P.nComp) (r := 0)
    (nfl := 4) (own := M.fl) (E := P.leng + used) (SI := FlS M.fl 0)
    (fun q x hq => Or.inl hq) e1 S.ncomp (by omega) rfl
    (by rintro q ⟨k, hk, _⟩; omega) S.fl S.flT S.emptyT S.emptyfl
    S.ro hA S.g (by omega) (by omega) hd H
  unfold loop3c_n11
  rw [hR] at e1
  simp only [e1]
  refine wp_mono hF ?_
  intro r h' hP
  unfold LoopPost3
  rw [hnc]
  exact hP

theorem loop3c_1n1_wp (hi : P.iCtr = 1) (hj : P.jCtr ≠ 1) (hk : P.kCtr = 1)
    (hu : aliasLen P.nComp (P.nf * P.jCtr * P.nComp) + P.len0 ≤ used)
    (S : Setup3 P M ti tj tk T keep w used b0 u h) :
    wp (loop3c_1n1 P M tj) (LoopPost3 P M used b0 u (P.bK keep) (P.vK keep w) h) h := by
  have l0 : P.leni = P.len0 := by rw [P.leni_eq, hi, Nat.mul_one]
  have l1 : P.lenj = P.nf * P.jCtr * P.nComp := by
    rw [P.lenj_eq, l0]; unfold Nest3.len0; ring
  have hN1 : P.len0 * P.jCtr = P.nf * P.jCtr * P.nComp := by unfold Nest3.len0; ring
  have hnc : P.nc = P.jCtr := by unfold Nest3.nc; rw [hi, hk]; simp
  have hN : P.nf * P.nc * P.nComp = P.nf * P.jCtr * P.nComp := by rw [hnc]
  rcases e1 : aliasAddr P.nComp M.gctr M.empty (M.fl + 1) (M.g + P.leng) (P.nf * P.jCtr * P.nComp)
    with ⟨gx, fx, g1⟩
  have o1 : g1.off = M.g.off + P.leng + aliasLen P.nComp (P.nf * P.jCtr * P.nComp) := by
    have := @alias_off P.nComp (P.nf * P.jCtr * P.nComp) M.gctr M.empty (M.fl + 1) (M.g+P.leng)
    rw [e1] at this; simpa using this
  have hd := S.disj
  rw [hN] at hd
  have L1 : Lay M.g P.leng g1 (M.g.off + (P.leng + used)) gx (P.nf * P.jCtr * P.nComp) :=
    Lay.outer e1 (by omega) hd
  have L2 : Lay M.g P.leng (g1 + P.len0) (M.g.off + (P.leng + used)) g1 P.len0 := by
    have := L1.alias (ctr := P.jCtr) (Ny := P.len0) fx fx hN1.symm
    rwa [aliasAddr_ne hj] at this
  have F0 : FlagOk T M.fl 1 M.empty := ⟨fun k hk => S.emptyfl k (by omega), S.emptyT⟩
  have F1 := F0.alias (r' := 1) (by omega) (S.flT 1 (by omega)) P.nComp M.gctr (M.g+P.leng)
    (P.nf * P.jCtr * P.nComp)
  rw [e1] at F1
  dsimp only at F1
  have hnI : T (M.fl) = none := S.flT 0 (by omega)
  have hno : ∀ q : Ptr, False → T q = none := fun q h => h.elim
  have hSI : ∀ q, q = M.fl → T q = none := by rintro q rfl; exact hnI
  have H : Contrib T (forN P.kPrim fun kp => forN P.jPrim fun jp =>
        levelBody P.jCtr P.jPrim fx (M.fl) gx g1 P.cj P.len0 tj.ctr tj.idx jp (fun fac =>
          forN P.iPrim fun ip =>
            if P.skip ip jp kp then pure () else do
            let r ← P.g0 ip jp kp (fac * P.ci ip * P.eij ip jp kp)
            if r then do
              let e ← ldI (M.fl)
              P.gout ip jp kp (fac * P.ci ip * P.eij ip jp kp) g1 e
              stI (M.fl) 0
            else pure ()) (P.common * P.ck kp))
      fx gx (P.nf * P.jCtr * P.nComp) (P.bK keep) (P.vK keep w)
      (Scr M.g P.leng g1 (M.g.off + (P.leng + used))) (fun q => q = M.fl) := by
    unfold Nest3.vK Nest3.bK
    refine Contrib.loopFac F1.ro hSI (fun kp hkp => ?_)
    rw [l1]
    refine Contrib.one ?_
    unfold Nest3.vJ Nest3.bJ
    refine Contrib.loopFac F1.ro hSI (fun jp hjp => ?_)
    rw [l0, ← hN1]
    refine Contrib.levelA (own := M.fl) (SI := fun _ => False) (SI' := fun q => q = M.fl) (aliasAddr_ne hj) (by rw [hN1]; exact L1)
      (by simp only [Ptr.add_off]; omega) S.jctr hjp (fun _ => S.tj)
      (fun _ => ⟨F1.ne 0 (by omega), hnI, rfl⟩) hno (fun h => h) (fun _ h => h.elim) (fun fac => ?_) _
    unfold Nest3.vI Nest3.bI
    refine Contrib.loopFac hnI hno (fun ip hip => Contrib.ite (fun _ => ?_))
    exact Contrib.primOne1 L2 hip (S.kern ip jp kp hip hjp hkp) _
  have hA := S.acc
  rw [hN] at hA
  have hF := loopFrame_wp (T := T) (T' := T) (fl := M.fl) (R := P.nf * P.jCtr) (nC := P.nComp) (r := 1)
    (nfl := 4) (own := M.fl + 1) (E := P.leng + used) (SI := fun q => q = M.fl)
    (fun q x hq => Or.inl hq) e1 S.ncomp (by omega) rfl
    (by rintro q rfl; exact ⟨0, by omega, by omega, rfl⟩) S.fl S.flT S.emptyT S.emptyfl
    S.ro hA S.g (by omega) (by omega) hd H
  unfold loop3c_1n1
  simp only [e1]
  simp only [levelBody, hj, if_false] at hF
  refine wp_mono hF ?_
  intro r h' hP
  unfold LoopPost3
  rw [hnc]
  exact hP

theorem loop3cDispatch_wp (S : Setup3 P M ti tj tk T keep w P.used b0 u h) :
    wp (loop3cDispatch P M ti tj tk) (LoopPost3 P M P.used b0 u (P.bK keep) (P.vK keep w) h) h := by
  have hgen := loop3c_wp (le_refl _) S
  unfold loop3cDispatch
  have hal : ∀ n, aliasLen 1 n = 0 := fun n => rfl
  have haln : ∀ c n, c ≠ 1 → aliasLen c n = n := fun c n h => by unfold aliasLen; rw [if_neg h]
  by_cases hi : P.iCtr = 1 <;> by_cases hj : P.jCtr = 1 <;> by_cases hk : P.kCtr = 1 <;>
    simp only [hi, hj, hk, decide_true, decide_false, Bool.false_eq_true, if_true, if_false] <;>
    try exact hgen
  · refine loop3c_111_wp hi hj hk ?_ S
    unfold Nest3.used
    rw [show P.lenk = P.len0 by unfold Nest3.lenk Nest3.len0 Nest3.nc; rw [hi, hj, hk]; ring]
    omega
  · refine loop3c_1n1_wp hi hj hk ?_ S
    unfold Nest3.used
    rw [hi, hk, hal, hal, haln _ _ hj,
      show P.lenk = P.nf * P.jCtr * P.nComp by unfold Nest3.lenk Nest3.nc; rw [hi, hk]; ring,
      show P.leni = P.len0 by unfold Nest3.leni Nest3.len0; rw [hi]; ring]
    omega
  · refine loop3c_n11_wp hi hj hk ?_ S
    unfold Nest3.used
    rw [hj, hk, hal, hal, haln _ _ hi,
      show P.lenk = P.leni by unfold Nest3.lenk Nest3.leni Nest3.nc; rw [hj, hk]; ring]
    omega

end

/-- Hypotheses of the three-centre loops that build the sparsity tables themselves in
`base[0..tblSize)`. -/
structure Setup3Nopt (P : Nest3 α) (M : MemN) (base : Ptr) (T : Ptr → Option Int)
    (keep : Nat → Nat → Nat → Bool) (w : Nat → Nat → Nat → Nat → α)
    (b0 : Bool) (u : Nat → α) (h : Heap α) : Prop where
  ictr : 1 ≤ P.iCtr
  jctr : 1 ≤ P.jCtr
  kctr : 1 ≤ P.kCtr
  ncomp : 1 ≤ P.nComp
  ro : RO T h
  tblw : ∀ k, k < P.tblSize → h.I (base + k) ≠ .oob
  tblT : ∀ k, k < P.tblSize → T (base + k) = none
  tblfl : Disj base P.tblSize M.fl 4
  tblempty : ∀ k, k < P.tblSize → M.empty ≠ base + k
  fl : ∀ k, k < 4 → h.I (M.fl + k) ≠ .oob
  flT : ∀ k, k < 4 → T (M.fl + k) = none
  emptyT : T M.empty = none
  emptyfl : ∀ k, k < 4 → M.empty ≠ M.fl + k
  g : AllocD h M.g (P.leng + P.used)
  disj : Disj M.gctr (P.nf * P.nc * P.nComp) M.g (P.leng + P.used)
  acc : AccSt h M.empty M.gctr (P.nf * P.nc * P.nComp) b0 u
  kern : ∀ ip jp kp, ip < P.iPrim → jp < P.jPrim → kp < P.kPrim →
    KernelSpec T (P.g0 ip jp kp) (P.gout ip jp kp) (Blk M.g P.leng) P.len0
      (keep ip jp kp) (w ip jp kp)

theorem TblIn.later {base : Ptr} {oc oi prim ctr oc' oi' prim' ctr' : Nat} {c : Nat → α}
    {x y : Heap α} (ht : TblIn x (base + oc) (base + oi) c prim ctr)
    (ha : AgreeI x y (fun q => ∃ i, q = base + i ∧ ((oc' ≤ i ∧ i < oc' + prim') ∨
        (oi' ≤ i ∧ i < oi' + prim'*ctr'))))
    (h1 : oc + prim ≤ oc') (h2 : oi + prim*ctr ≤ oi') (h3 : oc' + prim' ≤ oi) :
    TblIn y (base + oc) (base + oi) c prim ctr := by
  refine ht.agree ha ?_ ?_
  · rintro i hi ⟨j, e, hj⟩
    rw [Ptr.add_assoc, Ptr.add_right_inj] at e; omega
  · rintro i hi ⟨j, e, hj⟩
    rw [Ptr.add_assoc, Ptr.add_right_inj] at e; omega

omit [CommRing α] [DecidableEq α] in
theorem agree_blk {base : Ptr} {n oc oi prim ctr : Nat} {x y : Heap α}
    (ha : AgreeI x y (fun q => ∃ i, q = base + i ∧ ((oc ≤ i ∧ i < oc + prim) ∨
        (oi ≤ i ∧ i < oi + prim*ctr)))) (h1 : oc + prim ≤ n) (h2 : oi + prim*ctr ≤ n) :
    AgreeI x y (Blk base n) := by
  refine ha.mono ?_
  rintro q ⟨i, e, hi⟩
  exact ⟨i, by omega, e⟩

theorem tables3_wp {P : Nest3 α} {base : Ptr} {h : Heap α}
    (ha : ∀ k, k < P.tblSize → h.I (base + k) ≠ .oob) :
    let t := tbl3 P base
    wp (tables3 P t.1 t.2.1 t.2.2)
      (fun _ h' => h'.D = h.D ∧ AgreeI h h' (Blk base P.tblSize) ∧
        ∀ T, TblRO (roBlk T base P.tblSize h') t.1.ctr t.1.idx P.ci P.iPrim P.iCtr ∧
          TblRO (roBlk T base P.tblSize h') t.2.1.ctr t.2.1.idx P.cj P.jPrim P.jCtr ∧
          TblRO (roBlk T base P.tblSize h') t.2.2.ctr t.2.2.idx P.ck P.kPrim P.kCtr) h := by
  intro t
  simp only [t, tbl3, tables3, Ptr.add_assoc, wp_mbind]
  have hs : P.tblSize = P.iPrim+P.jPrim+P.kPrim+P.iPrim*P.iCtr+P.jPrim*P.jCtr+P.kPrim*P.kCtr := rfl
  refine wp_mono (non0coeff_blk (oc := 0) ha (by omega) (by omega)) ?_
  rintro _ h1 ⟨t1, a1, d1, al1⟩
  refine wp_mono (non0coeff_blk al1 (by omega) (by omega)) ?_
  rintro _ h2 ⟨t2, a2, d2, al2⟩
  refine wp_mono (non0coeff_blk al2 (by omega) (by omega)) ?_
  rintro _ h3 ⟨t3, a3, d3, al3⟩
  have u1 := t1.later a2 (by omega) (by omega) (by omega)
  have u1 := u1.later a3 (by omega) (by omega) (by omega)
  have u2 := t2.later a3 (by omega) (by omega) (by omega)
  refine ⟨by rw [d3, d2, d1], ?_, fun T => ⟨u1.ro (by omega) (by omega),
    u2.ro (by omega) (by omega), t3.ro (by omega) (by omega)⟩⟩
  have id' : ∀ q, Blk base P.tblSize q → Blk base P.tblSize q := fun _ x => x
  exact ((agree_blk a1 (by omega) (by omega)).trans (agree_blk a2 (by omega) (by omega)) id' id').trans
    (agree_blk a3 (by omega) (by omega)) id' id'

theorem Setup3Nopt.tables {P : Nest3 α} {M : MemN} {base : Ptr} {T : Ptr → Option Int}
    {keep : Nat → Nat → Nat → Bool} {w : Nat → Nat → Nat → Nat → α}
    {b0 : Bool} {u : Nat → α} {h : Heap α} (S : Setup3Nopt P M base T keep w b0 u h) :
    let t := tbl3 P base
    wp (tables3 P t.1 t.2.1 t.2.2) (fun _ h4 => ∃ T',
      Setup3 P M t.1 t.2.1 t.2.2 T' keep w P.used b0 u h4 ∧ h4.D = h.D ∧
      AgreeI h h4 (Blk base P.tblSize)) h := by
  intro t
  refine wp_mono (wp_allocMono (tables3_wp S.tblw)) (fun _ h4 H4 => ?_)
  obtain ⟨⟨hD4, hI4, hT4⟩, hm⟩ := H4
  obtain ⟨ti, tj, tk⟩ := hT4 T
  have hA4 : AccSt h4 M.empty M.gctr (P.nf * P.nc * P.nComp) b0 u :=
    S.acc.agree (WD := fun _ => False) (AgreeD.of_eq hD4 _) hI4 hm (fun _ _ x => x)
      (by rintro ⟨k, hk, e⟩; exact S.tblempty k hk e)
  have hroT : RO T h4 := S.ro.agree hI4 (by rintro q ⟨k, hk, rfl⟩; exact S.tblT k hk)
  exact ⟨_, { ictr := S.ictr, jctr := S.jctr, kctr := S.kctr, ncomp := S.ncomp
              ti := ti, tj := tj, tk := tk
              ro := roBlk_ro hroT
              fl := fun k hk => hm.I _ (S.fl k hk)
              flT := fun k hk => roBlk_none (S.flT k hk) (by rintro ⟨i, hi, e⟩; exact S.tblfl i k hi hk e.symm)
              emptyT := roBlk_none S.emptyT (by rintro ⟨i, hi, e⟩; exact S.tblempty i hi e)
              emptyfl := S.emptyfl
              g := by intro i hi; rw [hD4]; exact S.g i hi
              disj := S.disj
              acc := hA4
              kern := fun ip jp kp h1 h2 h3 => (S.kern ip jp kp h1 h2 h3).mono
                (fun q v hq => roBlk_ext S.tblT hq) }, hD4, hI4⟩

theorem loop3cNopt_wp {P : Nest3 α} {M : MemN} {base : Ptr} {T : Ptr → Option Int}
    {keep : Nat → Nat → Nat → Bool} {w : Nat → Nat → Nat → Nat → α}
    {b0 : Bool} {u : Nat → α} {h : Heap α} (S : Setup3Nopt P M base T keep w b0 u h) :
    wp (loop3cNopt P M base false) (fun res h' =>
      res = (b0 || P.bK keep) ∧
      AccSt h' M.empty M.gctr (P.nf * P.nc * P.nComp) (b0 || P.bK keep)
        (fun x => u x + compMajor (P.nf * P.nc) P.nComp (P.vK keep w) x) ∧
      AgreeD h h' (fun q => Blk M.gctr (P.nf * P.nc * P.nComp) q ∨
        Blk M.g (P.leng + P.used) q) ∧
      AgreeI h h' (fun q => q = M.empty ∨ Blk M.fl 4 q ∨ Blk base P.tblSize q)) h := by
  unfold loop3cNopt
  simp only [Bool.false_eq_true, if_false]
  rw [wp_mbind]
  refine wp_mono S.tables (fun _ h4 H4 => ?_)
  obtain ⟨T', S', hD4, hI4⟩ := H4
  refine wp_mono (loop3c_wp (le_refl _) S') ?_
  rintro res h5 ⟨hr, hA5, hD5, hI5⟩
  refine ⟨hr, hA5, (AgreeD.of_eq hD4 (fun _ => False)).trans hD5 (fun _ x => x.elim) (fun _ x => x),
    hI4.trans hI5 (fun q hq => Or.inr (Or.inr hq)) (fun q hq => hq.imp id Or.inl)⟩

end Verif.Model
