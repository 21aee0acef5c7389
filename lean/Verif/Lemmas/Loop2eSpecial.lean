import Verif.Lemmas.Loop2e

namespace Verif.Model
open Verif Prog

variable {α : Type} [CommRing α] [DecidableEq α]

/-- one-contraction innermost step as written in the specialised loops -/
theorem primBody_one (prim : Nat) (flag p a b : Ptr) (c : Nat → α) (n t : Nat) (f : α)
    (g0 : α → Prog α Bool) (fgout : α → Ptr → Int → Prog α Unit) :
    (do
      let r ← g0 f
      if r then do
        let e ← ldI flag
        fgout f p e
        stI flag 0
      else pure () : Prog α Unit) = primBodyE (ldI flag) 1 prim flag p p c n a b t f g0 fgout := by
  unfold primBodyE prim2ctr
  rfl

section
variable {T : Ptr → Option Int} {flag p : Ptr} {SI : Ptr → Prop}
    {g g1 : Ptr} {leng E Ng : Nat} {prim t : Nat} {c : Nat → α}
    {g0 : α → Prog α Bool} {fgout : α → Ptr → Int → Prog α Unit} {e1 e2 : α} {keep : Bool}
    {w : Nat → α}

theorem blk_scr {g : Ptr} {leng : Nat} {q : Ptr} (h : Blk g leng q) (g2 : Ptr) (E : Nat) :
    Scr g leng g2 E q := by
  obtain ⟨i, hi, rfl⟩ := h
  exact ⟨rfl, Or.inl ⟨by simp, by simp; omega⟩⟩

/-- innermost step of the loops with one contraction of the first shell -/
theorem Contrib.primOne (L : Lay g leng g1 E p Ng) (ht : t < prim)
    (hK : KernelSpec T g0 fgout (Blk g leng) Ng keep w) (fac : α) :
    Contrib T (do
      let r ← g0 (fac * c t * e1 * e2)
      if r then do
        let e ← ldI flag
        fgout (fac * c t * e1 * e2) p e
        stI flag 0
      else pure () : Prog α Unit)
      flag p Ng keep
      (fun m => fac * (if keep then c (prim*(m/Ng)+t) * ((e1 * e2) * w (m%Ng)) else 0))
      (Scr g leng g1 E) SI := by
  rw [primBody_one prim flag p p p c Ng t _ g0 fgout]
  have := Contrib.prim (T := T) (flag := flag) (p := p) (SD := Scr g leng g1 E) (SI := SI)
    (ctr := 1) (prim := prim) (Ng := Ng) (t := t) (gout := p) (non0ctr := p) (non0idx := p) (c := c)
    (rdE := ldI flag) (g0 := g0) (fgout := fgout) (expo := e1 * e2) (keep := keep) (w := w)
    (Gs := Blk g leng) (le_refl 1) ht (fun h => absurd rfl h) (fun _ => ⟨rfl, rfl⟩) (fun h => absurd rfl h)
    (fun i hi hb => L.out i hi (blk_scr hb _ _)) (fun q hq => blk_scr hq _ _)
    (by rw [Nat.mul_one]; exact fun i hi hb => L.out i hi (blk_scr hb _ _)) hK fac
    (fac * c t * e1 * e2) (by simp [mul_assoc])
  rw [Nat.mul_one] at this
  exact this

end

section
variable {Q : Quartet α} {M : Mem2e} {T : Ptr → Option Int}
  {keep : Nat → Nat → Nat → Nat → Bool} {w : Nat → Nat → Nat → Nat → Nat → α}
  {b0 : Bool} {u : Nat → α} {h : Heap α} {used : Nat}

theorem loop2e_1111_wp (hi : Q.iCtr = 1) (hj : Q.jCtr = 1) (hk : Q.kCtr = 1) (hl : Q.lCtr = 1)
    (hu : aliasLen Q.nComp Q.len0 ≤ used) (S : Setup2e Q M T keep w used b0 u h) :
    wp (loop2e_1111 Q M) (LoopPost Q M used b0 u (Q.bL keep) (Q.vL keep w) h) h := by
  have l1 : Q.leni = Q.len0 := by rw [Q.leni_eq, hi, Nat.mul_one]
  have l2 : Q.lenj = Q.len0 := by rw [Q.lenj_eq, hj, Nat.mul_one, l1]
  have l3 : Q.lenk = Q.len0 := by rw [Q.lenk_eq, hk, Nat.mul_one, l2]
  have l4 : Q.lenl = Q.len0 := by rw [Q.lenl_eq, hl, Nat.mul_one, l3]
  have hnc : Q.nc = 1 := by unfold Quartet.nc; rw [hi, hj, hk, hl]
  have hN : Q.nf * Q.nc * Q.nComp = Q.len0 := by rw [← l4]; rfl
  rcases e1 : aliasAddr Q.nComp M.gctr M.empty (M.fl + 4) (M.g + Q.leng) Q.len0 with ⟨go, fo, g1⟩
  have o1 : g1.off = M.g.off + Q.leng + aliasLen Q.nComp Q.len0 := by
    have := @alias_off Q.nComp Q.len0 M.gctr M.empty (M.fl+4) (M.g+Q.leng)
    rw [e1] at this; simpa using this
  have hgo : (if Q.nComp = 1 then M.gctr else M.g + Q.leng) = go := by
    have := congrArg Prod.fst e1; dsimp only at this; rw [← this]; unfold aliasAddr; split <;> rfl
  have hfo : (if Q.nComp = 1 then M.empty else M.fl + 4) = fo := by
    have := congrArg (fun x => x.2.1) e1; dsimp only at this; rw [← this]
    unfold aliasAddr; split <;> rfl
  have hd := S.disj
  rw [hN] at hd
  have L1 : Lay M.g Q.leng g1 (M.g.off + (Q.leng + used)) go Q.len0 := Lay.outer e1 (by omega) hd
  have F0 : FlagOk T M.fl 4 M.empty := ⟨fun k hk => S.emptyfl k (by omega), S.emptyT⟩
  have F1 := F0.alias (r' := 4) (by omega) (S.flT 4 (by omega)) Q.nComp M.gctr (M.g+Q.leng) Q.len0
  rw [e1] at F1
  dsimp only at F1
  have hnone : ∀ q, FlS M.fl 0 q → T q = none := fun q ⟨k, hk, _⟩ => by omega
  have H : Contrib T (forN Q.lPrim fun lp =>
      forN Q.kPrim fun kp =>
        if Q.skipKL kp lp then pure () else
        forN Q.jPrim fun jp =>
          forN Q.iPrim fun ip =>
            if Q.skipIJ ip jp kp lp then pure () else do
            let r ← Q.g0 ip jp kp lp
              (Q.common * Q.cl lp * Q.ck kp * Q.cj jp * Q.ci ip * Q.eij ip jp * Q.ekl kp lp)
            if r then do
              let e ← ldI fo
              Q.gout ip jp kp lp
                (Q.common * Q.cl lp * Q.ck kp * Q.cj jp * Q.ci ip * Q.eij ip jp * Q.ekl kp lp) go e
              stI fo 0
            else pure ()) fo go Q.len0 (Q.bL keep) (Q.vL keep w)
      (Scr M.g Q.leng g1 (M.g.off + (Q.leng + used))) (FlS M.fl 0) := by
    unfold Quartet.vL Quartet.bL
    refine Contrib.loopFac F1.ro hnone (fun lp hlp => ?_)
    rw [l3]
    refine Contrib.one ?_
    unfold Quartet.vK Quartet.bK
    refine Contrib.loopFac F1.ro hnone (fun kp hkp => Contrib.ite (fun _ => ?_))
    rw [l2]
    refine Contrib.one ?_
    unfold Quartet.vJ Quartet.bJ
    refine Contrib.loopFac F1.ro hnone (fun jp hjp => ?_)
    rw [l1]
    refine Contrib.one ?_
    unfold Quartet.vI Quartet.bI
    refine Contrib.loopFac F1.ro hnone (fun ip hip => Contrib.ite (fun _ => ?_))
    exact Contrib.primOne L1 hip (S.kern ip jp kp lp hip hjp hkp hlp) _
  have hR : Q.nf * 1 * Q.nComp = Q.len0 := by rw [Nat.mul_one]; rfl
  have hA := S.acc
  rw [hN] at hA
  rw [← hR] at e1 hA hd H
  have hF := loopFrame_wp (T := T) (T' := T) (fl := M.fl) (R := Q.nf * 1) (nC := Q.nComp) (r := 4)
    (own := M.fl + 4) (E := Q.leng + used) (SI := FlS M.fl 0)
    (fun q x hq => Or.inl hq) e1 S.ncomp (by omega) rfl
    (by rintro q ⟨k, hk, _⟩; omega) S.fl S.flT S.emptyT S.emptyfl
    S.ro hA S.g (by omega) (by omega) hd H
  unfold loop2e_1111
  simp only [hgo, hfo]
  refine wp_mono hF ?_
  intro r h' hP
  unfold LoopPost
  rw [hnc]
  exact hP

theorem loop2e_n111_wp (hi : Q.iCtr ≠ 1) (hj : Q.jCtr = 1) (hk : Q.kCtr = 1) (hl : Q.lCtr = 1)
    (hu : aliasLen Q.nComp Q.leni + Q.len0 ≤ used) (S : Setup2e Q M T keep w used b0 u h) :
    wp (loop2e_n111 Q M) (LoopPost Q M used b0 u (Q.bL keep) (Q.vL keep w) h) h := by
  have l2 : Q.lenj = Q.leni := by rw [Q.lenj_eq, hj, Nat.mul_one]
  have l3 : Q.lenk = Q.leni := by rw [Q.lenk_eq, hk, Nat.mul_one, l2]
  have l4 : Q.lenl = Q.leni := by rw [Q.lenl_eq, hl, Nat.mul_one, l3]
  have hnc : Q.nc = Q.iCtr := by unfold Quartet.nc; rw [hj, hk, hl]; simp
  have hN : Q.nf * Q.nc * Q.nComp = Q.leni := by rw [← l4]; rfl
  rcases e1 : aliasAddr Q.nComp M.gctr M.empty M.fl (M.g + Q.leng) Q.leni with ⟨gi, fi, g1⟩
  have o1 : g1.off = M.g.off + Q.leng + aliasLen Q.nComp Q.leni := by
    have := @alias_off Q.nComp Q.leni M.gctr M.empty M.fl (M.g+Q.leng)
    rw [e1] at this; simpa using this
  have hd := S.disj
  rw [hN] at hd
  have L1 : Lay M.g Q.leng g1 (M.g.off + (Q.leng + used)) gi Q.leni := Lay.outer e1 (by omega) hd
  have F0 : FlagOk T M.fl 0 M.empty := ⟨fun k hk => by omega, S.emptyT⟩
  have F1 := F0.alias (r' := 0) (by omega) (S.flT 0 (by omega)) Q.nComp M.gctr (M.g+Q.leng) Q.leni
  rw [show M.fl + 0 = M.fl from rfl, e1] at F1
  dsimp only at F1
  have hnone : ∀ q, FlS M.fl 0 q → T q = none := fun q ⟨k, hk, _⟩ => by omega
  have H : Contrib T (forN Q.lPrim fun lp =>
      forN Q.kPrim fun kp =>
        if Q.skipKL kp lp then pure () else
        forN Q.jPrim fun jp =>
          forN Q.iPrim fun ip =>
            if Q.skipIJ ip jp kp lp then pure () else do
            let r ← Q.g0 ip jp kp lp
              (Q.common * Q.cl lp * Q.ck kp * Q.cj jp * Q.eij ip jp * Q.ekl kp lp)
            if r then do
              Q.gout ip jp kp lp
                (Q.common * Q.cl lp * Q.ck kp * Q.cj jp * Q.eij ip jp * Q.ekl kp lp) g1 1
              prim2ctr Q.iCtr Q.iPrim fi gi g1 Q.ci ip Q.len0 M.non0ctri M.non0idxi
            else pure ()) fi gi Q.leni (Q.bL keep) (Q.vL keep w)
      (Scr M.g Q.leng g1 (M.g.off + (Q.leng + used))) (FlS M.fl 0) := by
    unfold Quartet.vL Quartet.bL
    refine Contrib.loopFac F1.ro hnone (fun lp hlp => ?_)
    rw [l3]
    refine Contrib.one ?_
    unfold Quartet.vK Quartet.bK
    refine Contrib.loopFac F1.ro hnone (fun kp hkp => Contrib.ite (fun _ => ?_))
    rw [l2]
    refine Contrib.one ?_
    unfold Quartet.vJ Quartet.bJ
    refine Contrib.loopFac F1.ro hnone (fun jp hjp => ?_)
    refine Contrib.one ?_
    unfold Quartet.vI Quartet.bI
    refine Contrib.loopFac F1.ro hnone (fun ip hip => Contrib.ite (fun _ => ?_))
    rw [Q.leni_eq]
    have hroom : g1.off + Q.len0 ≤ M.g.off + (Q.leng + used) := by omega
    have hgo : Lay M.g Q.leng (g1 + Q.len0) (M.g.off + (Q.leng + used)) g1 Q.len0 := by
      have := L1.alias (ctr := Q.iCtr) (Ny := Q.len0) fi fi Q.leni_eq
      rwa [aliasAddr_ne hi] at this
    exact Contrib.prim (rdE := pure 1) (Gs := Blk M.g Q.leng) S.ictr hip (fun _ => S.ti)
      (fun h => absurd h hi)
      (fun _ => ⟨fun h _ => by simp, L1.disj hroom |>.mono (le_refl _) (by rw [Q.leni_eq]), by
        rintro q ⟨i, hi, rfl⟩
        exact ⟨L1.buf, Or.inr ⟨by simp, by simp only [Ptr.add_off]; omega⟩⟩⟩)
      (fun i hi hb => hgo.out i hi (blk_scr hb _ _)) (fun q hq => blk_scr hq _ _)
      (by rw [← Q.leni_eq]; exact fun i hi hb => L1.out i hi (blk_scr hb _ _))
      (S.kern ip jp kp lp hip hjp hkp hlp) _ _ (by rw [if_neg hi]; ring)
  have hR : Q.nf * Q.iCtr * Q.nComp = Q.leni := rfl
  have hA := S.acc
  rw [hN] at hA
  rw [← hR] at e1 hA hd H
  have hF := loopFrame_wp (T := T) (T' := T) (fl := M.fl) (R := Q.nf * Q.iCtr) (nC := Q.nComp) (r := 0)
    (own := M.fl) (E := Q.leng + used) (SI := FlS M.fl 0)
    (fun q x hq => Or.inl hq) e1 S.ncomp (by omega) rfl
    (by rintro q ⟨k, hk, _⟩; omega) S.fl S.flT S.emptyT S.emptyfl
    S.ro hA S.g (by omega) (by omega) hd H
  unfold loop2e_n111
  rw [hR] at e1
  simp only [e1]
  refine wp_mono hF ?_
  intro r h' hP
  unfold LoopPost
  rw [hnc]
  exact hP
theorem loop2e_1n11_wp (hi : Q.iCtr = 1) (hj : Q.jCtr ≠ 1) (hk : Q.kCtr = 1) (hl : Q.lCtr = 1)
    (hu : aliasLen Q.nComp (Q.nf * Q.jCtr * Q.nComp) + Q.len0 ≤ used)
    (S : Setup2e Q M T keep w used b0 u h) :
    wp (loop2e_1n11 Q M) (LoopPost Q M used b0 u (Q.bL keep) (Q.vL keep w) h) h := by
  have l0 : Q.leni = Q.len0 := by rw [Q.leni_eq, hi, Nat.mul_one]
  have l1 : Q.lenj = Q.nf * Q.jCtr * Q.nComp := by
    rw [Q.lenj_eq, l0]; unfold Quartet.len0; ring
  have l2 : Q.lenk = Q.nf * Q.jCtr * Q.nComp := by rw [Q.lenk_eq, hk, Nat.mul_one]; exact l1
  have l3 : Q.lenl = Q.nf * Q.jCtr * Q.nComp := by rw [Q.lenl_eq, hl, Nat.mul_one]; exact l2
  have hN1 : Q.len0 * Q.jCtr = Q.nf * Q.jCtr * Q.nComp := by unfold Quartet.len0; ring
  have hnc : Q.nc = Q.jCtr := by unfold Quartet.nc; rw [hi, hk, hl]; simp
  have hN : Q.nf * Q.nc * Q.nComp = Q.nf * Q.jCtr * Q.nComp := by rw [hnc]
  rcases e1 : aliasAddr Q.nComp M.gctr M.empty (M.fl + 1) (M.g + Q.leng) (Q.nf * Q.jCtr * Q.nComp)
    with ⟨gx, fx, g1⟩
  have o1 : g1.off = M.g.off + Q.leng + aliasLen Q.nComp (Q.nf * Q.jCtr * Q.nComp) := by
    have := @alias_off Q.nComp (Q.nf * Q.jCtr * Q.nComp) M.gctr M.empty (M.fl + 1) (M.g+Q.leng)
    rw [e1] at this; simpa using this
  have hd := S.disj
  rw [hN] at hd
  have L1 : Lay M.g Q.leng g1 (M.g.off + (Q.leng + used)) gx (Q.nf * Q.jCtr * Q.nComp) :=
    Lay.outer e1 (by omega) hd
  have L2 : Lay M.g Q.leng (g1 + Q.len0) (M.g.off + (Q.leng + used)) g1 Q.len0 := by
    have := L1.alias (ctr := Q.jCtr) (Ny := Q.len0) fx fx hN1.symm
    rwa [aliasAddr_ne hj] at this
  have F0 : FlagOk T M.fl 1 M.empty := ⟨fun k hk => S.emptyfl k (by omega), S.emptyT⟩
  have F1 := F0.alias (r' := 1) (by omega) (S.flT 1 (by omega)) Q.nComp M.gctr (M.g+Q.leng)
    (Q.nf * Q.jCtr * Q.nComp)
  rw [e1] at F1
  dsimp only at F1
  have hnI : T (M.fl) = none := S.flT 0 (by omega)
  have hno : ∀ q : Ptr, False → T q = none := fun q h => h.elim
  have hSI : ∀ q, q = M.fl → T q = none := by rintro q rfl; exact hnI
  have H : Contrib T (forN Q.lPrim fun lp =>  forN Q.kPrim fun kp =>  if Q.skipKL kp lp then pure () else  forN Q.jPrim fun jp => levelBody Q.jCtr Q.jPrim fx (M.fl) gx g1 Q.cj Q.len0 M.non0ctrj M.non0idxj jp (fun fac => 
          forN Q.iPrim fun ip =>
            if Q.skipIJ ip jp kp lp then pure () else do
            let r ← Q.g0 ip jp kp lp (fac * Q.ci ip * Q.eij ip jp * Q.ekl kp lp)
            if r then do
              let e ← ldI (M.fl)
              Q.gout ip jp kp lp (fac * Q.ci ip * Q.eij ip jp * Q.ekl kp lp) g1 e
              stI (M.fl) 0
            else pure ()) (Q.common * Q.cl lp * Q.ck kp))
      fx gx (Q.nf * Q.jCtr * Q.nComp) (Q.bL keep) (Q.vL keep w)
      (Scr M.g Q.leng g1 (M.g.off + (Q.leng + used))) (fun q => q = M.fl) := by
    unfold Quartet.vL Quartet.bL
    refine Contrib.loopFac F1.ro hSI (fun lp hlp => ?_)
    rw [l2]
    refine Contrib.one ?_
    unfold Quartet.vK Quartet.bK
    refine Contrib.loopFac F1.ro hSI (fun kp hkp => Contrib.ite (fun _ => ?_))
    rw [l1]
    refine Contrib.one ?_
    unfold Quartet.vJ Quartet.bJ
    refine Contrib.loopFac F1.ro hSI (fun jp hjp => ?_)
    rw [l0, ← hN1]
    refine Contrib.levelA (own := M.fl) (SI := fun _ => False) (SI' := fun q => q = M.fl) (aliasAddr_ne hj) (by rw [hN1]; exact L1)
      (by simp only [Ptr.add_off]; omega) S.jctr hjp (fun _ => S.tj)
      (fun _ => ⟨F1.ne 0 (by omega), hnI, rfl⟩) hno (fun h => h) (fun _ h => h.elim) (fun fac => ?_) _
    unfold Quartet.vI Quartet.bI
    refine Contrib.loopFac hnI hno (fun ip hip => Contrib.ite (fun _ => ?_))
    exact Contrib.primOne L2 hip (S.kern ip jp kp lp hip hjp hkp hlp) _
  have hA := S.acc
  rw [hN] at hA
  have hF := loopFrame_wp (T := T) (T' := T) (fl := M.fl) (R := Q.nf * Q.jCtr) (nC := Q.nComp) (r := 1)
    (own := M.fl + 1) (E := Q.leng + used) (SI := fun q => q = M.fl)
    (fun q x hq => Or.inl hq) e1 S.ncomp (by omega) rfl
    (by rintro q rfl; exact ⟨0, by omega, by omega, rfl⟩) S.fl S.flT S.emptyT S.emptyfl
    S.ro hA S.g (by omega) (by omega) hd H
  unfold loop2e_1n11
  simp only [e1]
  simp only [levelBody, hj, if_false] at hF
  refine wp_mono hF ?_
  intro r h' hP
  unfold LoopPost
  rw [hnc]
  exact hP

theorem loop2e_11n1_wp (hi : Q.iCtr = 1) (hj : Q.jCtr = 1) (hk : Q.kCtr ≠ 1) (hl : Q.lCtr = 1)
    (hu : aliasLen Q.nComp (Q.nf * Q.kCtr * Q.nComp) + Q.len0 ≤ used)
    (S : Setup2e Q M T keep w used b0 u h) :
    wp (loop2e_11n1 Q M) (LoopPost Q M used b0 u (Q.bL keep) (Q.vL keep w) h) h := by
  have l0 : Q.leni = Q.len0 := by rw [Q.leni_eq, hi, Nat.mul_one]
  have l1 : Q.lenj = Q.len0 := by rw [Q.lenj_eq, hj, Nat.mul_one]; exact l0
  have l2 : Q.lenk = Q.nf * Q.kCtr * Q.nComp := by
    rw [Q.lenk_eq, l1]; unfold Quartet.len0; ring
  have l3 : Q.lenl = Q.nf * Q.kCtr * Q.nComp := by rw [Q.lenl_eq, hl, Nat.mul_one]; exact l2
  have hN1 : Q.len0 * Q.kCtr = Q.nf * Q.kCtr * Q.nComp := by unfold Quartet.len0; ring
  have hnc : Q.nc = Q.kCtr := by unfold Quartet.nc; rw [hi, hj, hl]; simp
  have hN : Q.nf * Q.nc * Q.nComp = Q.nf * Q.kCtr * Q.nComp := by rw [hnc]
  rcases e1 : aliasAddr Q.nComp M.gctr M.empty (M.fl + 2) (M.g + Q.leng) (Q.nf * Q.kCtr * Q.nComp)
    with ⟨gx, fx, g1⟩
  have o1 : g1.off = M.g.off + Q.leng + aliasLen Q.nComp (Q.nf * Q.kCtr * Q.nComp) := by
    have := @alias_off Q.nComp (Q.nf * Q.kCtr * Q.nComp) M.gctr M.empty (M.fl + 2) (M.g+Q.leng)
    rw [e1] at this; simpa using this
  have hd := S.disj
  rw [hN] at hd
  have L1 : Lay M.g Q.leng g1 (M.g.off + (Q.leng + used)) gx (Q.nf * Q.kCtr * Q.nComp) :=
    Lay.outer e1 (by omega) hd
  have L2 : Lay M.g Q.leng (g1 + Q.len0) (M.g.off + (Q.leng + used)) g1 Q.len0 := by
    have := L1.alias (ctr := Q.kCtr) (Ny := Q.len0) fx fx hN1.symm
    rwa [aliasAddr_ne hk] at this
  have F0 : FlagOk T M.fl 2 M.empty := ⟨fun k hk => S.emptyfl k (by omega), S.emptyT⟩
  have F1 := F0.alias (r' := 2) (by omega) (S.flT 2 (by omega)) Q.nComp M.gctr (M.g+Q.leng)
    (Q.nf * Q.kCtr * Q.nComp)
  rw [e1] at F1
  dsimp only at F1
  have hnI : T (M.fl + 1) = none := S.flT 1 (by omega)
  have hno : ∀ q : Ptr, False → T q = none := fun q h => h.elim
  have hSI : ∀ q, q = M.fl + 1 → T q = none := by rintro q rfl; exact hnI
  have H : Contrib T (forN Q.lPrim fun lp =>  forN Q.kPrim fun kp =>  if Q.skipKL kp lp then pure () else levelBody Q.kCtr Q.kPrim fx (M.fl + 1) gx g1 Q.ck Q.len0 M.non0ctrk M.non0idxk kp (fun fac =>  forN Q.jPrim fun jp => 
          forN Q.iPrim fun ip =>
            if Q.skipIJ ip jp kp lp then pure () else do
            let r ← Q.g0 ip jp kp lp (fac * Q.cj jp * Q.ci ip * Q.eij ip jp * Q.ekl kp lp)
            if r then do
              let e ← ldI (M.fl + 1)
              Q.gout ip jp kp lp (fac * Q.cj jp * Q.ci ip * Q.eij ip jp * Q.ekl kp lp) g1 e
              stI (M.fl + 1) 0
            else pure ()) (Q.common * Q.cl lp))
      fx gx (Q.nf * Q.kCtr * Q.nComp) (Q.bL keep) (Q.vL keep w)
      (Scr M.g Q.leng g1 (M.g.off + (Q.leng + used))) (fun q => q = M.fl + 1) := by
    unfold Quartet.vL Quartet.bL
    refine Contrib.loopFac F1.ro hSI (fun lp hlp => ?_)
    rw [l2]
    refine Contrib.one ?_
    unfold Quartet.vK Quartet.bK
    refine Contrib.loopFac F1.ro hSI (fun kp hkp => Contrib.ite (fun _ => ?_))
    rw [l1, ← hN1]
    refine Contrib.levelA (own := M.fl + 1) (SI := fun _ => False) (SI' := fun q => q = M.fl + 1) (aliasAddr_ne hk) (by rw [hN1]; exact L1)
      (by simp only [Ptr.add_off]; omega) S.kctr hkp (fun _ => S.tk)
      (fun _ => ⟨F1.ne 1 (by omega), hnI, rfl⟩) hno (fun h => h) (fun _ h => h.elim) (fun fac => ?_) _
    unfold Quartet.vJ Quartet.bJ
    refine Contrib.loopFac hnI hno (fun jp hjp => ?_)
    rw [l0]
    refine Contrib.one ?_
    unfold Quartet.vI Quartet.bI
    refine Contrib.loopFac hnI hno (fun ip hip => Contrib.ite (fun _ => ?_))
    exact Contrib.primOne L2 hip (S.kern ip jp kp lp hip hjp hkp hlp) _
  have hA := S.acc
  rw [hN] at hA
  have hF := loopFrame_wp (T := T) (T' := T) (fl := M.fl) (R := Q.nf * Q.kCtr) (nC := Q.nComp) (r := 2)
    (own := M.fl + 2) (E := Q.leng + used) (SI := fun q => q = M.fl + 1)
    (fun q x hq => Or.inl hq) e1 S.ncomp (by omega) rfl
    (by rintro q rfl; exact ⟨1, by omega, by omega, rfl⟩) S.fl S.flT S.emptyT S.emptyfl
    S.ro hA S.g (by omega) (by omega) hd H
  unfold loop2e_11n1
  simp only [e1]
  simp only [levelBody, hk, if_false] at hF
  refine wp_mono hF ?_
  intro r h' hP
  unfold LoopPost
  rw [hnc]
  exact hP

theorem loop2e_111n_wp (hi : Q.iCtr = 1) (hj : Q.jCtr = 1) (hk : Q.kCtr = 1) (hl : Q.lCtr ≠ 1)
    (hu : aliasLen Q.nComp (Q.nf * Q.lCtr * Q.nComp) + Q.len0 ≤ used)
    (S : Setup2e Q M T keep w used b0 u h) :
    wp (loop2e_111n Q M) (LoopPost Q M used b0 u (Q.bL keep) (Q.vL keep w) h) h := by
  have l0 : Q.leni = Q.len0 := by rw [Q.leni_eq, hi, Nat.mul_one]
  have l1 : Q.lenj = Q.len0 := by rw [Q.lenj_eq, hj, Nat.mul_one]; exact l0
  have l2 : Q.lenk = Q.len0 := by rw [Q.lenk_eq, hk, Nat.mul_one]; exact l1
  have l3 : Q.lenl = Q.nf * Q.lCtr * Q.nComp := by
    rw [Q.lenl_eq, l2]; unfold Quartet.len0; ring
  have hN1 : Q.len0 * Q.lCtr = Q.nf * Q.lCtr * Q.nComp := by unfold Quartet.len0; ring
  have hnc : Q.nc = Q.lCtr := by unfold Quartet.nc; rw [hi, hj, hk]; simp
  have hN : Q.nf * Q.nc * Q.nComp = Q.nf * Q.lCtr * Q.nComp := by rw [hnc]
  rcases e1 : aliasAddr Q.nComp M.gctr M.empty (M.fl + 3) (M.g + Q.leng) (Q.nf * Q.lCtr * Q.nComp)
    with ⟨gx, fx, g1⟩
  have o1 : g1.off = M.g.off + Q.leng + aliasLen Q.nComp (Q.nf * Q.lCtr * Q.nComp) := by
    have := @alias_off Q.nComp (Q.nf * Q.lCtr * Q.nComp) M.gctr M.empty (M.fl + 3) (M.g+Q.leng)
    rw [e1] at this; simpa using this
  have hd := S.disj
  rw [hN] at hd
  have L1 : Lay M.g Q.leng g1 (M.g.off + (Q.leng + used)) gx (Q.nf * Q.lCtr * Q.nComp) :=
    Lay.outer e1 (by omega) hd
  have L2 : Lay M.g Q.leng (g1 + Q.len0) (M.g.off + (Q.leng + used)) g1 Q.len0 := by
    have := L1.alias (ctr := Q.lCtr) (Ny := Q.len0) fx fx hN1.symm
    rwa [aliasAddr_ne hl] at this
  have F0 : FlagOk T M.fl 3 M.empty := ⟨fun k hk => S.emptyfl k (by omega), S.emptyT⟩
  have F1 := F0.alias (r' := 3) (by omega) (S.flT 3 (by omega)) Q.nComp M.gctr (M.g+Q.leng)
    (Q.nf * Q.lCtr * Q.nComp)
  rw [e1] at F1
  dsimp only at F1
  have hnI : T (M.fl + 2) = none := S.flT 2 (by omega)
  have hno : ∀ q : Ptr, False → T q = none := fun q h => h.elim
  have hSI : ∀ q, q = M.fl + 2 → T q = none := by rintro q rfl; exact hnI
  have H : Contrib T (forN Q.lPrim fun lp => levelBody Q.lCtr Q.lPrim fx (M.fl + 2) gx g1 Q.cl Q.len0 M.non0ctrl M.non0idxl lp (fun fac =>  forN Q.kPrim fun kp =>  if Q.skipKL kp lp then pure () else  forN Q.jPrim fun jp => 
          forN Q.iPrim fun ip =>
            if Q.skipIJ ip jp kp lp then pure () else do
            let r ← Q.g0 ip jp kp lp (fac * Q.ck kp * Q.cj jp * Q.ci ip * Q.eij ip jp * Q.ekl kp lp)
            if r then do
              let e ← ldI (M.fl + 2)
              Q.gout ip jp kp lp (fac * Q.ck kp * Q.cj jp * Q.ci ip * Q.eij ip jp * Q.ekl kp lp) g1 e
              stI (M.fl + 2) 0
            else pure ()) (Q.common))
      fx gx (Q.nf * Q.lCtr * Q.nComp) (Q.bL keep) (Q.vL keep w)
      (Scr M.g Q.leng g1 (M.g.off + (Q.leng + used))) (fun q => q = M.fl + 2) := by
    unfold Quartet.vL Quartet.bL
    refine Contrib.loopFac F1.ro hSI (fun lp hlp => ?_)
    rw [l2, ← hN1]
    refine Contrib.levelA (own := M.fl + 2) (SI := fun _ => False) (SI' := fun q => q = M.fl + 2) (aliasAddr_ne hl) (by rw [hN1]; exact L1)
      (by simp only [Ptr.add_off]; omega) S.lctr hlp (fun _ => S.tl)
      (fun _ => ⟨F1.ne 2 (by omega), hnI, rfl⟩) hno (fun h => h) (fun _ h => h.elim) (fun fac => ?_) _
    unfold Quartet.vK Quartet.bK
    refine Contrib.loopFac hnI hno (fun kp hkp => Contrib.ite (fun _ => ?_))
    rw [l1]
    refine Contrib.one ?_
    unfold Quartet.vJ Quartet.bJ
    refine Contrib.loopFac hnI hno (fun jp hjp => ?_)
    rw [l0]
    refine Contrib.one ?_
    unfold Quartet.vI Quartet.bI
    refine Contrib.loopFac hnI hno (fun ip hip => Contrib.ite (fun _ => ?_))
    exact Contrib.primOne L2 hip (S.kern ip jp kp lp hip hjp hkp hlp) _
  have hA := S.acc
  rw [hN] at hA
  have hF := loopFrame_wp (T := T) (T' := T) (fl := M.fl) (R := Q.nf * Q.lCtr) (nC := Q.nComp) (r := 3)
    (own := M.fl + 3) (E := Q.leng + used) (SI := fun q => q = M.fl + 2)
    (fun q x hq => Or.inl hq) e1 S.ncomp (by omega) rfl
    (by rintro q rfl; exact ⟨2, by omega, by omega, rfl⟩) S.fl S.flT S.emptyT S.emptyfl
    S.ro hA S.g (by omega) (by omega) hd H
  unfold loop2e_111n
  simp only [e1]
  simp only [levelBody, hl, if_false] at hF
  refine wp_mono hF ?_
  intro r h' hP
  unfold LoopPost
  rw [hnc]
  exact hP

end
end Verif.Model
