import Verif.Lemmas.Loop2eNopt

/-!
The loop nest over four shells when the primitive evaluation uses, besides `g`, scratch memory behind the intermediate blocks
(CINT4c1e_loop_nopt gives CINTg4c1e_ovlp the rest of the cache).  The proofs are those of Lemmas/Loop2e.lean and
Lemmas/Loop2eNopt.lean with the region the evaluation may write to as a parameter.
-/
namespace Verif.Model
open Verif Prog

variable {α : Type} [CommRing α] [DecidableEq α]

/-- the innermost step with the output block placed by ALIAS_ADDR_IF_EQUAL -/
theorem Contrib.primAG {T : Ptr → Option Int} {flag p : Ptr} {SI : Ptr → Prop}
    {g g1 own : Ptr} {leng E : Nat}
    {ctr prim Ng t : Nat} {non0ctr non0idx : Ptr} {c : Nat → α}
    {g0 : α → Prog α Bool} {fgout : α → Ptr → Int → Prog α Unit} {expo : α} {keep : Bool}
    {w : Nat → α} {gflag gout g1' : Ptr} {A : Nat} {Gs : Ptr → Prop}
    (hA : Ng ≤ A) (hy : aliasAddr ctr p flag own g1 A = (gout, gflag, g1'))
    (L : Lay g leng g1 E p (Ng*ctr)) (room : g1'.off ≤ E)
    (hctr : 1 ≤ ctr) (ht : t < prim) (htbl : ctr ≠ 1 → TblRO T non0ctr non0idx c prim ctr)
    (hown : ctr ≠ 1 → T own = some 1)
    (hK : KernelSpec T g0 fgout Gs Ng keep w)
    (hGs : ∀ q, Gs q → Scr g leng g1' E q) (fac fac1i : α)
    (hfac : fac1i = if ctr = 1 then fac * c t * expo else fac * expo) :
    Contrib T (primBody ctr prim flag gflag p gout c Ng non0ctr non0idx t fac1i g0 fgout)
      flag p (Ng*ctr) keep
      (fun m => fac * (if keep then c (prim*(m/Ng)+t) * (expo * w (m%Ng)) else 0))
      (Scr g leng g1 E) SI := by
  have Lg := L.alias' (ctr := ctr) (Ny := Ng) flag own rfl hA
  rw [hy] at Lg
  have hle : g1.off ≤ g1'.off := by
    have := @alias_le ctr A p flag own g1; rw [hy] at this; exact this
  refine Contrib.prim hctr ht htbl ?_ ?_ (fun i hi hb => Lg.not_scr (le_refl _) hi (hGs _ hb))
    (fun q hq => (hGs q hq).mono hle) (fun i hi hb => L.not_scr (le_refl _) hi ((hGs _ hb).mono hle))
    hK fac fac1i hfac
  · intro h1; subst h1
    rw [aliasAddr_one, Prod.mk.injEq, Prod.mk.injEq] at hy
    exact ⟨by rw [hy.2.1], hy.1.symm⟩
  · intro h1
    rw [aliasAddr_ne h1, Prod.mk.injEq, Prod.mk.injEq] at hy
    obtain ⟨rfl, rfl, rfl⟩ := hy
    refine ⟨fun h hT => by simp only [wp_ldI]; exact ⟨1, hT _ _ (hown h1), rfl, True.intro⟩, L.disj (by simp only [Ptr.add_off] at room; omega), ?_⟩
    rintro q ⟨i, hi, rfl⟩
    refine ⟨L.buf, Or.inr ⟨by simp, ?_⟩⟩
    simp only [Ptr.add_off] at room ⊢; omega


/-- Hypotheses under which the loops are run. -/
structure Setup4 (Q : Quartet α) (M : Mem2e) (T : Ptr → Option Int)
    (keep : Nat → Nat → Nat → Nat → Bool) (w : Nat → Nat → Nat → Nat → Nat → α)
    (Gs : Ptr → Prop) (used : Nat) (b0 : Bool) (u : Nat → α) (h : Heap α) : Prop where
  /-- every shell has at least one contraction, there is at least one component -/
  ictr : 1 ≤ Q.iCtr
  jctr : 1 ≤ Q.jCtr
  kctr : 1 ≤ Q.kCtr
  lctr : 1 ≤ Q.lCtr
  ncomp : 1 ≤ Q.nComp
  /-- the read-only tables hold the sparsity tables of the four shells -/
  ti : TblRO T M.non0ctri M.non0idxi Q.ci Q.iPrim Q.iCtr
  tj : TblRO T M.non0ctrj M.non0idxj Q.cj Q.jPrim Q.jCtr
  tk : TblRO T M.non0ctrk M.non0idxk Q.ck Q.kPrim Q.kCtr
  tl : TblRO T M.non0ctrl M.non0idxl Q.cl Q.lPrim Q.lCtr
  ro : RO T h
  /-- the local flags and the caller's flag are writable and separate from the tables -/
  fl : ∀ k, k < 5 → h.I (M.fl + k) ≠ .oob
  flT : ∀ k, k < 5 → T (M.fl + k) = none
  emptyT : T M.empty = none
  emptyfl : ∀ k, k < 5 → M.empty ≠ M.fl + k
  /-- the scratch block `g` is writable and separate from the output -/
  g : AllocD h M.g (Q.leng + used)
  disj : Disj M.gctr (Q.nf * Q.nc * Q.nComp) M.g (Q.leng + used)
  /-- the caller's accumulator -/
  acc : AccSt h M.empty M.gctr (Q.nf * Q.nc * Q.nComp) b0 u
  /-- the callbacks evaluate primitive quartets -/
  kern : ∀ ip jp kp lp, ip < Q.iPrim → jp < Q.jPrim → kp < Q.kPrim → lp < Q.lPrim →
    KernelSpec T (Q.g0 ip jp kp lp) (Q.gout ip jp kp lp) Gs Q.len0
      (keep ip jp kp lp) (w ip jp kp lp)


section
variable {Q : Quartet α} {M : Mem2e} {T : Ptr → Option Int}
  {keep : Nat → Nat → Nat → Nat → Bool} {w : Nat → Nat → Nat → Nat → Nat → α} {Gs : Ptr → Prop}
  {b0 : Bool} {u : Nat → α} {h : Heap α}

theorem loop2eCoreG_wp {used : Nat} (hu : Q.usedGen ≤ used)
    (hGs : ∀ q, Gs q → q.buf = M.g.buf ∧ ((M.g.off ≤ q.off ∧ q.off < M.g.off + Q.leng) ∨
      (M.g.off + (Q.leng + Q.usedGen) ≤ q.off ∧ q.off < M.g.off + (Q.leng + used))))
    (S : Setup4 Q M T keep w Gs used b0 u h)
    (facI : Quartet α → α → Nat → Nat → Nat → Nat → α)
    (hfac : ∀ fac ip jp kp lp, facI Q fac ip jp kp lp =
      if Q.iCtr = 1 then fac * Q.ci ip * (Q.eij ip jp * Q.ekl kp lp)
      else fac * (Q.eij ip jp * Q.ekl kp lp)) :
    wp (loop2eCore Q M facI) (LoopPost Q M used b0 u (Q.bL keep) (Q.vL keep w) h) h := by
  have h4 := S.flT 4 (by omega)
  have hTn : ∀ r, r < 4 → withG T (M.fl + 4) (M.fl + r) = none := fun r hr =>
    withG_none (S.flT r (by omega)) (fun e => by have := (Ptr.add_right_inj _ _ _).1 e; omega)
  have hFlS : ∀ r, r ≤ 4 → ∀ q, FlS M.fl r q → withG T (M.fl + 4) q = none := by
    rintro r hr q ⟨k, hk, rfl⟩; exact hTn k (by omega)
  -- the chain of blocks
  rcases e1 : aliasAddr Q.nComp M.gctr M.empty (M.fl + 3) (M.g + Q.leng) Q.lenl with ⟨gl, fl, g1⟩
  rcases e2 : aliasAddr Q.lCtr gl fl (M.fl + 2) g1 Q.lenk with ⟨gk, fk, g2⟩
  rcases e3 : aliasAddr Q.kCtr gk fk (M.fl + 1) g2 Q.lenj with ⟨gj, fj, g3⟩
  rcases e4 : aliasAddr Q.jCtr gj fj M.fl g3 Q.leni with ⟨gi, fi, g4⟩
  rcases e5 : aliasAddr Q.iCtr gi fi (M.fl + 4) g4 Q.len0 with ⟨go, fo, g5⟩
  have hd := S.disj
  -- free pointers
  have o1 : g1.off = M.g.off + Q.leng + aliasLen Q.nComp Q.lenl := by
    have := @alias_off Q.nComp Q.lenl M.gctr M.empty (M.fl+3) (M.g+Q.leng)
    rw [e1] at this; simpa using this
  have o2 : g2.off = g1.off + aliasLen Q.lCtr Q.lenk := by
    have := @alias_off Q.lCtr Q.lenk gl fl (M.fl+2) g1; rw [e2] at this; exact this
  have o3 : g3.off = g2.off + aliasLen Q.kCtr Q.lenj := by
    have := @alias_off Q.kCtr Q.lenj gk fk (M.fl+1) g2; rw [e3] at this; exact this
  have o4 : g4.off = g3.off + aliasLen Q.jCtr Q.leni := by
    have := @alias_off Q.jCtr Q.leni gj fj M.fl g3; rw [e4] at this; exact this
  have o5 : g5.off = g4.off + aliasLen Q.iCtr Q.len0 := by
    have := @alias_off Q.iCtr Q.len0 gi fi (M.fl+4) g4; rw [e5] at this; exact this
  have hE : g5.off ≤ M.g.off + (Q.leng + used) := by
    unfold Quartet.usedGen at hu; omega
  -- layout of the blocks
  have L1 : Lay M.g Q.leng g1 (M.g.off + (Q.leng + used)) gl Q.lenl :=
    Lay.outer e1 (by omega) hd
  have L2 := L1.alias (ctr := Q.lCtr) (Ny := Q.lenk) fl (M.fl+2) Q.lenl_eq
  rw [e2] at L2
  have L3 := L2.alias (ctr := Q.kCtr) (Ny := Q.lenj) fk (M.fl+1) Q.lenk_eq
  rw [e3] at L3
  have L4 := L3.alias (ctr := Q.jCtr) (Ny := Q.leni) fj M.fl Q.lenj_eq
  rw [e4] at L4
  dsimp only at L2 L3 L4
  -- flags
  have F0 : FlagOk (withG T (M.fl + 4)) M.fl 4 M.empty :=
    ⟨fun k hk => S.emptyfl k (by omega), withG_none S.emptyT (S.emptyfl 4 (by omega))⟩
  have F1 := F0.alias (r' := 3) (by omega) (hTn 3 (by omega)) Q.nComp M.gctr (M.g+Q.leng) Q.lenl
  rw [e1] at F1
  have F2 := F1.alias (r' := 2) (by omega) (hTn 2 (by omega)) Q.lCtr gl g1 Q.lenk
  rw [e2] at F2
  have F3 := F2.alias (r' := 1) (by omega) (hTn 1 (by omega)) Q.kCtr gk g2 Q.lenj
  rw [e3] at F3
  have F4 := F3.alias (r' := 0) (by omega) (hTn 0 (by omega)) Q.jCtr gj g3 Q.leni
  rw [show M.fl + 0 = M.fl from rfl, e4] at F4
  dsimp only at F1 F2 F3 F4
  -- the nest, from the inside out
  have Hi : ∀ jp kp lp, jp < Q.jPrim → kp < Q.kPrim → lp < Q.lPrim → ∀ fac,
      Contrib (withG T (M.fl + 4)) (forN Q.iPrim fun ip =>
        if Q.skipIJ ip jp kp lp then pure () else
        primBody Q.iCtr Q.iPrim fi fo gi go Q.ci Q.len0 M.non0ctri M.non0idxi
          ip (facI Q fac ip jp kp lp) (Q.g0 ip jp kp lp) (Q.gout ip jp kp lp))
        fi gi Q.leni (Q.bI keep jp kp lp) (fun m => fac * Q.vI keep w jp kp lp m)
        (Scr M.g Q.leng g4 (M.g.off + (Q.leng + used))) (FlS M.fl 0) := by
    intro jp kp lp hjp hkp hlp fac
    refine Contrib.loopFac F4.ro (hFlS 0 (by omega)) (fun ip hip => Contrib.ite (fun _ => ?_))
    rw [Q.leni_eq]
    refine Contrib.primAG (le_refl _) e5 (by rw [← Q.leni_eq]; exact L4) (by omega) S.ictr hip (fun _ => S.ti.withG h4)
      (fun _ => by unfold withG; rw [if_pos rfl])
      ((S.kern ip jp kp lp hip hjp hkp hlp).mono (fun q v => withG_ext h4))
      (fun q hq => ⟨(hGs q hq).1, (hGs q hq).2.imp id (fun hq => ⟨by unfold Quartet.usedGen at hq; omega, hq.2⟩)⟩) fac _ (hfac _ _ _ _ _)
  have Hj : ∀ kp lp, kp < Q.kPrim → lp < Q.lPrim → ∀ fac,
      Contrib (withG T (M.fl + 4)) (forN Q.jPrim fun jp =>
        levelBody Q.jCtr Q.jPrim fj fi gj gi Q.cj Q.leni M.non0ctrj M.non0idxj jp
              (fun fac1j => forN Q.iPrim fun ip =>
                if Q.skipIJ ip jp kp lp then pure () else
                primBody Q.iCtr Q.iPrim fi fo gi go Q.ci Q.len0 M.non0ctri M.non0idxi
                  ip (facI Q fac1j ip jp kp lp) (Q.g0 ip jp kp lp) (Q.gout ip jp kp lp))
              fac)
        fj gj Q.lenj (Q.bJ keep kp lp) (fun m => fac * Q.vJ keep w kp lp m)
        (Scr M.g Q.leng g3 (M.g.off + (Q.leng + used))) (FlS M.fl 1) := by
    intro kp lp hkp hlp fac
    refine Contrib.loopFac F3.ro (hFlS 1 (by omega)) (fun jp hjp => ?_)
    rw [Q.lenj_eq]
    exact Contrib.levelA e4 (by rw [← Q.lenj_eq]; exact L3) (by omega) S.jctr hjp (fun _ => S.tj.withG h4)
      (fun _ => ⟨F3.ne 0 (by omega), hTn 0 (by omega), 0, by omega, rfl⟩) (hFlS 0 (by omega))
      (fun ⟨k, hk, _⟩ => by omega) (fun q hq => hq.mono (by omega)) (Hi jp kp lp hjp hkp hlp) fac
  have Hk : ∀ lp, lp < Q.lPrim → ∀ fac,
      Contrib (withG T (M.fl + 4)) (forN Q.kPrim fun kp =>
        if Q.skipKL kp lp then pure () else
        levelBody Q.kCtr Q.kPrim fk fj gk gj Q.ck Q.lenj M.non0ctrk M.non0idxk kp
          (fun fac1k => forN Q.jPrim fun jp =>
            levelBody Q.jCtr Q.jPrim fj fi gj gi Q.cj Q.leni M.non0ctrj M.non0idxj jp
              (fun fac1j => forN Q.iPrim fun ip =>
                if Q.skipIJ ip jp kp lp then pure () else
                primBody Q.iCtr Q.iPrim fi fo gi go Q.ci Q.len0 M.non0ctri M.non0idxi
                  ip (facI Q fac1j ip jp kp lp) (Q.g0 ip jp kp lp) (Q.gout ip jp kp lp))
              fac1k) fac)
        fk gk Q.lenk (Q.bK keep lp) (fun m => fac * Q.vK keep w lp m)
        (Scr M.g Q.leng g2 (M.g.off + (Q.leng + used))) (FlS M.fl 2) := by
    intro lp hlp fac
    refine Contrib.loopFac F2.ro (hFlS 2 (by omega)) (fun kp hkp => Contrib.ite (fun _ => ?_))
    rw [Q.lenk_eq]
    exact Contrib.levelA e3 (by rw [← Q.lenk_eq]; exact L2) (by omega) S.kctr hkp (fun _ => S.tk.withG h4)
      (fun _ => ⟨F2.ne 1 (by omega), hTn 1 (by omega), 1, by omega, rfl⟩) (hFlS 1 (by omega))
      (fun ⟨k, hk, e⟩ => F2.ne k (by omega) e) (fun q hq => hq.mono (by omega)) (Hj kp lp hkp hlp) fac
  have Hl : Contrib (withG T (M.fl + 4)) (forN Q.lPrim fun lp =>
      levelBody Q.lCtr Q.lPrim fl fk gl gk Q.cl Q.lenk M.non0ctrl M.non0idxl lp
        (fun fac1l => forN Q.kPrim fun kp =>
          if Q.skipKL kp lp then pure () else
          levelBody Q.kCtr Q.kPrim fk fj gk gj Q.ck Q.lenj M.non0ctrk M.non0idxk kp
            (fun fac1k => forN Q.jPrim fun jp =>
              levelBody Q.jCtr Q.jPrim fj fi gj gi Q.cj Q.leni M.non0ctrj M.non0idxj jp
                (fun fac1j => forN Q.iPrim fun ip =>
                  if Q.skipIJ ip jp kp lp then pure () else
                  primBody Q.iCtr Q.iPrim fi fo gi go Q.ci Q.len0 M.non0ctri M.non0idxi
                    ip (facI Q fac1j ip jp kp lp) (Q.g0 ip jp kp lp) (Q.gout ip jp kp lp))
                fac1k) fac1l) Q.common)
        fl gl Q.lenl (Q.bL keep) (Q.vL keep w)
        (Scr M.g Q.leng g1 (M.g.off + (Q.leng + used))) (FlS M.fl 3) := by
    refine Contrib.loopFac F1.ro (hFlS 3 (by omega)) (fun lp hlp => ?_)
    rw [Q.lenl_eq]
    exact Contrib.levelA e2 (by rw [← Q.lenl_eq]; exact L1) (by omega) S.lctr hlp (fun _ => S.tl.withG h4)
      (fun _ => ⟨F1.ne 2 (by omega), hTn 2 (by omega), 2, by omega, rfl⟩) (hFlS 2 (by omega))
      (fun ⟨k, hk, e⟩ => F1.ne k (by omega) e) (fun q hq => hq.mono (by omega)) (Hk lp hlp) Q.common
  have hF := loopFrame_wp (T := T) (T' := withG T (M.fl + 4)) (fl := M.fl) (R := Q.nf * Q.nc) (r := 3)
    (by
      intro q x hq
      unfold withG at hq
      split at hq
      · rename_i e; exact Or.inr ⟨4, by omega, e, by cases hq; rfl⟩
      · exact Or.inl hq) e1 S.ncomp (by omega) rfl
    (by rintro q ⟨k, hk, rfl⟩; exact ⟨k, by omega, by omega, rfl⟩) S.fl S.flT S.emptyT S.emptyfl
    S.ro S.acc S.g (by omega) (by omega) S.disj Hl
  unfold loop2eCore
  simp only [e1, e2, e3, e4, e5]
  exact hF

end


/-- Hypotheses of CINT2e_loop_nopt, which builds its sparsity tables itself in the block
`tbl[0..tblSize)`. -/
structure SetupNoptG (Q : Quartet α) (M : Mem2e) (tbl : Ptr) (T : Ptr → Option Int)
    (keep : Nat → Nat → Nat → Nat → Bool) (w : Nat → Nat → Nat → Nat → Nat → α)
    (Gs : Ptr → Prop) (used : Nat) (b0 : Bool) (u : Nat → α) (h : Heap α) : Prop where
  ictr : 1 ≤ Q.iCtr
  jctr : 1 ≤ Q.jCtr
  kctr : 1 ≤ Q.kCtr
  lctr : 1 ≤ Q.lCtr
  ncomp : 1 ≤ Q.nComp
  /-- `T` describes read-only tables used by the callbacks (the index table `idx`) -/
  ro : RO T h
  /-- the table block is writable and separate from everything else -/
  tblw : ∀ k, k < Q.tblSize → h.I (tbl + k) ≠ .oob
  tblT : ∀ k, k < Q.tblSize → T (tbl + k) = none
  tblfl : Disj tbl Q.tblSize M.fl 5
  tblempty : ∀ k, k < Q.tblSize → M.empty ≠ tbl + k
  fl : ∀ k, k < 5 → h.I (M.fl + k) ≠ .oob
  flT : ∀ k, k < 5 → T (M.fl + k) = none
  emptyT : T M.empty = none
  emptyfl : ∀ k, k < 5 → M.empty ≠ M.fl + k
  g : AllocD h M.g (Q.leng + used)
  disj : Disj M.gctr (Q.nf * Q.nc * Q.nComp) M.g (Q.leng + used)
  acc : AccSt h M.empty M.gctr (Q.nf * Q.nc * Q.nComp) b0 u
  kern : ∀ ip jp kp lp, ip < Q.iPrim → jp < Q.jPrim → kp < Q.kPrim → lp < Q.lPrim →
    KernelSpec T (Q.g0 ip jp kp lp) (Q.gout ip jp kp lp) Gs Q.len0
      (keep ip jp kp lp) (w ip jp kp lp)


/-- after building its tables the function without optimizer is in the situation of the one
with optimizer -/
theorem SetupNoptG.tables {Q : Quartet α} {M : Mem2e} {tbl : Ptr} {T : Ptr → Option Int}
    {keep : Nat → Nat → Nat → Nat → Bool} {w : Nat → Nat → Nat → Nat → Nat → α}
    {Gs : Ptr → Prop} {used : Nat} {b0 : Bool} {u : Nat → α} {h : Heap α} (S : SetupNoptG Q M tbl T keep w Gs used b0 u h) :
    wp (tables2e Q (M.withTables Q tbl)) (fun _ h4 => ∃ T',
      Setup4 Q (M.withTables Q tbl) T' keep w Gs used b0 u h4 ∧ h4.D = h.D ∧
      AgreeI h h4 (Blk tbl Q.tblSize)) h := by
  unfold tables2e
  refine wp_mono (wp_allocMono (@tables2e_wp α _ _ Q M tbl h S.tblw)) (fun _ h4 H4 => ?_)
  obtain ⟨⟨hD4, hI4, hT4⟩, hm⟩ := H4
  obtain ⟨ti, tj, tk, tl⟩ := hT4 T
  have hA4 : AccSt h4 M.empty M.gctr (Q.nf * Q.nc * Q.nComp) b0 u :=
    S.acc.agree (WD := fun _ => False) (AgreeD.of_eq hD4 _) hI4 hm (fun _ _ x => x)
      (by rintro ⟨k, hk, e⟩; exact S.tblempty k hk e)
  have hroT : RO T h4 := S.ro.agree hI4 (by rintro q ⟨k, hk, rfl⟩; exact S.tblT k hk)
  have S' : Setup4 Q (M.withTables Q tbl) (roBlk T tbl Q.tblSize h4) keep w Gs used b0 u h4 :=
    { ictr := S.ictr, jctr := S.jctr, kctr := S.kctr, lctr := S.lctr, ncomp := S.ncomp
      ti := ti, tj := tj, tk := tk, tl := tl
      ro := roBlk_ro hroT
      fl := fun k hk => hm.I _ (S.fl k hk)
      flT := fun k hk => roBlk_none (S.flT k hk) (by rintro ⟨i, hi, e⟩; exact S.tblfl i k hi hk e.symm)
      emptyT := roBlk_none S.emptyT (by rintro ⟨i, hi, e⟩; exact S.tblempty i hi e)
      emptyfl := S.emptyfl
      g := by intro i hi; rw [hD4]; exact S.g i hi
      disj := S.disj
      acc := hA4
      kern := fun ip jp kp lp h1 h2 h3 h4 => (S.kern ip jp kp lp h1 h2 h3 h4).mono
        (fun q v hq => roBlk_ext S.tblT hq) }
  exact ⟨_, S', hD4, hI4⟩

theorem loop2eNoptG_wp {Q : Quartet α} {M : Mem2e} {tbl : Ptr} {T : Ptr → Option Int}
    {keep : Nat → Nat → Nat → Nat → Bool} {w : Nat → Nat → Nat → Nat → Nat → α}
    {Gs : Ptr → Prop} {used : Nat} {b0 : Bool} {u : Nat → α} {h : Heap α} (S : SetupNoptG Q M tbl T keep w Gs used b0 u h)
    (hu : Q.usedGen ≤ used)
    (hGs : ∀ q, Gs q → q.buf = M.g.buf ∧ ((M.g.off ≤ q.off ∧ q.off < M.g.off + Q.leng) ∨
      (M.g.off + (Q.leng + Q.usedGen) ≤ q.off ∧ q.off < M.g.off + (Q.leng + used)))) :
    wp (loop2eNopt Q M tbl false) (fun res h' =>
      res = (b0 || Q.bL keep) ∧
      AccSt h' M.empty M.gctr (Q.nf * Q.nc * Q.nComp) (b0 || Q.bL keep)
        (fun x => u x + compMajor (Q.nf * Q.nc) Q.nComp (Q.vL keep w) x) ∧
      AgreeD h h' (fun q => Blk M.gctr (Q.nf * Q.nc * Q.nComp) q ∨
        Blk M.g (Q.leng + used) q) ∧
      AgreeI h h' (fun q => q = M.empty ∨ Blk M.fl 5 q ∨ Blk tbl Q.tblSize q)) h := by
  unfold loop2eNopt
  simp only [Bool.false_eq_true, if_false, wp_mbind]
  have hw := S.tables
  unfold tables2e at hw
  simp only [wp_mbind] at hw
  refine wp_mono hw (fun _ h1 H1 => wp_mono H1 (fun _ h2 H2 => wp_mono H2 (fun _ h3 H3 =>
    wp_mono H3 (fun _ h4 H4 => ?_))))
  obtain ⟨T', S', hD4, hI4⟩ := H4
  refine wp_mono (loop2eCoreG_wp (M := M.withTables Q tbl) hu hGs S' fac1iNopt (fun _ _ _ _ _ => rfl)) ?_
  rintro res h5 ⟨hr, hA5, hD5, hI5⟩
  refine ⟨hr, hA5, (AgreeD.of_eq hD4 (fun _ => False)).trans hD5 (fun _ x => x.elim) (fun _ x => x),
    hI4.trans hI5 (fun q hq => Or.inr (Or.inr hq)) (fun q hq => hq.imp id Or.inl)⟩

end Verif.Model
