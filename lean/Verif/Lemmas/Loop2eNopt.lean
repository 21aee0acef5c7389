import Verif.Lemmas.Loop2e
import Verif.Lemmas.Tables

namespace Verif.Model
open Verif Prog

variable {α : Type} [CommRing α] [DecidableEq α]

/-- Hypotheses of CINT2e_loop_nopt, which builds its sparsity tables itself in the block
`tbl[0..tblSize)`. -/
structure SetupNopt (Q : Quartet α) (M : Mem2e) (tbl : Ptr) (T : Ptr → Option Int)
    (keep : Nat → Nat → Nat → Nat → Bool) (w : Nat → Nat → Nat → Nat → Nat → α)
    (b0 : Bool) (u : Nat → α) (h : Heap α) : Prop where
  ictr : 1 ≤ Q.iCtr
  jctr : 1 ≤ Q.jCtr
  kctr : 1 ≤ Q.kCtr
  lctr : 1 ≤ Q.lCtr
  ncomp : 1 ≤ Q.nComp
  /-- `T` describes read-only tables used by the callbacks (the index table `idx`) -/
  ro : RO T h
  /-- the table block is writable and separate from everything else -/
  tblw : ∀ k, k < Q.tblSize → h.I (tbl + k) ≠ .oob
  tblT : ∀ k, k < Q.tblSize → T (tbl + k) = none
  tblfl : Disj tbl Q.tblSize M.fl 5
  tblempty : ∀ k, k < Q.tblSize → M.empty ≠ tbl + k
  fl : ∀ k, k < 5 → h.I (M.fl + k) ≠ .oob
  flT : ∀ k, k < 5 → T (M.fl + k) = none
  emptyT : T M.empty = none
  emptyfl : ∀ k, k < 5 → M.empty ≠ M.fl + k
  g : AllocD h M.g (Q.leng + Q.usedGen)
  disj : Disj M.gctr (Q.nf * Q.nc * Q.nComp) M.g (Q.leng + Q.usedGen)
  acc : AccSt h M.empty M.gctr (Q.nf * Q.nc * Q.nComp) b0 u
  kern : ∀ ip jp kp lp, ip < Q.iPrim → jp < Q.jPrim → kp < Q.kPrim → lp < Q.lPrim →
    KernelSpec T (Q.g0 ip jp kp lp) (Q.gout ip jp kp lp) (Blk M.g Q.leng) Q.len0
      (keep ip jp kp lp) (w ip jp kp lp)

/-- table building (l.165-168) -/
theorem tables2e_wp {Q : Quartet α} {M : Mem2e} {tbl : Ptr} {h : Heap α}
    (ha : ∀ k, k < Q.tblSize → h.I (tbl + k) ≠ .oob) :
    let M' := M.withTables Q tbl
    wp (do
        non0coeffByshell M'.non0idxi M'.non0ctri Q.ci Q.iPrim Q.iCtr
        non0coeffByshell M'.non0idxj M'.non0ctrj Q.cj Q.jPrim Q.jCtr
        non0coeffByshell M'.non0idxk M'.non0ctrk Q.ck Q.kPrim Q.kCtr
        non0coeffByshell M'.non0idxl M'.non0ctrl Q.cl Q.lPrim Q.lCtr : Prog α Unit)
      (fun _ h' => h'.D = h.D ∧ AgreeI h h' (Blk tbl Q.tblSize) ∧
        ∀ T, TblRO (roBlk T tbl Q.tblSize h') M'.non0ctri M'.non0idxi Q.ci Q.iPrim Q.iCtr ∧
          TblRO (roBlk T tbl Q.tblSize h') M'.non0ctrj M'.non0idxj Q.cj Q.jPrim Q.jCtr ∧
          TblRO (roBlk T tbl Q.tblSize h') M'.non0ctrk M'.non0idxk Q.ck Q.kPrim Q.kCtr ∧
          TblRO (roBlk T tbl Q.tblSize h') M'.non0ctrl M'.non0idxl Q.cl Q.lPrim Q.lCtr) h := by
  intro M'
  simp only [M', Mem2e.withTables, Ptr.add_assoc]
  simp only [wp_mbind]
  have hs : Q.tblSize = Q.iPrim+Q.jPrim+Q.kPrim+Q.lPrim+Q.iPrim*Q.iCtr+Q.jPrim*Q.jCtr
    +Q.kPrim*Q.kCtr+Q.lPrim*Q.lCtr := rfl
  refine wp_mono (non0coeff_blk (oc := 0) ha (by omega) (by omega)) ?_
  rintro _ h1 ⟨t1, a1, d1, al1⟩
  refine wp_mono (non0coeff_blk al1 (by omega) (by omega)) ?_
  rintro _ h2 ⟨t2, a2, d2, al2⟩
  refine wp_mono (non0coeff_blk al2 (by omega) (by omega)) ?_
  rintro _ h3 ⟨t3, a3, d3, al3⟩
  refine wp_mono (non0coeff_blk al3 (by omega) (by omega)) ?_
  rintro _ h4 ⟨t4, a4, d4, al4⟩
  have key : ∀ {oc oi prim ctr oc' oi' prim' ctr' : Nat} {c : Nat → α} {x y : Heap α},
      TblIn x (tbl + oc) (tbl + oi) c prim ctr →
      AgreeI x y (fun q => ∃ i, q = tbl + i ∧ ((oc' ≤ i ∧ i < oc' + prim') ∨
        (oi' ≤ i ∧ i < oi' + prim'*ctr'))) →
      oc + prim ≤ oc' → oi + prim*ctr ≤ oi' → oc' + prim' ≤ oi → 
      TblIn y (tbl + oc) (tbl + oi) c prim ctr := by
    intro oc oi prim ctr oc' oi' prim' ctr' c x y ht ha h1 h2 h3
    refine ht.agree ha ?_ ?_
    · rintro i hi ⟨j, e, hj⟩
      rw [Ptr.add_assoc, Ptr.add_right_inj] at e; omega
    · rintro i hi ⟨j, e, hj⟩
      rw [Ptr.add_assoc, Ptr.add_right_inj] at e; omega
  have u1 := key t1 a2 (by omega) (by omega) (by omega)
  have u1 := key u1 a3 (by omega) (by omega) (by omega)
  have u1 := key u1 a4 (by omega) (by omega) (by omega)
  have u2 := key t2 a3 (by omega) (by omega) (by omega)
  have u2 := key u2 a4 (by omega) (by omega) (by omega)
  have u3 := key t3 a4 (by omega) (by omega) (by omega)
  have hW : ∀ {oc oi prim ctr : Nat} {x y : Heap α},
      AgreeI x y (fun q => ∃ i, q = tbl + i ∧ ((oc ≤ i ∧ i < oc + prim) ∨
        (oi ≤ i ∧ i < oi + prim*ctr))) → oc + prim ≤ Q.tblSize → oi + prim*ctr ≤ Q.tblSize →
      AgreeI x y (Blk tbl Q.tblSize) := by
    intro oc oi prim ctr x y ha h1 h2
    refine ha.mono ?_
    rintro q ⟨i, e, hi⟩
    exact ⟨i, by omega, e⟩
  refine ⟨by rw [d4, d3, d2, d1], ?_, fun T => ⟨u1.ro (by omega) (by omega),
    u2.ro (by omega) (by omega), u3.ro (by omega) (by omega), t4.ro (by omega) (by omega)⟩⟩
  have id' : ∀ q, Blk tbl Q.tblSize q → Blk tbl Q.tblSize q := fun _ x => x
  exact (((hW a1 (by omega) (by omega)).trans (hW a2 (by omega) (by omega)) id' id').trans
    (hW a3 (by omega) (by omega)) id' id').trans (hW a4 (by omega) (by omega)) id' id'

/-- the four table-building calls, l.165-168 -/
def tables2e (Q : Quartet α) (M : Mem2e) : Prog α Unit := do
  non0coeffByshell M.non0idxi M.non0ctri Q.ci Q.iPrim Q.iCtr
  non0coeffByshell M.non0idxj M.non0ctrj Q.cj Q.jPrim Q.jCtr
  non0coeffByshell M.non0idxk M.non0ctrk Q.ck Q.kPrim Q.kCtr
  non0coeffByshell M.non0idxl M.non0ctrl Q.cl Q.lPrim Q.lCtr

/-- after building its tables the function without optimizer is in the situation of the one
with optimizer -/
theorem SetupNopt.tables {Q : Quartet α} {M : Mem2e} {tbl : Ptr} {T : Ptr → Option Int}
    {keep : Nat → Nat → Nat → Nat → Bool} {w : Nat → Nat → Nat → Nat → Nat → α}
    {b0 : Bool} {u : Nat → α} {h : Heap α} (S : SetupNopt Q M tbl T keep w b0 u h) :
    wp (tables2e Q (M.withTables Q tbl)) (fun _ h4 => ∃ T',
      Setup2e Q (M.withTables Q tbl) T' keep w Q.usedGen b0 u h4 ∧ h4.D = h.D ∧
      AgreeI h h4 (Blk tbl Q.tblSize)) h := by
  unfold tables2e
  refine wp_mono (wp_allocMono (@tables2e_wp α _ _ Q M tbl h S.tblw)) (fun _ h4 H4 => ?_)
  obtain ⟨⟨hD4, hI4, hT4⟩, hm⟩ := H4
  obtain ⟨ti, tj, tk, tl⟩ := hT4 T
  have hA4 : AccSt h4 M.empty M.gctr (Q.nf * Q.nc * Q.nComp) b0 u :=
    S.acc.agree (WD := fun _ => False) (AgreeD.of_eq hD4 _) hI4 hm (fun _ _ x => x)
      (by rintro ⟨k, hk, e⟩; exact S.tblempty k hk e)
  have hroT : RO T h4 := S.ro.agree hI4 (by rintro q ⟨k, hk, rfl⟩; exact S.tblT k hk)
  have S' : Setup2e Q (M.withTables Q tbl) (roBlk T tbl Q.tblSize h4) keep w Q.usedGen b0 u h4 :=
    { ictr := S.ictr, jctr := S.jctr, kctr := S.kctr, lctr := S.lctr, ncomp := S.ncomp
      ti := ti, tj := tj, tk := tk, tl := tl
      ro := roBlk_ro hroT
      fl := fun k hk => hm.I _ (S.fl k hk)
      flT := fun k hk => roBlk_none (S.flT k hk) (by rintro ⟨i, hi, e⟩; exact S.tblfl i k hi hk e.symm)
      emptyT := roBlk_none S.emptyT (by rintro ⟨i, hi, e⟩; exact S.tblempty i hi e)
      emptyfl := S.emptyfl
      g := by intro i hi; rw [hD4]; exact S.g i hi
      disj := S.disj
      acc := hA4
      kern := fun ip jp kp lp h1 h2 h3 h4 => (S.kern ip jp kp lp h1 h2 h3 h4).mono
        (fun q v hq => roBlk_ext S.tblT hq) }
  exact ⟨_, S', hD4, hI4⟩

theorem loop2eNopt_wp {Q : Quartet α} {M : Mem2e} {tbl : Ptr} {T : Ptr → Option Int}
    {keep : Nat → Nat → Nat → Nat → Bool} {w : Nat → Nat → Nat → Nat → Nat → α}
    {b0 : Bool} {u : Nat → α} {h : Heap α} (S : SetupNopt Q M tbl T keep w b0 u h) :
    wp (loop2eNopt Q M tbl false) (fun res h' =>
      res = (b0 || Q.bL keep) ∧
      AccSt h' M.empty M.gctr (Q.nf * Q.nc * Q.nComp) (b0 || Q.bL keep)
        (fun x => u x + compMajor (Q.nf * Q.nc) Q.nComp (Q.vL keep w) x) ∧
      AgreeD h h' (fun q => Blk M.gctr (Q.nf * Q.nc * Q.nComp) q ∨
        Blk M.g (Q.leng + Q.usedGen) q) ∧
      AgreeI h h' (fun q => q = M.empty ∨ Blk M.fl 5 q ∨ Blk tbl Q.tblSize q)) h := by
  unfold loop2eNopt
  simp only [Bool.false_eq_true, if_false, wp_mbind]
  have hw := S.tables
  unfold tables2e at hw
  simp only [wp_mbind] at hw
  refine wp_mono hw (fun _ h1 H1 => wp_mono H1 (fun _ h2 H2 => wp_mono H2 (fun _ h3 H3 =>
    wp_mono H3 (fun _ h4 H4 => ?_))))
  obtain ⟨T', S', hD4, hI4⟩ := H4
  refine wp_mono (loop2eCore_wp (le_refl _) S' fac1iNopt (fun _ _ _ _ _ => rfl)) ?_
  rintro res h5 ⟨hr, hA5, hD5, hI5⟩
  refine ⟨hr, hA5, (AgreeD.of_eq hD4 (fun _ => False)).trans hD5 (fun _ x => x.elim) (fun _ x => x),
    hI4.trans hI5 (fun q hq => Or.inr (Or.inr hq)) (fun q hq => hq.imp id Or.inl)⟩

end Verif.Model
