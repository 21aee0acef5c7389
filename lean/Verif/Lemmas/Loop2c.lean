import Verif.Lemmas.Loop3c

/-
Two-centre loops: one-electron integrals and two-centre two-electron integrals.
-/
namespace Verif.Model
open Verif Prog

variable {α : Type} [CommRing α] [DecidableEq α]

/-- size of the block of sparsity tables -/
def Nest2.tblSize (P : Nest2 α) : Nat := P.iPrim + P.jPrim + P.iPrim*P.iCtr + P.jPrim*P.jCtr

/-- scratch used beyond `g` -/
def Nest2.used (P : Nest2 α) (nComp : Nat) : Nat :=
  aliasLen nComp P.lenj + aliasLen P.jCtr P.leni + aliasLen P.iCtr P.len0

/-- building both tables, each only under its condition -/
theorem tables2_wp {P : Nest2 α} {base : Ptr} {h : Heap α} {p q : Prop} [Decidable p] [Decidable q]
    (ha : ∀ k, k < P.tblSize → h.I (base + k) ≠ .oob) :
    wp (do
        if p then
          non0coeffByshell (base + P.iPrim + P.jPrim) base P.ci P.iPrim P.iCtr
        else pure ()
        if q then
          non0coeffByshell (base + P.iPrim + P.jPrim + P.iPrim*P.iCtr) (base + P.iPrim)
            P.cj P.jPrim P.jCtr
        else pure () : Prog α Unit)
      (fun _ h' => h'.D = h.D ∧ AgreeI h h' (Blk base P.tblSize) ∧
        ∀ T, (p → TblRO (roBlk T base P.tblSize h') base (base + P.iPrim + P.jPrim)
            P.ci P.iPrim P.iCtr) ∧
          (q → TblRO (roBlk T base P.tblSize h') (base + P.iPrim)
            (base + P.iPrim + P.jPrim + P.iPrim*P.iCtr) P.cj P.jPrim P.jCtr)) h := by
  have hs : P.tblSize = P.iPrim+P.jPrim+P.iPrim*P.iCtr+P.jPrim*P.jCtr := rfl
  have id' : ∀ q, Blk base P.tblSize q → Blk base P.tblSize q := fun _ x => x
  simp only [Ptr.add_assoc, wp_mbind]
  have first : wp (if p then non0coeffByshell (base + (P.iPrim + P.jPrim)) (base + 0) P.ci P.iPrim P.iCtr
      else pure () : Prog α Unit) (fun _ h1 => h1.D = h.D ∧
        AgreeI h h1 (Blk base P.tblSize) ∧
        (∀ k, k < P.tblSize → h1.I (base + k) ≠ .oob) ∧
        (p → TblIn h1 (base + 0) (base + (P.iPrim + P.jPrim)) P.ci P.iPrim P.iCtr)) h := by
    split
    · refine wp_mono (non0coeff_blk (oc := 0) ha (by omega) (by omega)) ?_
      rintro _ h1 ⟨t1, a1, d1, al1⟩
      exact ⟨d1, agree_blk a1 (by omega) (by omega), al1, fun _ => t1⟩
    · rename_i hp
      simp only [wp_pure]
      exact ⟨True.intro, AgreeI.refl _ _, ha, fun x => absurd x hp⟩
  by_cases hp : p
  · simp only [hp, if_true] at first ⊢
    simp only [wp_mbind]
    refine wp_mono first ?_
    rintro _ h1 ⟨d1, a1, al1, t1⟩
    by_cases hq : q
    · simp only [hq, if_true]
      refine wp_mono (non0coeff_blk al1 (by omega) (by omega)) ?_
      rintro _ h2 ⟨t2, a2, d2, al2⟩
      refine ⟨by rw [d2, d1], a1.trans (agree_blk a2 (by omega) (by omega)) id' id', fun T =>
        ⟨fun _ => (((t1 trivial).later a2 (by omega) (by omega) (by omega)).ro (by omega) (by omega)),
          fun _ => t2.ro (by omega) (by omega)⟩⟩
    · simp only [hq, if_false, wp_pure]
      exact ⟨d1, a1, fun T => ⟨fun _ => (t1 trivial).ro (by omega) (by omega), fun x => x.elim⟩⟩
  · simp only [hp, if_false, wp_mbind, wp_pure] at first ⊢
    by_cases hq : q
    · simp only [hq, if_true]
      refine wp_mono (non0coeff_blk ha (by omega) (by omega)) ?_
      rintro _ h2 ⟨t2, a2, d2, al2⟩
      exact ⟨d2, agree_blk a2 (by omega) (by omega), fun T =>
        ⟨fun x => x.elim, fun _ => t2.ro (by omega) (by omega)⟩⟩
    · simp only [hq, if_false, wp_pure]
      exact ⟨True.intro, AgreeI.refl _ _, fun T => ⟨fun x => x.elim, fun x => x.elim⟩⟩

/-- Hypotheses of CINT2c2e_loop / CINT2c2e_loop_nopt. -/
structure Setup2c (P : Nest2 α) (M : MemN) (base : Ptr) (nf nComp leng : Nat)
    (T : Ptr → Option Int) (keep : Nat → Nat → Bool) (w : Nat → Nat → Nat → α)
    (b0 : Bool) (u : Nat → α) (h : Heap α) : Prop where
  ictr : 1 ≤ P.iCtr
  jctr : 1 ≤ P.jCtr
  ncomp : 1 ≤ nComp
  len0 : P.len0 = nf * nComp
  /-- no screening of pairs, no exponential prefactor in the loop -/
  noskip : ∀ ip jp, P.skip ip jp = false
  noexp : ∀ ip jp, P.eij ip jp = 1
  ro : RO T h
  tblw : ∀ k, k < P.tblSize → h.I (base + k) ≠ .oob
  tblT : ∀ k, k < P.tblSize → T (base + k) = none
  tblfl : Disj base P.tblSize M.fl 3
  tblempty : ∀ k, k < P.tblSize → M.empty ≠ base + k
  fl : ∀ k, k < 3 → h.I (M.fl + k) ≠ .oob
  flT : ∀ k, k < 3 → T (M.fl + k) = none
  emptyT : T M.empty = none
  emptyfl : ∀ k, k < 3 → M.empty ≠ M.fl + k
  g : AllocD h M.g (leng + P.used nComp)
  disj : Disj M.gctr (nf * (P.iCtr*P.jCtr) * nComp) M.g (leng + P.used nComp)
  acc : AccSt h M.empty M.gctr (nf * (P.iCtr*P.jCtr) * nComp) b0 u
  kern : ∀ ip jp, ip < P.iPrim → jp < P.jPrim →
    KernelSpec T (P.g0 ip jp) (P.gout ip jp) (Blk M.g leng) P.len0 (keep ip jp) (w ip jp)

theorem loop2c2e_wp {P : Nest2 α} {M : MemN} {base : Ptr} {nf nComp leng : Nat}
    {T : Ptr → Option Int} {keep : Nat → Nat → Bool} {w : Nat → Nat → Nat → α}
    {b0 : Bool} {u : Nat → α} {h : Heap α} (S : Setup2c P M base nf nComp leng T keep w b0 u h) :
    wp (loop2c2e P M base nf nComp leng) (fun res h' =>
      res = (b0 || P.bJ keep) ∧
      AccSt h' M.empty M.gctr (nf * (P.iCtr*P.jCtr) * nComp) (b0 || P.bJ keep)
        (fun x => u x + compMajor (nf * (P.iCtr*P.jCtr)) nComp (P.vJ keep w) x) ∧
      AgreeD h h' (fun q => Blk M.gctr (nf * (P.iCtr*P.jCtr) * nComp) q ∨
        Blk M.g (leng + P.used nComp) q) ∧
      AgreeI h h' (fun q => q = M.empty ∨ Blk M.fl 3 q ∨ Blk base P.tblSize q)) h := by
  have hlj : nf * (P.iCtr * P.jCtr) * nComp = P.lenj := by
    unfold Nest2.lenj Nest2.leni; rw [S.len0]; ring
  have hli : nf * P.iCtr * nComp = P.leni := by unfold Nest2.leni; rw [S.len0]; ring
  have htab := tables2_wp (p := 1 < P.iCtr) (q := 1 < P.jCtr) S.tblw
  have main : ∀ h4, (h4.D = h.D ∧ AgreeI h h4 (Blk base P.tblSize) ∧
        ∀ T, (1 < P.iCtr → TblRO (roBlk T base P.tblSize h4) base (base + P.iPrim + P.jPrim)
            P.ci P.iPrim P.iCtr) ∧
          (1 < P.jCtr → TblRO (roBlk T base P.tblSize h4) (base + P.iPrim)
            (base + P.iPrim + P.jPrim + P.iPrim*P.iCtr) P.cj P.jPrim P.jCtr)) → AllocMono h h4 →
      wp (do
        initFlags 3 M.fl
        let g1 := M.g + leng
        let (gctrk, kempty, g1) :=
          aliasAddr nComp M.gctr M.empty (M.fl + 1) g1 (nf * (P.iCtr * P.jCtr) * nComp)
        let (gctri, iempty, g1) := aliasAddr P.jCtr gctrk kempty M.fl g1 (nf * P.iCtr * nComp)
        let (gout, gempty, _) := aliasAddr P.iCtr gctri iempty (M.fl + 2) g1 (nf * nComp)
        P.nest ⟨base, base + P.iPrim + P.jPrim⟩
          ⟨base + P.iPrim, base + P.iPrim + P.jPrim + P.iPrim*P.iCtr⟩ P.facP
          kempty iempty gempty gctrk gctri gout
        let ke ← ldI kempty
        if 1 < nComp ∧ ke = 0 then
          transposeMacro M.empty M.gctr gctrk (nf * (P.iCtr * P.jCtr)) nComp
        else pure ()
        let e ← ldI M.empty
        pure (decide (e = 0)) : Prog α Bool) (fun res h' =>
      res = (b0 || P.bJ keep) ∧
      AccSt h' M.empty M.gctr (nf * (P.iCtr*P.jCtr) * nComp) (b0 || P.bJ keep)
        (fun x => u x + compMajor (nf * (P.iCtr*P.jCtr)) nComp (P.vJ keep w) x) ∧
      AgreeD h h' (fun q => Blk M.gctr (nf * (P.iCtr*P.jCtr) * nComp) q ∨
        Blk M.g (leng + P.used nComp) q) ∧
      AgreeI h h' (fun q => q = M.empty ∨ Blk M.fl 3 q ∨ Blk base P.tblSize q)) h4 := by
    rintro h4 ⟨hD4, hI4, hT4⟩ hm
    obtain ⟨ti, tj⟩ := hT4 T
    have hA4 : AccSt h4 M.empty M.gctr (nf * (P.iCtr*P.jCtr) * nComp) b0 u :=
      S.acc.agree (WD := fun _ => False) (AgreeD.of_eq hD4 _) hI4 hm (fun _ _ x => x)
        (by rintro ⟨k, hk, e⟩; exact S.tblempty k hk e)
    have hroT : RO T h4 := S.ro.agree hI4 (by rintro q ⟨k, hk, rfl⟩; exact S.tblT k hk)
    let T' := roBlk T base P.tblSize h4
    have hT'fl : ∀ k, k < 3 → T' (M.fl + k) = none := fun k hk =>
      roBlk_none (S.flT k hk) (by rintro ⟨i, hi, e⟩; exact S.tblfl i k hi hk e.symm)
    have hT'e : T' M.empty = none :=
      roBlk_none S.emptyT (by rintro ⟨i, hi, e⟩; exact S.tblempty i hi e)
    have h2 := hT'fl 2 (by omega)
    have hTn : ∀ r, r < 2 → withG T' (M.fl + 2) (M.fl + r) = none := fun r hr =>
      withG_none (hT'fl r (by omega)) (fun e => by have := (Ptr.add_right_inj _ _ _).1 e; omega)
    rcases e1 : aliasAddr nComp M.gctr M.empty (M.fl + 1) (M.g + leng)
      (nf * (P.iCtr*P.jCtr) * nComp) with ⟨gk, fk, g1⟩
    rcases e2 : aliasAddr P.jCtr gk fk M.fl g1 (nf * P.iCtr * nComp) with ⟨gi, fi, g2⟩
    rcases e3 : aliasAddr P.iCtr gi fi (M.fl + 2) g2 (nf * nComp) with ⟨go, fo, g3⟩
    have o1 : g1.off = M.g.off + leng + aliasLen nComp P.lenj := by
      have := @alias_off nComp (nf * (P.iCtr*P.jCtr) * nComp) M.gctr M.empty (M.fl+1) (M.g+leng)
      rw [e1] at this; rw [← hlj]; simpa using this
    have o2 : g2.off = g1.off + aliasLen P.jCtr P.leni := by
      have := @alias_off P.jCtr (nf * P.iCtr * nComp) gk fk M.fl g1; rw [e2] at this
      rw [← hli]; exact this
    have o3 : g3.off = g2.off + aliasLen P.iCtr P.len0 := by
      have := @alias_off P.iCtr (nf * nComp) gi fi (M.fl+2) g2; rw [e3] at this
      rw [S.len0]; exact this
    have hE : g3.off ≤ M.g.off + (leng + P.used nComp) := by unfold Nest2.used; omega
    have L1 : Lay M.g leng g1 (M.g.off + (leng + P.used nComp)) gk (nf * (P.iCtr*P.jCtr) * nComp) :=
      Lay.outer e1 (by omega) S.disj
    have F0 : FlagOk (withG T' (M.fl + 2)) M.fl 2 M.empty :=
      ⟨fun k hk => S.emptyfl k (by omega), withG_none hT'e (S.emptyfl 2 (by omega))⟩
    have F1 := F0.alias (r' := 1) (by omega) (hTn 1 (by omega)) nComp M.gctr (M.g+leng)
      (nf * (P.iCtr*P.jCtr) * nComp)
    rw [e1] at F1
    dsimp only at F1
    have C := Nest2.contrib (P := P) (keep := keep) (w := w) (T := withG T' (M.fl + 2))
      (ti := ⟨base, base + P.iPrim + P.jPrim⟩)
      (tj := ⟨base + P.iPrim, base + P.iPrim + P.jPrim + P.iPrim*P.iCtr⟩) (facI := P.facP)
      (le_of_eq hli.symm) (le_of_eq S.len0) e2 e3
      (by rw [← hlj]; exact L1) hE S.ictr S.jctr (fun hne => (ti (by have := S.ictr; omega)).withG h2)
      (fun hne => (tj (by have := S.jctr; omega)).withG h2)
      F1.ro (F1.ne 0 (by omega)) (hTn 0 (by omega)) (by unfold withG; rw [if_pos rfl])
      (fun ip jp hi hj => ((S.kern ip jp hi hj).mono (fun q v hq => roBlk_ext S.tblT hq)).mono
        (fun q v => withG_ext h2))
      (fun fac ip jp => by simp only [Nest2.facP, S.noexp, mul_one])
    rw [← hlj] at C
    have hF := loopFrame_wp (T := T') (T' := withG T' (M.fl + 2)) (fl := M.fl)
      (R := nf * (P.iCtr*P.jCtr)) (nC := nComp) (r := 1) (nfl := 3) (h := h4)
      (by
        intro q x hq
        unfold withG at hq
        split at hq
        · rename_i e; exact Or.inr ⟨2, by omega, e, by cases hq; rfl⟩
        · exact Or.inl hq) e1 S.ncomp (by omega) rfl
      (by rintro q rfl; exact ⟨0, by omega, by omega, rfl⟩)
      (fun k hk => hm.I _ (S.fl k hk)) hT'fl hT'e S.emptyfl
      (roBlk_ro hroT) hA4 (by intro i hi; rw [hD4]; exact S.g i hi) (by omega) (by omega) S.disj C
    simp only [e1, e2, e3]
    refine wp_mono hF ?_
    rintro res h5 ⟨hr, hA5, hD5, hI5⟩
    refine ⟨hr, hA5, (AgreeD.of_eq hD4 (fun _ => False)).trans hD5 (fun _ x => x.elim) (fun _ x => x),
      hI4.trans hI5 (fun q hq => Or.inr (Or.inr hq)) (fun q hq => hq.imp id Or.inl)⟩
  have htab := wp_allocMono htab
  unfold loop2c2e
  dsimp only
  by_cases hp : 1 < P.iCtr
  · simp only [hp, if_true] at htab ⊢
    simp only [wp_mbind] at htab
    rw [wp_mbind]
    refine wp_mono htab (fun _ h1 H1 => ?_)
    by_cases hq : 1 < P.jCtr
    · simp only [hq, if_true] at H1 ⊢
      rw [wp_mbind]
      refine wp_mono H1 (fun _ h2 H2 => ?_)
      exact main h2 ⟨H2.1.1, H2.1.2.1, fun T => ⟨fun _ => (H2.1.2.2 T).1 trivial, fun _ => (H2.1.2.2 T).2 trivial⟩⟩ H2.2
    · simp only [hq, if_false, wp_pure] at H1 ⊢
      exact main h1 ⟨H1.1.1, H1.1.2.1, fun T => ⟨fun _ => (H1.1.2.2 T).1 trivial, fun x => absurd x hq⟩⟩ H1.2
  · simp only [hp, if_false, wp_mbind, wp_pure] at htab ⊢
    by_cases hq : 1 < P.jCtr
    · simp only [hq, if_true] at htab ⊢
      rw [wp_mbind]
      refine wp_mono htab (fun _ h2 H2 => ?_)
      exact main h2 ⟨H2.1.1, H2.1.2.1, fun T => ⟨fun x => absurd x hp, fun _ => (H2.1.2.2 T).2 trivial⟩⟩ H2.2
    · simp only [hq, if_false, wp_pure] at htab ⊢
      exact main h ⟨rfl, htab.1.2.1, fun T => ⟨fun x => absurd x hp, fun x => absurd x hq⟩⟩ htab.2

/-- Hypotheses of CINT1e_loop. -/
structure Setup1e (P : Nest2 α) (gctr g fl base : Ptr) (nf nComp leng : Nat)
    (T : Ptr → Option Int) (keep : Nat → Nat → Bool) (w : Nat → Nat → Nat → α)
    (h : Heap α) : Prop where
  ictr : 1 ≤ P.iCtr
  jctr : 1 ≤ P.jCtr
  ncomp : 1 ≤ nComp
  len0 : P.len0 = nf * nComp
  ro : RO T h
  tblw : ∀ k, k < P.tblSize → h.I (base + k) ≠ .oob
  tblT : ∀ k, k < P.tblSize → T (base + k) = none
  tblfl : Disj base P.tblSize fl 4
  flw : ∀ k, k < 4 → h.I (fl + k) ≠ .oob
  flT : ∀ k, k < 4 → T (fl + k) = none
  gw : AllocD h g (leng + P.used nComp)
  gctrw : AllocD h gctr (nf * (P.iCtr*P.jCtr) * nComp)
  disj : Disj gctr (nf * (P.iCtr*P.jCtr) * nComp) g (leng + P.used nComp)
  kern : ∀ ip jp, ip < P.iPrim → jp < P.jPrim →
    KernelSpec T (P.g0 ip jp) (P.gout ip jp) (Blk g leng) P.len0 (keep ip jp) (w ip jp)

theorem loop1e_wp {P : Nest2 α} {gctr g fl base : Ptr} {nf nComp leng : Nat}
    {T : Ptr → Option Int} {keep : Nat → Nat → Bool} {w : Nat → Nat → Nat → α}
    {h : Heap α} (S : Setup1e P gctr g fl base nf nComp leng T keep w h) :
    wp (loop1e P gctr g fl base nf nComp leng false) (fun res h' =>
      res = P.bJ keep ∧
      (res = true → HoldsD h' gctr (nf * (P.iCtr*P.jCtr) * nComp)
        (compMajor (nf * (P.iCtr*P.jCtr)) nComp (P.vJ keep w))) ∧
      (res = false → ∀ i, i < nf * (P.iCtr*P.jCtr) * nComp → P.vJ keep w i = 0) ∧
      AgreeD h h' (fun q => Blk gctr (nf * (P.iCtr*P.jCtr) * nComp) q ∨
        Blk g (leng + P.used nComp) q) ∧
      AgreeI h h' (fun q => Blk fl 4 q ∨ Blk base P.tblSize q)) h := by
  have hlj : nf * (P.iCtr * P.jCtr) * nComp = P.lenj := by
    unfold Nest2.lenj Nest2.leni; rw [S.len0]; ring
  have hli : nf * P.iCtr * nComp = P.leni := by unfold Nest2.leni; rw [S.len0]; ring
  unfold loop1e
  simp only [Bool.false_eq_true, if_false, wp_mbind]
  refine wp_mono (wp_allocMono (initFlags_wp S.flw)) ?_
  rintro _ h1 ⟨H1, hm1⟩
  have hI1 : AgreeI h h1 (Blk fl 4) := H1.agree (fun k hk => ⟨k, hk, rfl⟩)
  have htab := wp_allocMono (tables2_wp (P := P) (base := base) (h := h1) (p := True) (q := True)
    (fun k hk => hm1.I _ (S.tblw k hk)))
  simp only [if_true, wp_mbind] at htab
  refine wp_mono htab ?_
  intro _ h3 H3
  refine wp_mono H3 ?_
  rintro _ h4 ⟨⟨hD4, hI4, hT4⟩, hm4⟩
  obtain ⟨ti, tj⟩ := hT4 T
  have hD04 : h4.D = h.D := hD4.trans H1.dbl
  have hI04 : AgreeI h h4 (fun q => Blk fl 4 q ∨ Blk base P.tblSize q) :=
    hI1.trans hI4 (fun _ x => Or.inl x) (fun _ x => Or.inr x)
  have hfl4 : ∀ k, k < 4 → h4.I (fl + k) = .val 1 := by
    intro k hk
    rw [hI4 _ (by rintro ⟨i, hi, e⟩; exact S.tblfl i k hi hk e.symm), H1.val k hk]
  have hroT : RO T h4 := S.ro.agree hI04 (by
    rintro q (⟨k, hk, rfl⟩ | ⟨k, hk, rfl⟩)
    · exact S.flT k hk
    · exact S.tblT k hk)
  let T' := roBlk T base P.tblSize h4
  have hT'fl : ∀ k, k < 4 → T' (fl + k) = none := fun k hk =>
    roBlk_none (S.flT k hk) (by rintro ⟨i, hi, e⟩; exact S.tblfl i k hi hk e.symm)
  have h0 : T' fl = none := hT'fl 0 (by omega)
  have hTn : ∀ r, 0 < r → r < 4 → withG T' fl (fl + r) = none := fun r hr hr2 =>
    withG_none (hT'fl r hr2) (fun e => by
      have := (Ptr.add_right_inj fl r 0).1 e; omega)
  let gctrj := if nComp = 1 then gctr else g + leng
  let g1 := if nComp = 1 then g + leng else g + leng + nf * (P.iCtr * P.jCtr) * nComp
  have e1 : aliasAddr nComp gctr (fl + 2) (fl + 2) (g + leng) (nf * (P.iCtr*P.jCtr) * nComp) =
      (gctrj, fl + 2, g1) := by
    by_cases hc : nComp = 1
    · simp only [gctrj, g1, hc, if_true, aliasAddr_one]
    · rw [aliasAddr_ne hc]; simp only [gctrj, g1, hc, if_false]
  show wp (match aliasAddr P.jCtr gctrj (fl + 2) (fl + 1) g1 (nf * P.iCtr * nComp) with
    | (gctri, iempty, g1) => _) _ h4
  rcases e2 : aliasAddr P.jCtr gctrj (fl + 2) (fl + 1) g1 (nf * P.iCtr * nComp) with ⟨gi, fi, g2⟩
  dsimp only
  rcases e3 : aliasAddr P.iCtr gi fi fl g2 (nf * nComp) with ⟨go, fo, g3⟩
  dsimp only
  have o1 : g1.off = g.off + leng + aliasLen nComp P.lenj := by
    have := @alias_off nComp (nf * (P.iCtr*P.jCtr) * nComp) gctr (fl+2) (fl+2) (g+leng)
    rw [e1] at this; rw [← hlj]; simpa using this
  have o2 : g2.off = g1.off + aliasLen P.jCtr P.leni := by
    have := @alias_off P.jCtr (nf * P.iCtr * nComp) gctrj (fl+2) (fl+1) g1; rw [e2] at this
    rw [← hli]; exact this
  have o3 : g3.off = g2.off + aliasLen P.iCtr P.len0 := by
    have := @alias_off P.iCtr (nf * nComp) gi fi fl g2; rw [e3] at this
    rw [S.len0]; exact this
  have hE : g3.off ≤ g.off + (leng + P.used nComp) := by unfold Nest2.used; omega
  have L1 : Lay g leng g1 (g.off + (leng + P.used nComp)) gctrj (nf * (P.iCtr*P.jCtr) * nComp) :=
    Lay.outer e1 (by omega) S.disj
  have C := Nest2.contrib (P := P) (keep := keep) (w := w) (T := withG T' fl)
    (ti := ⟨base, base + P.iPrim + P.jPrim⟩)
    (tj := ⟨base + P.iPrim, base + P.iPrim + P.jPrim + P.iPrim*P.iCtr⟩) (facI := P.facE)
    (le_of_eq hli.symm) (le_of_eq S.len0) e2 e3
    (by rw [← hlj]; exact L1) hE S.ictr S.jctr (fun _ => (ti trivial).withG h0)
    (fun _ => (tj trivial).withG h0)
    (hTn 2 (by omega) (by omega)) (fun e => by have := (Ptr.add_right_inj _ _ _).1 e; omega)
    (hTn 1 (by omega) (by omega)) (by unfold withG; rw [if_pos rfl])
    (fun ip jp hi hj => ((S.kern ip jp hi hj).mono (fun q v hq => roBlk_ext S.tblT hq)).mono
      (fun q v => withG_ext h0))
    (fun fac ip jp => by unfold Nest2.facE; split <;> ring)
  rw [← hlj] at C
  have hscr : ∀ q, Scr g leng g1 (g.off + (leng + P.used nComp)) q → Blk g (leng + P.used nComp) q := by
    rintro q ⟨h1, h2⟩
    exact ⟨q.off - g.off, by omega, Ptr.ext_iff'.2 ⟨h1, by simp only [Ptr.add_off]; omega⟩⟩
  have hgj : ∀ q, Blk gctrj (nf * (P.iCtr*P.jCtr) * nComp) q →
      Blk gctr (nf * (P.iCtr*P.jCtr) * nComp) q ∨ Blk g (leng + P.used nComp) q := by
    intro q hq
    by_cases hc : nComp = 1
    · simp only [gctrj, hc, if_true] at hq ⊢; exact Or.inl hq
    · simp only [gctrj, hc, if_false] at hq
      obtain ⟨i, hi, rfl⟩ := hq
      have : aliasLen nComp P.lenj = P.lenj := by unfold aliasLen; rw [if_neg hc]
      refine Or.inr ⟨leng + i, ?_, by rw [Ptr.add_assoc]⟩
      unfold Nest2.used; omega
  have hAj : AccSt h4 (fl + 2) gctrj (nf * (P.iCtr*P.jCtr) * nComp) false (fun _ => 0) := by
    refine ⟨by rw [hfl4 2 (by omega)]; simp, ?_, by simp, fun _ _ _ => rfl⟩
    intro i hi
    rw [hD04]
    rcases hgj _ ⟨i, hi, rfl⟩ with ⟨k, hk, e⟩ | ⟨k, hk, e⟩
    · rw [e]; exact S.gctrw k hk
    · rw [e]; exact S.gw k hk
  have hro' : RO (withG T' fl) h4 := by
    intro q x hq
    unfold withG at hq
    split at hq
    · rename_i e; cases hq; rw [e]; exact hfl4 0 (by omega)
    · exact roBlk_ro hroT q x hq
  refine wp_mono (wp_allocMono (C h4 false _ hro' hAj
    (by
      intro q hq
      obtain ⟨k, hk, e⟩ := hscr q hq
      rw [e, hD04]; exact S.gw k hk)
    (by rintro q rfl; rw [hfl4 1 (by omega)]; simp))) ?_
  rintro _ h5 ⟨⟨hA5, hD5, hI5⟩, hm5⟩
  simp only [Bool.false_or, zero_add] at hA5
  have hD05 : AgreeD h h5 (fun q => Blk gctr (nf * (P.iCtr*P.jCtr) * nComp) q ∨
        Blk g (leng + P.used nComp) q) :=
    (AgreeD.of_eq hD04 (fun _ => False)).trans hD5 (fun _ x => x.elim)
      (fun q hq => hq.elim (hgj q) (fun y => Or.inr (hscr q y)))
  have hI05 : AgreeI h h5 (fun q => Blk fl 4 q ∨ Blk base P.tblSize q) :=
    hI04.trans hI5 (fun _ x => x) (by
      rintro q (rfl | rfl)
      · exact Or.inl ⟨2, by omega, rfl⟩
      · exact Or.inl ⟨1, by omega, rfl⟩)
  simp only [wp_ldI]
  refine ⟨_, hA5.flag, ?_⟩
  by_cases hc : nComp = 1
  · have hgc : gctrj = gctr := by simp only [gctrj, hc, if_true]
    subst hc
    simp only [Nat.lt_irrefl, false_and, if_false, wp_pure, wp_mbind, wp_ldI]
    refine ⟨_, hA5.flag, by cases P.bJ keep <;> simp, ?_, ?_, hD05, hI05⟩
    · intro hr i hi
      have hb : P.bJ keep = true := by
        cases hb : P.bJ keep with
        | true => rfl
        | false => rw [hb] at hr; simp at hr
      have := hA5.holds hb i hi
      rw [hgc] at this
      rw [this]
      rw [Nat.mul_one] at hi
      simp only [compMajor, Nat.mod_eq_of_lt hi, Nat.div_eq_of_lt hi, Nat.mul_one, Nat.add_zero]
    · intro hr i hi
      refine hA5.zero ?_ i hi
      cases hb : P.bJ keep with
      | false => rfl
      | true => rw [hb] at hr; simp at hr
  · have hgt : 1 < nComp := by have := S.ncomp; omega
    have hgc : gctrj = g + leng := by simp only [gctrj, hc, if_false]
    cases hb : P.bJ keep with
    | false =>
      rw [hb] at hA5
      simp only [Bool.false_eq_true, if_false, one_ne_zero, and_false, wp_pure, wp_mbind, wp_ldI]
      refine ⟨_, hA5.flag, by simp, by simp, fun _ => hA5.zero rfl, hD05, hI05⟩
    | true =>
      rw [hb] at hA5
      simp only [hgt, if_true, and_self, wp_mbind]
      have hdd : Disj gctrj (nf * (P.iCtr * P.jCtr) * nComp) gctr (nComp * (nf * (P.iCtr * P.jCtr))) := by
        intro i j hi hj e
        rcases hgj _ ⟨i, hi, rfl⟩ with ⟨k, hk, e2⟩ | ⟨k, hk, e2⟩
        · rw [hgc] at e
          have hh : aliasLen nComp P.lenj = P.lenj := by unfold aliasLen; rw [if_neg hc]
          refine S.disj j (leng + i) (by rw [Nat.mul_comm]; exact hj) (by unfold Nest2.used; omega) ?_
          rw [← Ptr.add_assoc]; exact e.symm
        · exact S.disj j k (by rw [Nat.mul_comm]; exact hj) hk (e.symm.trans e2)
      refine wp_mono (dmatTranspose_wp (m := nf * (P.iCtr * P.jCtr)) (n := nComp) (at' := gctr)
        (hA5.holds rfl)
        (fun i hi => hm5.D _ (by rw [hD04]; exact S.gctrw i (by rw [Nat.mul_comm]; exact hi))) hdd) ?_
      intro _ h6 H6
      simp only [wp_ldI, wp_pure]
      refine ⟨_, by rw [H6.int]; exact hA5.flag, by simp, ?_, by simp, ?_, ?_⟩
      · intro _ i hi
        rw [tAssigned_holds H6 i hi]; rfl
      · refine hD05.trans (H6.agree (W := Blk gctr (nf * (P.iCtr*P.jCtr) * nComp)) ?_) (fun _ x => x)
          (fun q hq => Or.inl hq)
        intro k hk
        refine ⟨k.1*(nf * (P.iCtr * P.jCtr))+k.2, ?_, rfl⟩
        rw [Nat.mul_comm _ nComp]; exact radix_lt hk.1 hk.2
      · intro q hq; rw [H6.int]; exact hI05 q hq

end Verif.Model
