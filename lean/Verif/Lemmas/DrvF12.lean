import Verif.Model.F12
import Verif.Lemmas.DrvOut2

/-! CINT2e_loop_nopt and CINT2e_drv for the Yukawa and Slater-type interactions: Lemmas/Drv2e.lean and Lemmas/DrvOut2.lean for
the set-up of Model/F12.lean. -/
namespace Verif.Lemmas
open Verif Verif.Model Verif.Prog Verif.Props Verif.Spec

variable {α : Type}

section
variable [Zero α] [LT α] [DecidableLT α]
/-- positions of the integer arrays and of `g`, in doubles, when the loop's cache starts at `o` -/
def posIdxF (s : CallF α) (o : Nat) : Nat :=
  o + (s.si.nprim + s.sj.nprim + s.sk.nprim + s.sl.nprim) + 5 * (s.si.nprim * s.sj.nprim)
def posTblF (X : Int2e α) (s : CallF α) (fpd o : Nat) : Nat := posIdxF s o + dblOf fpd ((s.env X).nf * 3)
def posGF (X : Int2e α) (s : CallF α) (fpd o : Nat) : Nat := posTblF X s fpd o + dblOf fpd s.tblLen

theorem arraysF_eq {X : Int2e α} {s : CallF α} {fpd : Nat} (hf : 0 < fpd) (buf o : Nat) :
    arraysF X s fpd buf (fpd*o) =
      { logMaxc := ⟨buf, o⟩, pdata := ⟨buf, o + (s.si.nprim + s.sj.nprim + s.sk.nprim + s.sl.nprim)⟩
        idx := ⟨buf, fpd * posIdxF s o⟩, tbl := ⟨buf, fpd * posTblF X s fpd o⟩
        g := ⟨buf, posGF X s fpd o⟩ } := by
  unfold arraysF
  simp only [mallocD_eq hf, mallocI_eq hf, mallocI_eq' hf, alignUp_eq hf, Nat.mul_div_cancel_left _ hf]
  rfl

/-- the doubles of the cache used as FINTs by CINT2e_loop_nopt -/
def intSlotsF (X : Int2e α) (s : CallF α) (fpd o : Nat) (k : Nat) : Prop :=
  posIdxF s o ≤ k ∧ k < posGF X s fpd o
end

variable [Field α] [LinearOrder α]

/-- the evaluator of integral `X` gives `w` for the primitives it keeps -/
def EvalOKF (R : RysF α) (K : Consts α) (L : MathLib α) (X : Int2e α) (s : CallF α)
    (keep : Nat → Nat → Nat → Nat → Bool) (w : Nat → Nat → Nat → Nat → Nat → α) : Prop :=
  ∀ ip jp kp lp (g idx : Ptr) (T : Ptr → Option Int), ip < s.si.nprim → jp < s.sj.nprim → kp < s.sk.nprim →
    lp < s.sl.nprim →
    IdxT T idx (s.env X).nf (adr4 (s.env X) (i4 (s.env X)) (j4 (s.env X)) (k4 (s.env X)) (l4 (s.env X))) →
    KernelSpec T (fun fac => g0F12 s.stg R K (s.env X) (s.g2 X L ip jp kp lp) s.zeta g fac)
      (fun _ gout em => X.gout (s.env X) (s.g2 X L ip jp kp lp) idx g gout em) (Blk g (s.leng X))
      ((s.env X).nf * X.nComp) (keep ip jp kp lp) (w ip jp kp lp)

/-- the numbers computed by the loop -/
def loopValF (R : RysF α) (K : Consts α) (L : MathLib α) (X : Int2e α) (s : CallF α)
    (keep : Nat → Nat → Nat → Nat → Bool) (w : Nat → Nat → Nat → Nat → Nat → α) (comp ic jc kc lc n : Nat) : α :=
  expected (s.quartet X R K L ⟨⟨0,0⟩,⟨0,0⟩,⟨0,0⟩,⟨0,0⟩,⟨0,0⟩⟩) keep w comp ic jc kc lc n

/-- some primitive quartet contributes -/
def loopAnyF (R : RysF α) (K : Consts α) (L : MathLib α) (X : Int2e α) (s : CallF α)
    (keep : Nat → Nat → Nat → Nat → Bool) : Prop :=
  ¬ PairEmpty L (s.pairArgs X) ∧ ∃ ip jp kp lp, ip < s.si.nprim ∧ jp < s.sj.nprim ∧ kp < s.sk.nprim ∧ lp < s.sl.nprim ∧
    survives (s.quartet X R K L ⟨⟨0,0⟩,⟨0,0⟩,⟨0,0⟩,⟨0,0⟩,⟨0,0⟩⟩) keep ip jp kp lp = true

variable {R : RysF α} {K : Consts α} {L : MathLib α} {X : Int2e α} {s : CallF α}
  {keep : Nat → Nat → Nat → Nat → Bool} {w : Nat → Nat → Nat → Nat → Nat → α}

theorem loopValF_empty (hE : PairEmpty L (s.pairArgs X)) (comp ic jc kc lc n : Nat) :
    loopValF R K L X s keep w comp ic jc kc lc n = 0 := by
  unfold loopValF expected Spec.contract4
  rw [Finset.sum_eq_zero, mul_zero]
  intro lp _
  refine Finset.sum_eq_zero (fun kp _ => Finset.sum_eq_zero (fun jp hj => Finset.sum_eq_zero (fun ip hi => ?_)))
  have : pairVal L (s.pairArgs X) ip jp 3 = 0 := by
    have := hE ip jp (Finset.mem_range.1 hi) (Finset.mem_range.1 hj)
    unfold pairVal; simp [this]
  unfold CallF.quartet
  dsimp only
  rw [this]
  simp

/-- the part of `g` that is used: see `Quartet.usedGen` -/
def CallF.used (X : Int2e α) (s : CallF α) : Nat :=
  let N := (s.env X).nf * X.nComp
  aliasLen X.nComp (N * s.nctr) + aliasLen s.sl.nctr (N * (s.si.nctr*s.sj.nctr*s.sk.nctr)) +
    aliasLen s.sk.nctr (N * (s.si.nctr*s.sj.nctr)) + aliasLen s.sj.nctr (N * s.si.nctr) + aliasLen s.si.nctr N

theorem used_quartetF (A : Arrays2e) : (s.quartet X R K L A).usedGen = CallF.used X s := by
  unfold Quartet.usedGen CallF.used
  have e1 : (s.quartet X R K L A).lenl = (s.env X).nf * X.nComp * s.nctr := by
    show (s.env X).nf * s.nctr * X.nComp = _; ring
  have e2 : (s.quartet X R K L A).lenk = (s.env X).nf * X.nComp * (s.si.nctr*s.sj.nctr*s.sk.nctr) := by
    show (s.env X).nf * s.si.nctr * s.sj.nctr * s.sk.nctr * X.nComp = _; ring
  have e3 : (s.quartet X R K L A).lenj = (s.env X).nf * X.nComp * (s.si.nctr*s.sj.nctr) := by
    show (s.env X).nf * s.si.nctr * s.sj.nctr * X.nComp = _; ring
  have e4 : (s.quartet X R K L A).leni = (s.env X).nf * X.nComp * s.si.nctr := by
    show (s.env X).nf * s.si.nctr * X.nComp = _; ring
  rw [e1, e2, e3, e4]
  rfl

/-- Memory of CINT2e_loop_nopt: the cache is buffer `buf`; `gctr` sits at double `o0`, the loop's own
arrays start at double `o`; `empty`, `fl` and `loc` are not in the cache. -/
structure LoopMemF (X : Int2e α) (s : CallF α) (h : Heap α) (fpd buf size o0 o : Nat) (empty fl loc : Ptr) : Prop where
  fpd_pos : 0 < fpd
  cache : CacheMem h fpd buf size (intSlotsF X s fpd o)
  room : posGF X s fpd o + (s.leng X + CallF.used X s) ≤ size
  ctr : o0 + (s.env X).nf * s.nctr * X.nComp ≤ o
  flag : h.I empty = .val 1
  flw : ∀ k, k < 5 → h.I (fl + k) ≠ .oob
  locw : ∀ k, k < 12*136 → h.I (loc + k) ≠ .oob
  ebuf : empty.buf ≠ buf
  efl : empty.buf ≠ fl.buf
  eloc : empty.buf ≠ loc.buf
  flbuf : fl.buf ≠ buf
  locbuf : loc.buf ≠ buf

/-- CINT2e_loop_nopt runs within its part of the cache and computes the contracted integrals. -/
theorem loopFRun_wp {h : Heap α} {fpd buf size o0 o : Nat} {empty fl loc : Ptr}
    (M : LoopMemF X s h fpd buf size o0 o empty fl loc) (hK : EvalOKF R K L X s keep w)
    (hic : 1 ≤ s.si.nctr) (hjc : 1 ≤ s.sj.nctr) (hkc : 1 ≤ s.sk.nctr) (hlc : 1 ≤ s.sl.nctr) (hnc : 1 ≤ X.nComp)
    (hli : s.si.l ≤ 15) (hlj : s.sj.l ≤ 15) (hlk : s.sk.l ≤ 15) (hll : s.sl.l ≤ 15) :
    wp (loopFRun X s R K L fpd ⟨buf, o0⟩ empty buf (fpd*o) fl loc) (fun res h' =>
      h'.I empty = .val (if res then 0 else 1) ∧
      (res = true → HoldsD h' ⟨buf, o0⟩ ((s.env X).nf * s.nctr * X.nComp)
        (ctrVal (loopValF R K L X s keep w) (s.env X).nf s.si.nctr s.sj.nctr s.sk.nctr s.sl.nctr)) ∧
      (res = false → ∀ comp ic jc kc lc n, loopValF R K L X s keep w comp ic jc kc lc n = 0) ∧
      AgreeD h h' (fun q => q.buf = buf) ∧
      AgreeI h h' (fun q => q.buf = buf ∨ q.buf = empty.buf ∨ q.buf = fl.buf ∨ q.buf = loc.buf) ∧
      (res = true ↔ loopAnyF R K L X s keep)) h := by
  have hf := M.fpd_pos
  let np := s.si.nprim + s.sj.nprim + s.sk.nprim + s.sl.nprim
  let pp := s.si.nprim * s.sj.nprim
  let e := s.env X
  have hnp : s.si.nprim + s.sj.nprim + s.sk.nprim + s.sl.nprim = np := rfl
  have hctr : o0 + e.nf * s.nctr * X.nComp ≤ o := M.ctr
  have hnfi : e.nfi = Spec.ncart e.i_l := rfl
  have hnfj : e.nfj = Spec.ncart e.j_l := rfl
  have hnfk : e.nfk = Spec.ncart e.k_l := rfl
  have hnfl : e.nfl = Spec.ncart e.l_l := rfl
  have hnf : e.nf = e.nfj * e.nfl * e.nfk * e.nfi := by
    show e.nfi * e.nfk * e.nfl * e.nfj = _; ring
  have dI : e.nf * 3 ≤ fpd * dblOf fpd (e.nf*3) := dblOf_mul hf _
  have dT : s.tblLen ≤ fpd * dblOf fpd s.tblLen := dblOf_mul hf _
  have hroom : o + np + 5*pp + dblOf fpd (e.nf*3) + dblOf fpd s.tblLen + (s.leng X + CallF.used X s) ≤ size := M.room
  -- access to the cache
  have slotD : ∀ k, k < o + np + 5*pp ∨ (posGF X s fpd o ≤ k ∧ k < size) → h.D ⟨buf, k⟩ ≠ .oob := by
    intro k hk
    refine M.cache.dbl k (by omega) ?_
    rintro ⟨h1, h2⟩
    have h1' : o + np + 5*pp ≤ k := h1
    omega
  have slotI : ∀ m, fpd * (o + np + 5*pp) ≤ m →
      m < fpd * (o + np + 5*pp + dblOf fpd (e.nf*3) + dblOf fpd s.tblLen) → h.I ⟨buf, m⟩ ≠ .oob := by
    intro m h1 h2
    refine M.cache.int m (lt_of_lt_of_le h2 (Nat.mul_le_mul_left _ (by omega))) ⟨?_, ?_⟩
    · exact (Nat.le_div_iff_mul_le hf).2 (by rw [Nat.mul_comm]; exact h1)
    · exact (Nat.div_lt_iff_lt_mul hf).2 (by rw [Nat.mul_comm]; exact h2)
  have m3 : fpd * (o + np + 5*pp + dblOf fpd (e.nf*3) + dblOf fpd s.tblLen) =
      fpd * (o + np + 5*pp) + fpd * dblOf fpd (e.nf*3) + fpd * dblOf fpd s.tblLen := by ring
  have m4 : fpd * posTblF X s fpd o = fpd * (o + np + 5*pp) + fpd * dblOf fpd (e.nf*3) := by
    show fpd * (o + np + 5*pp + dblOf fpd (e.nf*3)) = _
    ring
  unfold loopFRun
  dsimp only
  rw [arraysF_eq hf]
  dsimp only
  rw [wp_mbind]
  refine wp_mono (wp_allocMono (fillLogMaxC_wp (p := ⟨buf, o⟩) (fun i hi => slotD (o+i) (by left; omega)))) ?_
  rintro _ h1 ⟨⟨a1, i1⟩, k1⟩
  rw [wp_mbind]
  refine wp_mono (wp_allocMono (fillLogMaxC_wp (p := (⟨buf, o⟩ : Ptr) + s.si.nprim) (fun i hi => ?_))) ?_
  · refine k1.D _ ?_
    rw [Ptr.add_assoc]
    exact slotD (o + (s.si.nprim + i)) (by left; omega)
  rintro _ h2 ⟨⟨a2, i2⟩, k2⟩
  have k02 := k1.trans k2
  rw [wp_mbind]
  refine wp_mono (wp_allocMono (setPairdata_wp (pd := ⟨buf, o + np⟩) (fun i hi => ?_))) ?_
  · have hi' : i < 5 * (s.sj.nprim * s.si.nprim) := hi
    rw [Nat.mul_comm s.sj.nprim] at hi'
    refine k02.D _ (slotD _ (by left; show o + np + i < _; omega))
  rintro em h3 ⟨⟨e3, v3, a3, i3⟩, k3⟩
  have k03 := k02.trans k3
  have AD : AgreeD h h3 (fun q => q.buf = buf) :=
    ((a1.mono (W := fun q => q.buf = buf) (fun q hq => blk_buf hq)).trans
      (a2.mono (W := fun q => q.buf = buf) (fun q hq => blk_buf hq)) (fun _ => id) (fun _ => id)).trans
      (a3.mono (W := fun q => q.buf = buf) (fun q hq => blk_buf hq)) (fun _ => id) (fun _ => id)
  have hI3 : h3.I = h.I := by rw [i3, i2, i1]
  by_cases hem : em = true
  · rw [if_pos hem, wp_pure]
    exact ⟨by rw [hI3]; exact M.flag, fun hh => Bool.noConfusion hh, fun _ => loopValF_empty (e3.1 hem), AD, AgreeI.of_eq hI3 _,
      ⟨fun hh => Bool.noConfusion hh, fun hh => absurd (e3.1 hem) hh.1⟩⟩
  · rw [if_neg hem, wp_mbind]
    refine wp_mono (wp_allocMono (fillLogMaxC_wp (p := (⟨buf, o⟩ : Ptr) + s.si.nprim + s.sj.nprim) (fun i hi => ?_))) ?_
    · refine k03.D _ ?_
      rw [Ptr.add_assoc, Ptr.add_assoc]
      exact slotD (o + (s.si.nprim + (s.sj.nprim + i))) (by left; omega)
    rintro _ h3b ⟨⟨a3b, i3b⟩, k3b⟩
    have k03b := k03.trans k3b
    rw [wp_mbind]
    refine wp_mono (wp_allocMono (fillLogMaxC_wp (p := (⟨buf, o⟩ : Ptr) + s.si.nprim + s.sj.nprim + s.sk.nprim) (fun i hi => ?_))) ?_
    · refine k03b.D _ ?_
      rw [Ptr.add_assoc, Ptr.add_assoc, Ptr.add_assoc]
      exact slotD (o + (s.si.nprim + (s.sj.nprim + (s.sk.nprim + i)))) (by left; omega)
    rintro _ h3c ⟨⟨a3c, i3c⟩, k3c⟩
    have k03c := k03b.trans k3c
    have ADc : AgreeD h h3c (fun q => q.buf = buf) :=
      (AD.trans (a3b.mono (W := fun q => q.buf = buf) (fun q hq => blk_buf hq)) (fun _ => id) (fun _ => id)).trans
        (a3c.mono (W := fun q => q.buf = buf) (fun q hq => blk_buf hq)) (fun _ => id) (fun _ => id)
    have hI3c : h3c.I = h.I := by rw [i3c, i3b, hI3]
    rw [wp_mbind]
    refine wp_mono (wp_allocMono (g2eIndex_wp (e := e) (idx := ⟨buf, fpd * posIdxF s o⟩) (loc := loc) hli hlj hlk hll hnfi hnfj hnfk hnfl
      ⟨?_, fun k hk => k03c.I _ (M.locw k hk), ?_⟩)) ?_
    · intro k hk
      refine k03c.I _ (slotI _ (Nat.le_add_right _ _) ?_)
      rw [m3]
      show fpd * (o + np + 5*pp) + k < _
      rw [← hnf] at hk
      omega
    · intro i j _ _ hh
      exact M.locbuf (Ptr.ext_iff'.1 hh).1
    · rintro _ h4 ⟨⟨v4, a4, d4⟩, k4⟩
      have k04 := k03c.trans k4
      rw [← hnf] at v4 a4
      let F := tblF e.nfi (g2eVal e)
      let idx : Ptr := ⟨buf, fpd * posIdxF s o⟩
      let T : Ptr → Option Int := fun q => if q.buf = buf ∧ fpd * posIdxF s o ≤ q.off ∧ q.off < fpd * posIdxF s o + 3 * e.nf then
        some (F (q.off - fpd * posIdxF s o)) else none
      have hTv : ∀ k, k < 3 * e.nf → T (idx + k) = some (F k) := by
        intro k hk
        show (if buf = buf ∧ fpd * posIdxF s o ≤ fpd * posIdxF s o + k ∧ fpd * posIdxF s o + k < fpd * posIdxF s o + 3 * e.nf then
          some (F (fpd * posIdxF s o + k - fpd * posIdxF s o)) else none) = _
        rw [if_pos ⟨rfl, by omega, by omega⟩, Nat.add_sub_cancel_left]
      have hTn : ∀ q : Ptr, q.buf ≠ buf → T q = none := fun q hq => if_neg (fun hh => hq hh.1)
      let A : Arrays2e := { logMaxc := ⟨buf, o⟩, pdata := ⟨buf, o + np⟩, idx := idx
                            tbl := ⟨buf, fpd * posTblF X s fpd o⟩, g := ⟨buf, posGF X s fpd o⟩ }
      let P := s.quartet X R K L A
      have htl : P.tblSize = s.tblLen := rfl
      have hused : P.usedGen = CallF.used X s := used_quartetF A
      have hG : ∀ i, i < s.leng X + P.usedGen → posGF X s fpd o + i < size := by
        intro i hi
        have := M.room
        rw [hused] at hi
        omega
      have hGo : o + np + 5*pp ≤ posGF X s fpd o := by
        show _ ≤ o + np + 5*pp + dblOf fpd (e.nf*3) + dblOf fpd s.tblLen
        omega
      have S : SetupNopt P (mem2e ⟨buf, o0⟩ empty A.g fl A.tbl) A.tbl T keep w false (fun _ => 0) h4 := by
        refine ⟨hic, hjc, hkc, hlc, hnc, ?_, ?_, ?_, ?_, ?_, ?_, ?_, ?_, ?_, ?_, ?_, ?_, ?_⟩
        · intro q x hq
          by_cases hc : q.buf = buf ∧ fpd * posIdxF s o ≤ q.off ∧ q.off < fpd * posIdxF s o + 3 * e.nf
          · have hq2 : T q = some (F (q.off - fpd * posIdxF s o)) := if_pos hc
            rw [hq2] at hq
            obtain rfl : F (q.off - fpd * posIdxF s o) = x := by simpa using hq
            have := v4 (q.off - fpd * posIdxF s o) (by omega)
            rw [show (⟨buf, fpd * posIdxF s o⟩ : Ptr) + (q.off - fpd * posIdxF s o) = q from
              Ptr.ext_iff'.2 ⟨hc.1.symm, by show fpd * posIdxF s o + _ = _; omega⟩] at this
            exact this
          · have hq2 : T q = none := if_neg hc
            rw [hq2] at hq; cases hq
        · intro k hk
          rw [htl] at hk
          refine k04.I _ (slotI _ ?_ ?_)
          · show _ ≤ fpd * posTblF X s fpd o + k
            rw [m4]; omega
          · show fpd * posTblF X s fpd o + k < _
            rw [m3, m4]; omega
        · intro k hk
          refine if_neg ?_
          rintro ⟨_, _, h3⟩
          have h3' : fpd * posTblF X s fpd o + k < fpd * (o + np + 5*pp) + 3 * e.nf := h3
          rw [m4] at h3'
          omega
        · intro i j _ _ hh
          exact M.flbuf (Ptr.ext_iff'.1 hh).1.symm
        · intro k _ hh
          exact M.ebuf (by rw [show empty = A.tbl + k from hh]; rfl)
        · intro k hk; exact k04.I _ (M.flw k hk)
        · intro k hk; exact hTn _ M.flbuf
        · exact hTn _ M.ebuf
        · intro k _ hh
          exact M.efl (by rw [show empty = fl + k from hh]; rfl)
        · intro i hi
          exact k04.D _ (slotD _ (by right; exact ⟨Nat.le_add_right _ _, hG i hi⟩))
        · intro i j hi hj hh
          have hi' : i < e.nf * s.nctr * X.nComp := hi
          have h2 : o0 + i = posGF X s fpd o + j := (Ptr.ext_iff'.1 hh).2
          omega
        · refine ⟨?_, ?_, fun hb => Bool.noConfusion hb, fun _ _ _ => rfl⟩
          · show h4.I empty = .val 1
            rw [a4, hI3c]
            · exact M.flag
            · rintro (hq | hq)
              · exact M.ebuf (blk_buf hq)
              · exact M.eloc (blk_buf hq)
          · intro i hi
            have hi' : i < e.nf * s.nctr * X.nComp := hi
            exact k04.D _ (slotD _ (by left; show o0 + i < _; omega))
        · intro ip jp kp lp hip hjp hkp hlp
          exact hK ip jp kp lp _ _ T hip hjp hkp hlp (idxT_int2e e hTv)
      have hfin := (wp_iff_run _ _ _).2 (C09_loop_nopt S)
      refine wp_mono hfin ?_
      rintro res h5 ⟨⟨hret, hfl, hv, hz⟩, hd, hi⟩
      refine ⟨hfl, ?_, ?_, ?_, ?_, ?_⟩
      · intro hr m hm
        let N := s.si.nctr * s.sj.nctr * s.sk.nctr * s.sl.nctr
        let Rr := e.nf * N
        have hm' : m < e.nf * N * X.nComp := hm
        have hnfp : 0 < e.nf := by
          rcases Nat.eq_zero_or_pos e.nf with h0 | h0
          · rw [h0] at hm'; simp at hm'
          · exact h0
        have hN : 0 < N := Nat.mul_pos (Nat.mul_pos (Nat.mul_pos hic hjc) hkc) hlc
        have hR : 0 < Rr := Nat.mul_pos hnfp hN
        have b1 : m / Rr < X.nComp := (Nat.div_lt_iff_lt_mul hR).2 (by rw [Nat.mul_comm]; exact hm')
        have b2 : m % Rr < Rr := Nat.mod_lt _ hR
        have b3 : m % Rr / e.nf < s.sl.nctr * s.sk.nctr * s.sj.nctr * s.si.nctr := (Nat.div_lt_iff_lt_mul hnfp).2 (by
          calc m % Rr < Rr := b2
            _ = _ := by show e.nf * (s.si.nctr * s.sj.nctr * s.sk.nctr * s.sl.nctr) = _; ring)
        have b4 : m % Rr / e.nf / s.si.nctr < s.sl.nctr * s.sk.nctr * s.sj.nctr := (Nat.div_lt_iff_lt_mul hic).2 b3
        have b5 : m % Rr / e.nf / s.si.nctr / s.sj.nctr < s.sl.nctr * s.sk.nctr := (Nat.div_lt_iff_lt_mul hjc).2 b4
        have b6 : m % Rr / e.nf / s.si.nctr / s.sj.nctr / s.sk.nctr < s.sl.nctr := (Nat.div_lt_iff_lt_mul hkc).2 b5
        have c1 : m % Rr / e.nf % s.si.nctr < s.si.nctr := Nat.mod_lt _ hic
        have c2 : m % Rr / e.nf / s.si.nctr % s.sj.nctr < s.sj.nctr := Nat.mod_lt _ hjc
        have c3 : m % Rr / e.nf / s.si.nctr / s.sj.nctr % s.sk.nctr < s.sk.nctr := Nat.mod_lt _ hkc
        have c4 : m % Rr % e.nf < e.nf := Nat.mod_lt _ hnfp
        have b7 : m % Rr % e.nf = m % e.nf := Nat.mod_mod_of_dvd _ (Dvd.intro _ rfl)
        have := hv hr (m/Rr) _ _ _ _ (m % Rr % e.nf) b1 c1 c2 c3 b6 c4
        have hix : Spec.outIdx4 e.nf s.si.nctr s.sj.nctr s.sk.nctr s.sl.nctr (m/Rr) (m % Rr / e.nf % s.si.nctr)
            (m % Rr / e.nf / s.si.nctr % s.sj.nctr) (m % Rr / e.nf / s.si.nctr / s.sj.nctr % s.sk.nctr)
            (m % Rr / e.nf / s.si.nctr / s.sj.nctr / s.sk.nctr) (m % Rr % e.nf) = m := by
          unfold Spec.outIdx4
          have q1 := Nat.div_add_mod' (m % Rr / e.nf) s.si.nctr
          have q2 := Nat.div_add_mod' (m % Rr) e.nf
          have q3 := Nat.div_add_mod' m Rr
          have q4 := Nat.div_add_mod' (m % Rr / e.nf / s.si.nctr) s.sj.nctr
          have q5 := Nat.div_add_mod' (m % Rr / e.nf / s.si.nctr / s.sj.nctr) s.sk.nctr
          rw [q5, q4, q1, q2]
          exact q3
        have hix' : Spec.outIdx4 P.nf P.iCtr P.jCtr P.kCtr P.lCtr (m/Rr) (m % Rr / e.nf % s.si.nctr)
            (m % Rr / e.nf / s.si.nctr % s.sj.nctr) (m % Rr / e.nf / s.si.nctr / s.sj.nctr % s.sk.nctr)
            (m % Rr / e.nf / s.si.nctr / s.sj.nctr / s.sk.nctr) (m % Rr % e.nf) = m := hix
        rw [hix', b7, zero_add] at this
        exact this
      · intro hr comp ic jc kc lc n
        exact hz hr comp ic jc kc lc n
      · refine ADc.trans (AgreeD.trans (W1 := fun _ => False) (W := fun q => q.buf = buf) (AgreeD.of_eq d4 _) hd
          (fun _ x => x.elim) ?_) (fun _ => id) (fun _ => id)
        rintro q (hq | hq) <;> exact blk_buf hq
      · have AI4 : AgreeI h h4 (fun q => q.buf = buf ∨ q.buf = empty.buf ∨ q.buf = fl.buf ∨ q.buf = loc.buf) := by
          refine AgreeI.trans (W1 := fun _ => False) (AgreeI.of_eq hI3c _) a4 (fun _ x => x.elim) ?_
          rintro q (hq | hq)
          · exact Or.inl (blk_buf hq)
          · exact Or.inr (Or.inr (Or.inr (blk_buf hq)))
        refine AI4.trans hi (fun _ => id) ?_
        rintro q (hq | hq | hq)
        · exact Or.inr (Or.inl (by rw [hq]; rfl))
        · exact Or.inr (Or.inr (Or.inl (blk_buf hq)))
        · exact Or.inl (blk_buf hq)
      · have hne : ¬ PairEmpty L (s.pairArgs X) := fun hh => hem (e3.2 hh)
        constructor
        · intro hr
          rcases hret.1 hr with hb | hb
          · exact absurd hb (by simp)
          · exact ⟨hne, hb⟩
        · intro hh
          exact hret.2 (Or.inr hh.2)

/-- angular momenta and numbers of contractions of the four shells -/
def CallF.ls (s : CallF α) : Nat → Nat := four s.si.l s.sj.l s.sk.l s.sl.l
def CallF.nctrs (s : CallF α) : Nat → Nat := four s.si.nctr s.sj.nctr s.sk.nctr s.sl.nctr

theorem usedF_le_cacheSize (X : Int2e α) (s : CallF α) {fpd : Nat} (hf : 0 < fpd)
    (hj : 1 ≤ s.sj.nctr) (hk : 1 ≤ s.sk.nctr) (hl : 1 ≤ s.sl.nctr) :
    posGF X s fpd ((s.env X).nf * s.si.nctr * s.sj.nctr * s.sk.nctr * s.sl.nctr * X.nComp) +
      (s.leng X + CallF.used X s) ≤ cacheSizeF X s := by
  have d1 := dblOf_le hf ((s.env X).nf * 3)
  have d2 := dblOf_le hf s.tblLen
  unfold posGF posTblF posIdxF cacheSizeF
  refine le_trans ?_ (le_max_left _ _)
  let N := (s.env X).nf * X.nComp
  have a1 := aliasLen_le X.nComp (N * s.nctr)
  have a2 := aliasLen_le' hl (N * (s.si.nctr*s.sj.nctr*s.sk.nctr))
  have a3 := aliasLen_le' hk (N * (s.si.nctr*s.sj.nctr))
  have a4 := aliasLen_le' hj (N * s.si.nctr)
  have a5 := aliasLen_le s.si.nctr N
  have e2 : N * (s.si.nctr*s.sj.nctr*s.sk.nctr) * s.sl.nctr = N * s.nctr := by unfold CallF.nctr; ring
  have e3 : N * (s.si.nctr*s.sj.nctr) * s.sk.nctr = N * (s.si.nctr*s.sj.nctr*s.sk.nctr) := by ring
  have e4 : N * s.si.nctr * s.sj.nctr = N * (s.si.nctr*s.sj.nctr) := by ring
  rw [e2] at a2
  rw [e3] at a3
  rw [e4] at a4
  have hu : CallF.used X s ≤ 2 * (N * s.nctr) + N := by
    show aliasLen X.nComp (N * s.nctr) + aliasLen s.sl.nctr (N * (s.si.nctr*s.sj.nctr*s.sk.nctr)) +
      aliasLen s.sk.nctr (N * (s.si.nctr*s.sj.nctr)) + aliasLen s.sj.nctr (N * s.si.nctr) + aliasLen s.si.nctr N ≤ _
    omega
  have eN : N * s.nctr = (s.env X).nf * s.si.nctr * s.sj.nctr * s.sk.nctr * s.sl.nctr * X.nComp := by
    show (s.env X).nf * X.nComp * (s.si.nctr * s.sj.nctr * s.sk.nctr * s.sl.nctr) = _
    ring
  rw [eN] at hu
  have hN : N = (s.env X).nf * X.nComp := rfl
  have d2' : dblOf fpd s.tblLen ≤ s.si.nprim + s.sj.nprim + s.sk.nprim + s.sl.nprim + s.si.nprim * s.si.nctr +
    s.sj.nprim * s.sj.nctr + s.sk.nprim * s.sk.nctr + s.sl.nprim * s.sl.nctr := d2
  have e5 : (s.si.nprim * s.sj.nprim + s.sk.nprim * s.sl.nprim) * 5 = 5 * (s.si.nprim * s.sj.nprim) + 5 * (s.sk.nprim * s.sl.nprim) := by ring
  omega

variable {R : RysF α} {K : Consts α} {L : MathLib α} {X : Int2e α} {s : CallF α}
  {keep : Nat → Nat → Nat → Nat → Bool} {w : Nat → Nat → Nat → Nat → Nat → α}

/-- the values of the array of contracted integrals -/
def CallF.ctrArr (R : RysF α) (K : Consts α) (L : MathLib α) (X : Int2e α) (s : CallF α)
    (keep : Nat → Nat → Nat → Nat → Bool) (w : Nat → Nat → Nat → Nat → Nat → α) : Nat → α :=
  ctrVal (loopValF R K L X s keep w) (s.env X).nf s.si.nctr s.sj.nctr s.sk.nctr s.sl.nctr

/-- the part of the driver up to the output stage -/
theorem drvF_loop {h : Heap α} {fpd buf size : Nat} {empty fl loc counts : Ptr}
    (M : CallMem2 h fpd buf size empty fl loc counts) (hsize : cacheSizeF X s ≤ size)
    (hp : ∀ t, t < 4 → 0 < CallF.nctrs s t) (hK : EvalOKF R K L X s keep w) (hnc : 1 ≤ X.nComp)
    (hl : ∀ t, t < 4 → CallF.ls s t ≤ 15)
    (trans : (buf c : Nat) → Ptr → Prog α Ptr) (nfo : Nat → Nat) (out : Ptr) (dims : Option Ptr)
    (Q : Bool → Heap α → Prop)
    (hQ : ∀ has h1, (has = true → HoldsD h1 ⟨buf, 0⟩ ((s.env X).nf * s.nctr * X.nComp) (CallF.ctrArr R K L X s keep w)) →
      (has = false → ∀ m, CallF.ctrArr R K L X s keep w m = 0) →
      AgreeD h h1 (fun q => q.buf = buf) →
      AgreeI h h1 (fun q => q.buf = buf ∨ q.buf = empty.buf ∨ q.buf = fl.buf ∨ q.buf = loc.buf) → AllocMono h h1 →
      (has = true ↔ loopAnyF R K L X s keep) →
      wp (outStage 4 has X.nComp ((s.env X).nf * s.nctr) (c2sFun 4 (shapeOf nfo (CallF.nctrs s) (s.env X).nf)
          (trans buf (fpd * ((s.env X).nf * s.nctr * X.nComp)))) out ⟨buf, 0⟩ dims counts (fun t => nfo t * CallF.nctrs s t))
        (fun _ h2 => Q has h2) h1) :
    wp (drvF X s R K L fpd trans nfo out dims buf 0 empty fl loc counts) Q h := by
  have hf := M.fpd_pos
  have hic : 1 ≤ s.si.nctr := hp 0 (by omega)
  have hjc : 1 ≤ s.sj.nctr := hp 1 (by omega)
  have hkc : 1 ≤ s.sk.nctr := hp 2 (by omega)
  have hlc : 1 ≤ s.sl.nctr := hp 3 (by omega)
  have hncE : (s.env X).nf * s.si.nctr * s.sj.nctr * s.sk.nctr * s.sl.nctr = (s.env X).nf * s.nctr := by
    unfold CallF.nctr; ring
  unfold drvF
  dsimp only
  rw [hncE]
  rw [show mallocD fpd buf 0 ((s.env X).nf * s.nctr * X.nComp) = (⟨buf, 0⟩, fpd * ((s.env X).nf * s.nctr * X.nComp)) from by
    have := mallocD_eq hf buf 0 ((s.env X).nf * s.nctr * X.nComp); rw [Nat.zero_add] at this; exact this]
  dsimp only
  rw [wp_mbind]
  refine (wp_stI _ _ _ _).2 ⟨M.emw, ?_⟩
  let h0 := h.setI empty 1
  have hI0 : ∀ q, q ≠ empty → h0.I q = h.I q := fun q hq => Heap.setI_I_ne _ _ hq
  have am0 : AllocMono h h0 := by
    refine ⟨fun q hq => hq, fun q hq => ?_⟩
    by_cases he : q = empty
    · subst he
      rw [show h0.I q = .val 1 from Heap.setI_I_self _ _ _]
      intro x; cases x
    · rw [hI0 q he]; exact hq
  have LM : LoopMemF X s h0 fpd buf size 0 ((s.env X).nf * s.nctr * X.nComp) empty fl loc := by
    refine ⟨hf, ⟨fun k hk _ => M.dbl k hk, fun m hm _ => am0.I _ (M.int m hm)⟩, ?_, by omega, Heap.setI_I_self _ _ _,
      fun k hk => am0.I _ (M.flw k hk), fun k hk => am0.I _ (M.locw k hk), M.ebuf, M.efl, M.eloc, M.flbuf, M.locbuf⟩
    rw [← hncE]
    exact le_trans (usedF_le_cacheSize X s hf hjc hkc hlc) hsize
  rw [wp_mbind]
  refine wp_mono (wp_allocMono (loopFRun_wp LM hK hic hjc hkc hlc hnc (hl 0 (by omega)) (hl 1 (by omega))
    (hl 2 (by omega)) (hl 3 (by omega)))) ?_
  rintro res h1 ⟨⟨hfl, hv, hz, hD, hI, hret⟩, hm⟩
  rw [wp_mbind]
  refine (wp_ldI _ _ _).2 ⟨_, hfl, ?_⟩
  have hres : decide ((if res then (0:Int) else 1) = 0) = res := by cases res <;> rfl
  rw [hres]
  have hDh : AgreeD h h1 (fun q => q.buf = buf) := hD
  have hIh : AgreeI h h1 (fun q => q.buf = buf ∨ q.buf = empty.buf ∨ q.buf = fl.buf ∨ q.buf = loc.buf) := by
    intro q hq
    rw [hI q hq, hI0 q (fun e => hq (by rw [e]; exact Or.inr (Or.inl rfl)))]
  have := hQ res h1 hv (fun hr m => hz hr _ _ _ _ _ _) hDh hIh (am0.trans hm) hret
  rw [wp_mbind]
  refine wp_mono this ?_
  intro _ h2 hq
  rw [wp_pure]
  exact hq

theorem nf_envF : (s.env X).nf = ncart s.si.l * ncart s.sj.l * ncart s.sk.l * ncart s.sl.l := by
  show lenCart s.si.l * lenCart s.sk.l * lenCart s.sl.l * lenCart s.sj.l = _
  simp only [lenCart_eq]
  ring

/-- the transformed integral -/
def sphValF (R : RysF α) (K : Consts α) (L : MathLib α) (X : Int2e α) (s : CallF α)
    (keep : Nat → Nat → Nat → Nat → Bool) (w : Nat → Nat → Nat → Nat → Nat → α) (n ic jc kc lc i j k l : Nat) : α :=
  ∑ a ∈ Finset.range (ncart s.si.l), ∑ b ∈ Finset.range (ncart s.sj.l), ∑ c ∈ Finset.range (ncart s.sk.l),
    ∑ d ∈ Finset.range (ncart s.sl.l),
    c2sCoef s.si.l i a * c2sCoef s.sj.l j b * c2sCoef s.sk.l k c * c2sCoef s.sl.l l d *
      loopValF R K L X s keep w n ic jc kc lc (pos4c (ncar (CallF.ls s)) a b c d)

theorem sphOf_eqF {n ic jc kc lc i j k l : Nat} (q1 : ic < s.si.nctr) (q2 : jc < s.sj.nctr) (q3 : kc < s.sk.nctr)
    (q4 : lc < s.sl.nctr) : sphOf (CallF.ls s) (CallF.nctrs s) (CallF.ctrArr R K L X s keep w) n ic jc kc lc i j k l =
      sphValF R K L X s keep w n ic jc kc lc i j k l := by
  unfold sphOf sphValF
  refine Finset.sum_congr rfl fun a ha => Finset.sum_congr rfl fun b hb => Finset.sum_congr rfl fun c hc =>
    Finset.sum_congr rfl fun d hd => ?_
  refine congrArg (c2sCoef s.si.l i a * c2sCoef s.sj.l j b * c2sCoef s.sk.l k c * c2sCoef s.sl.l l d * ·) ?_
  unfold CallF.ctrArr
  rw [show (s.env X).nf = ncar (CallF.ls s) 0 * ncar (CallF.ls s) 1 * ncar (CallF.ls s) 2 * ncar (CallF.ls s) 3 from nf_envF]
  exact ctrVal_at (nctr := CallF.nctrs s) _ q1 q2 q3 q4 (Finset.mem_range.1 ha) (Finset.mem_range.1 hb)
    (Finset.mem_range.1 hc) (Finset.mem_range.1 hd)

/-- Spherical output -/
theorem drvF_sph {h : Heap α} {fpd buf size : Nat} {empty fl loc counts out tab : Ptr} {dims : Option Ptr} {nd : Nat → Nat}
    (M : CallMem2 h fpd buf size empty fl loc counts) (hsize : cacheSizeF X s ≤ size)
    (hs : Sizes 4 (nsph (CallF.ls s)) (CallF.nctrs s) nd)
    (O : OutArg2 4 h nd (fun t => nsph (CallF.ls s) t * CallF.nctrs s t) X.nComp out dims buf empty fl loc counts)
    (hT : HoldsTab h tab) (htb : tab.buf ≠ buf) (hto : out.buf ≠ tab.buf)
    (hK : EvalOKF R K L X s keep w) (hnc : 1 ≤ X.nComp) (hl : ∀ t, t < 4 → CallF.ls s t ≤ 15) :
    ∃ has h', run (drvF X s R K L fpd (sphTrans2e tab fpd s.si.l s.sj.l s.sk.l s.sl.l) (nsph (CallF.ls s)) out dims
        buf 0 empty fl loc counts) h = some (has, h') ∧
      (∀ n ic jc kc lc i j k l, n < X.nComp → ic < s.si.nctr → jc < s.sj.nctr → kc < s.sk.nctr → lc < s.sl.nctr →
        i < s.si.l*2+1 → j < s.sj.l*2+1 → k < s.sk.l*2+1 → l < s.sl.l*2+1 →
        h'.D (out + outAt nd n (ic*(s.si.l*2+1)+i) (jc*(s.sj.l*2+1)+j) (kc*(s.sk.l*2+1)+k) (lc*(s.sl.l*2+1)+l)) =
          .val (sphValF R K L X s keep w n ic jc kc lc i j k l)) ∧
      (has = false → ∀ m, InBlock nd (fun t => nsph (CallF.ls s) t * CallF.nctrs s t) X.nComp m → h'.D (out + m) = .val 0) ∧
      Frame2 h h' nd (fun t => nsph (CallF.ls s) t * CallF.nctrs s t) X.nComp buf out empty fl loc counts ∧
      (has = true ↔ loopAnyF R K L X s keep) := by
  refine (wp_iff_run _ (fun has h' => _) _).1 ?_
  refine drvF_loop M hsize hs.nctr_pos hK hnc hl _ _ _ _ _ ?_
  intro has h1 hv hz hD hI hm hret
  have hd1 := dims_kept O hI
  have hcn : ∀ t, t < 4 → h1.I (counts + t) ≠ .oob := fun t ht => hm.I _ (M.countsw t ht)
  have hal : ∀ m, InBlock nd (fun t => nsph (CallF.ls s) t * CallF.nctrs s t) X.nComp m →
      h1.D (out + m) ≠ .oob := fun m hm' => hm.D _ (O.h_out m hm')
  have enf : (s.env X).nf = blkLen (CallF.ls s) := nf_envF
  have enf' : (s.env X).nf = ncar (CallF.ls s) 0 * ncar (CallF.ls s) 1 * ncar (CallF.ls s) 2 * ncar (CallF.ls s) 3 := nf_envF
  have enc : s.nctr = CallF.nctrs s 0 * CallF.nctrs s 1 * CallF.nctrs s 2 * CallF.nctrs s 3 := rfl
  have elen : (s.env X).nf * s.nctr * X.nComp = X.nComp * (blkLen (CallF.ls s) *
      (CallF.nctrs s 0 * CallF.nctrs s 1 * CallF.nctrs s 2 * CallF.nctrs s 3)) := by
    rw [enf, enc]; ring
  have htab : HoldsTab h1 tab := holdsTab_agree hT hD (fun q hq => by rw [hq]; exact htb.symm)
  have hfree : (s.env X).nf * s.nctr * X.nComp + blkLen (CallF.ls s) * 4 ≤ size := by
    refine le_trans ?_ hsize
    unfold cacheSizeF
    refine le_trans ?_ (le_max_right _ _)
    rw [← enf]
    have : (s.env X).nf * s.si.nctr * s.sj.nctr * s.sk.nctr * s.sl.nctr = (s.env X).nf * s.nctr := by
      unfold CallF.nctr; ring
    rw [this]
  cases has with
  | true =>
    have hh := hv rfl
    rw [elen] at hh
    have St : SphStage 4 (CallF.ls s) (CallF.nctrs s) nd X.nComp out dims ⟨buf, 0⟩ counts tab fpd buf
        ((s.env X).nf * s.nctr * X.nComp) size (CallF.ctrArr R K L X s keep w) h1 :=
      { h_fpd := M.fpd_pos, h_l := hl, h_l0 := fun t a b => absurd a (by omega), h_sizes := hs, h_dims := hd1
        h_counts := hcn, h_tab := htab, h_gctr := hh, h_gbuf := rfl
        h_used := by rw [elen]; exact le_of_eq (Nat.zero_add _)
        h_free := hfree, h_cache := fun k hk => hm.D _ (M.dbl k hk), h_out := hal, h_tbuf := htb
        h_obuf := ⟨O.h_obuf, hto⟩ }
    obtain ⟨h2, r2, v2, f2, i2⟩ := C19_spherical_block St
    refine (wp_iff_run _ _ _).2 ⟨(), h2, ?_, ?_, fun x => Bool.noConfusion x, ⟨?_, ?_⟩, hret⟩
    · rw [← r2]
      unfold sphStage
      rw [enf, enc]
      rfl
    · intro n ic jc kc lc i j k l hn q1 q2 q3 q4 p1 p2 p3 p4
      have := v2 n ic jc kc lc i j k l hn q1 q2 q3 q4 p1 p2 p3 p4
      exact this.trans (congrArg Cell.val (sphOf_eqF q1 q2 q3 q4))
    · intro q hq hb
      rw [f2 q (fun x => hq x.1) hb]
      exact hD q hq
    · intro q p1 p2 p3 p4 p5
      rw [i2 q (fun t _ e => p5 (by rw [e]; rfl))]
      exact hI q (by rintro (x | x | x | x) <;> [exact p1 x; exact p2 x; exact p3 x; exact p4 x])
  | false =>
    obtain ⟨h2, r2, v2, f2, i2⟩ := C18_zero_block (nComp := X.nComp) (nc := (s.env X).nf * s.nctr) (out := out) (gctr := ⟨buf, 0⟩)
      (c2s := c2sFun 4 (shapeOf (nsph (CallF.ls s)) (CallF.nctrs s) (s.env X).nf)
        (sphTrans2e tab fpd s.si.l s.sj.l s.sk.l s.sl.l buf (fpd * ((s.env X).nf * s.nctr * X.nComp)))) hs hd1
      (fun _ _ x => absurd x (by omega)) hcn hal
    refine (wp_iff_run _ _ _).2 ⟨(), h2, r2, ?_, fun _ => v2, ⟨?_, ?_⟩, hret⟩
    · intro n ic jc kc lc i j k l hn q1 q2 q3 q4 p1 p2 p3 p4
      have hz0 : sphValF R K L X s keep w n ic jc kc lc i j k l = 0 := by
        unfold sphValF
        refine Finset.sum_eq_zero fun a ha => Finset.sum_eq_zero fun b hb => Finset.sum_eq_zero fun c hc =>
          Finset.sum_eq_zero fun d hd => ?_
        have hz' := hz rfl (ctrAt (CallF.nctrs s) (ncar (CallF.ls s)) n ic jc kc lc a b c d)
        unfold CallF.ctrArr at hz'
        rw [enf'] at hz'
        have hc := ctrVal_at (nctr := CallF.nctrs s) (nf := ncar (CallF.ls s)) (n := n) (loopValF R K L X s keep w) q1 q2 q3 q4
          (Finset.mem_range.1 ha) (Finset.mem_range.1 hb) (Finset.mem_range.1 hc) (Finset.mem_range.1 hd)
        rw [← hc]
        exact (congrArg _ hz').trans (mul_zero _)
      rw [hz0]
      exact v2 _ ⟨n, _, _, _, _, hn, digit_lt p1 q1, digit_lt p2 q2, digit_lt p3 q3, digit_lt p4 q4, rfl⟩
    · intro q hq hb
      rw [f2 q hb]
      exact hD q hq
    · intro q p1 p2 p3 p4 p5
      rw [i2 q (fun t _ e => p5 (by rw [e]; rfl))]
      exact hI q (by rintro (x | x | x | x) <;> [exact p1 x; exact p2 x; exact p3 x; exact p4 x])

end Verif.Lemmas
