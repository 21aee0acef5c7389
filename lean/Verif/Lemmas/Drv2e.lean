import Verif.Model.Int2e
import Verif.Lemmas.Drv1e
import Verif.Lemmas.EriKernel
import Verif.Props.Loop2e

/-! CINT2e_loop_nopt on its part of the cache. -/
namespace Verif.Lemmas
open Verif Verif.Model Verif.Prog Verif.Props

variable {α : Type}

section
variable [Zero α] [LT α] [DecidableLT α]
/-- positions of the integer arrays and of `g`, in doubles, when the loop's cache starts at `o` -/
def posIdx2 (s : Call2 α) (o : Nat) : Nat :=
  o + (s.si.nprim + s.sj.nprim + s.sk.nprim + s.sl.nprim) + 5 * (s.si.nprim * s.sj.nprim)
def posTbl2 (X : Int2e α) (s : Call2 α) (fpd o : Nat) : Nat := posIdx2 s o + dblOf fpd ((s.env X).nf * 3)
def posG2 (X : Int2e α) (s : Call2 α) (fpd o : Nat) : Nat := posTbl2 X s fpd o + dblOf fpd s.tblLen

theorem arrays2e_eq {X : Int2e α} {s : Call2 α} {fpd : Nat} (hf : 0 < fpd) (buf o : Nat) :
    arrays2e X s fpd buf (fpd*o) =
      { logMaxc := ⟨buf, o⟩, pdata := ⟨buf, o + (s.si.nprim + s.sj.nprim + s.sk.nprim + s.sl.nprim)⟩
        idx := ⟨buf, fpd * posIdx2 s o⟩, tbl := ⟨buf, fpd * posTbl2 X s fpd o⟩
        g := ⟨buf, posG2 X s fpd o⟩ } := by
  unfold arrays2e
  simp only [mallocD_eq hf, mallocI_eq hf, mallocI_eq' hf, alignUp_eq hf, Nat.mul_div_cancel_left _ hf]
  rfl

/-- the doubles of the cache used as FINTs by CINT2e_loop_nopt -/
def intSlots2 (X : Int2e α) (s : Call2 α) (fpd o : Nat) (k : Nat) : Prop :=
  posIdx2 s o ≤ k ∧ k < posG2 X s fpd o
end

/-- powers of the functions of entry `n` of the index table -/
def i4 (e : EnvG) (c n : Nat) : Nat := Spec.pw e.i_l c (n % e.nfi)
def j4 (e : EnvG) (c n : Nat) : Nat := Spec.pw e.j_l c (n / e.nfi / e.nfk / e.nfl)
def k4 (e : EnvG) (c n : Nat) : Nat := Spec.pw e.k_l c (n / e.nfi % e.nfk)
def l4 (e : EnvG) (c n : Nat) : Nat := Spec.pw e.l_l c (n / e.nfi / e.nfk % e.nfl)

theorem idxT_int2e (e : EnvG) {idx : Ptr} {N : Nat} {T : Ptr → Option Int}
    (hT : ∀ k, k < 3*N → T (idx + k) = some (tblF e.nfi (g2eVal e) k)) :
    IdxT T idx N (adr4 e (i4 e) (j4 e) (k4 e) (l4 e)) := by
  intro n c hn hc
  rw [hT _ (by omega)]
  unfold tblF adr4 slab4 g2eVal i4 j4 k4 l4
  rw [show (3*n+c)/3 = n by omega, show (3*n+c)%3 = c by omega]
  congr 1
  push_cast
  ring

variable [Field α] [LinearOrder α]

/-- the evaluator of integral `X` gives `w` for the primitives it keeps -/
def EvalOK2 (R : Rys2 α) (K : Consts α) (L : MathLib α) (X : Int2e α) (s : Call2 α)
    (keep : Nat → Nat → Nat → Nat → Bool) (w : Nat → Nat → Nat → Nat → Nat → α) : Prop :=
  ∀ ip jp kp lp (g idx : Ptr) (T : Ptr → Option Int), ip < s.si.nprim → jp < s.sj.nprim → kp < s.sk.nprim →
    lp < s.sl.nprim →
    IdxT T idx (s.env X).nf (adr4 (s.env X) (i4 (s.env X)) (j4 (s.env X)) (k4 (s.env X)) (l4 (s.env X))) →
    KernelSpec T (fun fac => g0_2e R K (s.env X) (s.g2 X L ip jp kp lp)
        (s.eijcutoff X L kp lp - pairVal L (s.pairArgs X) ip jp 4) g fac)
      (fun _ gout em => X.gout (s.env X) (s.g2 X L ip jp kp lp) idx g gout em) (Blk g (s.leng X))
      ((s.env X).nf * X.nComp) (keep ip jp kp lp) (w ip jp kp lp)

/-- the numbers computed by the loop -/
def loopVal2 (R : Rys2 α) (K : Consts α) (L : MathLib α) (X : Int2e α) (s : Call2 α)
    (keep : Nat → Nat → Nat → Nat → Bool) (w : Nat → Nat → Nat → Nat → Nat → α) (comp ic jc kc lc n : Nat) : α :=
  expected (s.quartet X R K L ⟨⟨0,0⟩,⟨0,0⟩,⟨0,0⟩,⟨0,0⟩,⟨0,0⟩⟩) keep w comp ic jc kc lc n

/-- some primitive quartet contributes -/
def loopAny2 (R : Rys2 α) (K : Consts α) (L : MathLib α) (X : Int2e α) (s : Call2 α)
    (keep : Nat → Nat → Nat → Nat → Bool) : Prop :=
  ¬ PairEmpty L (s.pairArgs X) ∧ ∃ ip jp kp lp, ip < s.si.nprim ∧ jp < s.sj.nprim ∧ kp < s.sk.nprim ∧ lp < s.sl.nprim ∧
    survives (s.quartet X R K L ⟨⟨0,0⟩,⟨0,0⟩,⟨0,0⟩,⟨0,0⟩,⟨0,0⟩⟩) keep ip jp kp lp = true

variable {R : Rys2 α} {K : Consts α} {L : MathLib α} {X : Int2e α} {s : Call2 α}
  {keep : Nat → Nat → Nat → Nat → Bool} {w : Nat → Nat → Nat → Nat → Nat → α}

theorem loopVal2_empty (hE : PairEmpty L (s.pairArgs X)) (comp ic jc kc lc n : Nat) :
    loopVal2 R K L X s keep w comp ic jc kc lc n = 0 := by
  unfold loopVal2 expected Spec.contract4
  rw [Finset.sum_eq_zero, mul_zero]
  intro lp _
  refine Finset.sum_eq_zero (fun kp _ => Finset.sum_eq_zero (fun jp hj => Finset.sum_eq_zero (fun ip hi => ?_)))
  have : pairVal L (s.pairArgs X) ip jp 3 = 0 := by
    have := hE ip jp (Finset.mem_range.1 hi) (Finset.mem_range.1 hj)
    unfold pairVal; simp [this]
  unfold Call2.quartet
  dsimp only
  rw [this]
  simp

/-- the part of `g` that is used: see `Quartet.usedGen` -/
def Call2.used (X : Int2e α) (s : Call2 α) : Nat :=
  let N := (s.env X).nf * X.nComp
  aliasLen X.nComp (N * s.nctr) + aliasLen s.sl.nctr (N * (s.si.nctr*s.sj.nctr*s.sk.nctr)) +
    aliasLen s.sk.nctr (N * (s.si.nctr*s.sj.nctr)) + aliasLen s.sj.nctr (N * s.si.nctr) + aliasLen s.si.nctr N

theorem used_quartet (A : Arrays2e) : (s.quartet X R K L A).usedGen = Call2.used X s := by
  unfold Quartet.usedGen Call2.used
  have e1 : (s.quartet X R K L A).lenl = (s.env X).nf * X.nComp * s.nctr := by
    show (s.env X).nf * s.nctr * X.nComp = _; ring
  have e2 : (s.quartet X R K L A).lenk = (s.env X).nf * X.nComp * (s.si.nctr*s.sj.nctr*s.sk.nctr) := by
    show (s.env X).nf * s.si.nctr * s.sj.nctr * s.sk.nctr * X.nComp = _; ring
  have e3 : (s.quartet X R K L A).lenj = (s.env X).nf * X.nComp * (s.si.nctr*s.sj.nctr) := by
    show (s.env X).nf * s.si.nctr * s.sj.nctr * X.nComp = _; ring
  have e4 : (s.quartet X R K L A).leni = (s.env X).nf * X.nComp * s.si.nctr := by
    show (s.env X).nf * s.si.nctr * X.nComp = _; ring
  rw [e1, e2, e3, e4]
  rfl

/-- Memory of CINT2e_loop_nopt: the cache is buffer `buf`; `gctr` sits at double `o0`, the loop's own
arrays start at double `o`; `empty`, `fl` and `loc` are not in the cache. -/
structure LoopMem2 (X : Int2e α) (s : Call2 α) (h : Heap α) (fpd buf size o0 o : Nat) (empty fl loc : Ptr) : Prop where
  fpd_pos : 0 < fpd
  cache : CacheMem h fpd buf size (intSlots2 X s fpd o)
  room : posG2 X s fpd o + (s.leng X + Call2.used X s) ≤ size
  ctr : o0 + (s.env X).nf * s.nctr * X.nComp ≤ o
  flag : h.I empty = .val 1
  flw : ∀ k, k < 5 → h.I (fl + k) ≠ .oob
  locw : ∀ k, k < 12*136 → h.I (loc + k) ≠ .oob
  ebuf : empty.buf ≠ buf
  efl : empty.buf ≠ fl.buf
  eloc : empty.buf ≠ loc.buf
  flbuf : fl.buf ≠ buf
  locbuf : loc.buf ≠ buf

/-- value number `m` of the array of contracted integrals -/
def ctrVal (V : Nat → Nat → Nat → Nat → Nat → Nat → α) (nf I J K Lc m : Nat) : α :=
  let r := m % (nf * (I*J*K*Lc)) / nf
  V (m / (nf * (I*J*K*Lc))) (r % I) (r / I % J) (r / I / J % K) (r / I / J / K) (m % nf)

/-- CINT2e_loop_nopt runs within its part of the cache and computes the contracted integrals. -/
theorem loop2eRun_wp {h : Heap α} {fpd buf size o0 o : Nat} {empty fl loc : Ptr}
    (M : LoopMem2 X s h fpd buf size o0 o empty fl loc) (hK : EvalOK2 R K L X s keep w)
    (hic : 1 ≤ s.si.nctr) (hjc : 1 ≤ s.sj.nctr) (hkc : 1 ≤ s.sk.nctr) (hlc : 1 ≤ s.sl.nctr) (hnc : 1 ≤ X.nComp)
    (hli : s.si.l ≤ 15) (hlj : s.sj.l ≤ 15) (hlk : s.sk.l ≤ 15) (hll : s.sl.l ≤ 15) :
    wp (loop2eRun X s R K L fpd ⟨buf, o0⟩ empty buf (fpd*o) fl loc) (fun res h' =>
      h'.I empty = .val (if res then 0 else 1) ∧
      (res = true → HoldsD h' ⟨buf, o0⟩ ((s.env X).nf * s.nctr * X.nComp)
        (ctrVal (loopVal2 R K L X s keep w) (s.env X).nf s.si.nctr s.sj.nctr s.sk.nctr s.sl.nctr)) ∧
      (res = false → ∀ comp ic jc kc lc n, loopVal2 R K L X s keep w comp ic jc kc lc n = 0) ∧
      AgreeD h h' (fun q => q.buf = buf) ∧
      AgreeI h h' (fun q => q.buf = buf ∨ q.buf = empty.buf ∨ q.buf = fl.buf ∨ q.buf = loc.buf) ∧
      (res = true ↔ loopAny2 R K L X s keep)) h := by
  have hf := M.fpd_pos
  let np := s.si.nprim + s.sj.nprim + s.sk.nprim + s.sl.nprim
  let pp := s.si.nprim * s.sj.nprim
  let e := s.env X
  have hnp : s.si.nprim + s.sj.nprim + s.sk.nprim + s.sl.nprim = np := rfl
  have hctr : o0 + e.nf * s.nctr * X.nComp ≤ o := M.ctr
  have hnfi : e.nfi = Spec.ncart e.i_l := rfl
  have hnfj : e.nfj = Spec.ncart e.j_l := rfl
  have hnfk : e.nfk = Spec.ncart e.k_l := rfl
  have hnfl : e.nfl = Spec.ncart e.l_l := rfl
  have hnf : e.nf = e.nfj * e.nfl * e.nfk * e.nfi := by
    show e.nfi * e.nfk * e.nfl * e.nfj = _; ring
  have dI : e.nf * 3 ≤ fpd * dblOf fpd (e.nf*3) := dblOf_mul hf _
  have dT : s.tblLen ≤ fpd * dblOf fpd s.tblLen := dblOf_mul hf _
  have hroom : o + np + 5*pp + dblOf fpd (e.nf*3) + dblOf fpd s.tblLen + (s.leng X + Call2.used X s) ≤ size := M.room
  -- access to the cache
  have slotD : ∀ k, k < o + np + 5*pp ∨ (posG2 X s fpd o ≤ k ∧ k < size) → h.D ⟨buf, k⟩ ≠ .oob := by
    intro k hk
    refine M.cache.dbl k (by omega) ?_
    rintro ⟨h1, h2⟩
    have h1' : o + np + 5*pp ≤ k := h1
    omega
  have slotI : ∀ m, fpd * (o + np + 5*pp) ≤ m →
      m < fpd * (o + np + 5*pp + dblOf fpd (e.nf*3) + dblOf fpd s.tblLen) → h.I ⟨buf, m⟩ ≠ .oob := by
    intro m h1 h2
    refine M.cache.int m (lt_of_lt_of_le h2 (Nat.mul_le_mul_left _ (by omega))) ⟨?_, ?_⟩
    · exact (Nat.le_div_iff_mul_le hf).2 (by rw [Nat.mul_comm]; exact h1)
    · exact (Nat.div_lt_iff_lt_mul hf).2 (by rw [Nat.mul_comm]; exact h2)
  have m3 : fpd * (o + np + 5*pp + dblOf fpd (e.nf*3) + dblOf fpd s.tblLen) =
      fpd * (o + np + 5*pp) + fpd * dblOf fpd (e.nf*3) + fpd * dblOf fpd s.tblLen := by ring
  have m4 : fpd * posTbl2 X s fpd o = fpd * (o + np + 5*pp) + fpd * dblOf fpd (e.nf*3) := by
    show fpd * (o + np + 5*pp + dblOf fpd (e.nf*3)) = _
    ring
  unfold loop2eRun
  dsimp only
  rw [arrays2e_eq hf]
  dsimp only
  rw [wp_mbind]
  refine wp_mono (wp_allocMono (fillLogMaxC_wp (p := ⟨buf, o⟩) (fun i hi => slotD (o+i) (by left; omega)))) ?_
  rintro _ h1 ⟨⟨a1, i1⟩, k1⟩
  rw [wp_mbind]
  refine wp_mono (wp_allocMono (fillLogMaxC_wp (p := (⟨buf, o⟩ : Ptr) + s.si.nprim) (fun i hi => ?_))) ?_
  · refine k1.D _ ?_
    rw [Ptr.add_assoc]
    exact slotD (o + (s.si.nprim + i)) (by left; omega)
  rintro _ h2 ⟨⟨a2, i2⟩, k2⟩
  have k02 := k1.trans k2
  rw [wp_mbind]
  refine wp_mono (wp_allocMono (setPairdata_wp (pd := ⟨buf, o + np⟩) (fun i hi => ?_))) ?_
  · have hi' : i < 5 * (s.sj.nprim * s.si.nprim) := hi
    rw [Nat.mul_comm s.sj.nprim] at hi'
    refine k02.D _ (slotD _ (by left; show o + np + i < _; omega))
  rintro em h3 ⟨⟨e3, v3, a3, i3⟩, k3⟩
  have k03 := k02.trans k3
  have AD : AgreeD h h3 (fun q => q.buf = buf) :=
    ((a1.mono (W := fun q => q.buf = buf) (fun q hq => blk_buf hq)).trans
      (a2.mono (W := fun q => q.buf = buf) (fun q hq => blk_buf hq)) (fun _ => id) (fun _ => id)).trans
      (a3.mono (W := fun q => q.buf = buf) (fun q hq => blk_buf hq)) (fun _ => id) (fun _ => id)
  have hI3 : h3.I = h.I := by rw [i3, i2, i1]
  by_cases hem : em = true
  · rw [if_pos hem, wp_pure]
    exact ⟨by rw [hI3]; exact M.flag, fun hh => Bool.noConfusion hh, fun _ => loopVal2_empty (e3.1 hem), AD, AgreeI.of_eq hI3 _,
      ⟨fun hh => Bool.noConfusion hh, fun hh => absurd (e3.1 hem) hh.1⟩⟩
  · rw [if_neg hem, wp_mbind]
    refine wp_mono (wp_allocMono (fillLogMaxC_wp (p := (⟨buf, o⟩ : Ptr) + s.si.nprim + s.sj.nprim) (fun i hi => ?_))) ?_
    · refine k03.D _ ?_
      rw [Ptr.add_assoc, Ptr.add_assoc]
      exact slotD (o + (s.si.nprim + (s.sj.nprim + i))) (by left; omega)
    rintro _ h3b ⟨⟨a3b, i3b⟩, k3b⟩
    have k03b := k03.trans k3b
    rw [wp_mbind]
    refine wp_mono (wp_allocMono (fillLogMaxC_wp (p := (⟨buf, o⟩ : Ptr) + s.si.nprim + s.sj.nprim + s.sk.nprim) (fun i hi => ?_))) ?_
    · refine k03b.D _ ?_
      rw [Ptr.add_assoc, Ptr.add_assoc, Ptr.add_assoc]
      exact slotD (o + (s.si.nprim + (s.sj.nprim + (s.sk.nprim + i)))) (by left; omega)
    rintro _ h3c ⟨⟨a3c, i3c⟩, k3c⟩
    have k03c := k03b.trans k3c
    have ADc : AgreeD h h3c (fun q => q.buf = buf) :=
      (AD.trans (a3b.mono (W := fun q => q.buf = buf) (fun q hq => blk_buf hq)) (fun _ => id) (fun _ => id)).trans
        (a3c.mono (W := fun q => q.buf = buf) (fun q hq => blk_buf hq)) (fun _ => id) (fun _ => id)
    have hI3c : h3c.I = h.I := by rw [i3c, i3b, hI3]
    rw [wp_mbind]
    refine wp_mono (wp_allocMono (g2eIndex_wp (e := e) (idx := ⟨buf, fpd * posIdx2 s o⟩) (loc := loc) hli hlj hlk hll hnfi hnfj hnfk hnfl
      ⟨?_, fun k hk => k03c.I _ (M.locw k hk), ?_⟩)) ?_
    · intro k hk
      refine k03c.I _ (slotI _ (Nat.le_add_right _ _) ?_)
      rw [m3]
      show fpd * (o + np + 5*pp) + k < _
      rw [← hnf] at hk
      omega
    · intro i j _ _ hh
      exact M.locbuf (Ptr.ext_iff'.1 hh).1
    · rintro _ h4 ⟨⟨v4, a4, d4⟩, k4⟩
      have k04 := k03c.trans k4
      rw [← hnf] at v4 a4
      let F := tblF e.nfi (g2eVal e)
      let idx : Ptr := ⟨buf, fpd * posIdx2 s o⟩
      let T : Ptr → Option Int := fun q => if q.buf = buf ∧ fpd * posIdx2 s o ≤ q.off ∧ q.off < fpd * posIdx2 s o + 3 * e.nf then
        some (F (q.off - fpd * posIdx2 s o)) else none
      have hTv : ∀ k, k < 3 * e.nf → T (idx + k) = some (F k) := by
        intro k hk
        show (if buf = buf ∧ fpd * posIdx2 s o ≤ fpd * posIdx2 s o + k ∧ fpd * posIdx2 s o + k < fpd * posIdx2 s o + 3 * e.nf then
          some (F (fpd * posIdx2 s o + k - fpd * posIdx2 s o)) else none) = _
        rw [if_pos ⟨rfl, by omega, by omega⟩, Nat.add_sub_cancel_left]
      have hTn : ∀ q : Ptr, q.buf ≠ buf → T q = none := fun q hq => if_neg (fun hh => hq hh.1)
      let A : Arrays2e := { logMaxc := ⟨buf, o⟩, pdata := ⟨buf, o + np⟩, idx := idx
                            tbl := ⟨buf, fpd * posTbl2 X s fpd o⟩, g := ⟨buf, posG2 X s fpd o⟩ }
      let P := s.quartet X R K L A
      have htl : P.tblSize = s.tblLen := rfl
      have hused : P.usedGen = Call2.used X s := used_quartet A
      have hG : ∀ i, i < s.leng X + P.usedGen → posG2 X s fpd o + i < size := by
        intro i hi
        have := M.room
        rw [hused] at hi
        omega
      have hGo : o + np + 5*pp ≤ posG2 X s fpd o := by
        show _ ≤ o + np + 5*pp + dblOf fpd (e.nf*3) + dblOf fpd s.tblLen
        omega
      have S : SetupNopt P (mem2e ⟨buf, o0⟩ empty A.g fl A.tbl) A.tbl T keep w false (fun _ => 0) h4 := by
        refine ⟨hic, hjc, hkc, hlc, hnc, ?_, ?_, ?_, ?_, ?_, ?_, ?_, ?_, ?_, ?_, ?_, ?_, ?_⟩
        · intro q x hq
          by_cases hc : q.buf = buf ∧ fpd * posIdx2 s o ≤ q.off ∧ q.off < fpd * posIdx2 s o + 3 * e.nf
          · have hq2 : T q = some (F (q.off - fpd * posIdx2 s o)) := if_pos hc
            rw [hq2] at hq
            obtain rfl : F (q.off - fpd * posIdx2 s o) = x := by simpa using hq
            have := v4 (q.off - fpd * posIdx2 s o) (by omega)
            rw [show (⟨buf, fpd * posIdx2 s o⟩ : Ptr) + (q.off - fpd * posIdx2 s o) = q from
              Ptr.ext_iff'.2 ⟨hc.1.symm, by show fpd * posIdx2 s o + _ = _; omega⟩] at this
            exact this
          · have hq2 : T q = none := if_neg hc
            rw [hq2] at hq; cases hq
        · intro k hk
          rw [htl] at hk
          refine k04.I _ (slotI _ ?_ ?_)
          · show _ ≤ fpd * posTbl2 X s fpd o + k
            rw [m4]; omega
          · show fpd * posTbl2 X s fpd o + k < _
            rw [m3, m4]; omega
        · intro k hk
          refine if_neg ?_
          rintro ⟨_, _, h3⟩
          have h3' : fpd * posTbl2 X s fpd o + k < fpd * (o + np + 5*pp) + 3 * e.nf := h3
          rw [m4] at h3'
          omega
        · intro i j _ _ hh
          exact M.flbuf (Ptr.ext_iff'.1 hh).1.symm
        · intro k _ hh
          exact M.ebuf (by rw [show empty = A.tbl + k from hh]; rfl)
        · intro k hk; exact k04.I _ (M.flw k hk)
        · intro k hk; exact hTn _ M.flbuf
        · exact hTn _ M.ebuf
        · intro k _ hh
          exact M.efl (by rw [show empty = fl + k from hh]; rfl)
        · intro i hi
          exact k04.D _ (slotD _ (by right; exact ⟨Nat.le_add_right _ _, hG i hi⟩))
        · intro i j hi hj hh
          have hi' : i < e.nf * s.nctr * X.nComp := hi
          have h2 : o0 + i = posG2 X s fpd o + j := (Ptr.ext_iff'.1 hh).2
          omega
        · refine ⟨?_, ?_, fun hb => Bool.noConfusion hb, fun _ _ _ => rfl⟩
          · show h4.I empty = .val 1
            rw [a4, hI3c]
            · exact M.flag
            · rintro (hq | hq)
              · exact M.ebuf (blk_buf hq)
              · exact M.eloc (blk_buf hq)
          · intro i hi
            have hi' : i < e.nf * s.nctr * X.nComp := hi
            exact k04.D _ (slotD _ (by left; show o0 + i < _; omega))
        · intro ip jp kp lp hip hjp hkp hlp
          exact hK ip jp kp lp _ _ T hip hjp hkp hlp (idxT_int2e e hTv)
      have hfin := (wp_iff_run _ _ _).2 (C09_loop_nopt S)
      refine wp_mono hfin ?_
      rintro res h5 ⟨⟨hret, hfl, hv, hz⟩, hd, hi⟩
      refine ⟨hfl, ?_, ?_, ?_, ?_, ?_⟩
      · intro hr m hm
        let N := s.si.nctr * s.sj.nctr * s.sk.nctr * s.sl.nctr
        let Rr := e.nf * N
        have hm' : m < e.nf * N * X.nComp := hm
        have hnfp : 0 < e.nf := by
          rcases Nat.eq_zero_or_pos e.nf with h0 | h0
          · rw [h0] at hm'; simp at hm'
          · exact h0
        have hN : 0 < N := Nat.mul_pos (Nat.mul_pos (Nat.mul_pos hic hjc) hkc) hlc
        have hR : 0 < Rr := Nat.mul_pos hnfp hN
        have b1 : m / Rr < X.nComp := (Nat.div_lt_iff_lt_mul hR).2 (by rw [Nat.mul_comm]; exact hm')
        have b2 : m % Rr < Rr := Nat.mod_lt _ hR
        have b3 : m % Rr / e.nf < s.sl.nctr * s.sk.nctr * s.sj.nctr * s.si.nctr := (Nat.div_lt_iff_lt_mul hnfp).2 (by
          calc m % Rr < Rr := b2
            _ = _ := by show e.nf * (s.si.nctr * s.sj.nctr * s.sk.nctr * s.sl.nctr) = _; ring)
        have b4 : m % Rr / e.nf / s.si.nctr < s.sl.nctr * s.sk.nctr * s.sj.nctr := (Nat.div_lt_iff_lt_mul hic).2 b3
        have b5 : m % Rr / e.nf / s.si.nctr / s.sj.nctr < s.sl.nctr * s.sk.nctr := (Nat.div_lt_iff_lt_mul hjc).2 b4
        have b6 : m % Rr / e.nf / s.si.nctr / s.sj.nctr / s.sk.nctr < s.sl.nctr := (Nat.div_lt_iff_lt_mul hkc).2 b5
        have c1 : m % Rr / e.nf % s.si.nctr < s.si.nctr := Nat.mod_lt _ hic
        have c2 : m % Rr / e.nf / s.si.nctr % s.sj.nctr < s.sj.nctr := Nat.mod_lt _ hjc
        have c3 : m % Rr / e.nf / s.si.nctr / s.sj.nctr % s.sk.nctr < s.sk.nctr := Nat.mod_lt _ hkc
        have c4 : m % Rr % e.nf < e.nf := Nat.mod_lt _ hnfp
        have b7 : m % Rr % e.nf = m % e.nf := Nat.mod_mod_of_dvd _ (Dvd.intro _ rfl)
        have := hv hr (m/Rr) _ _ _ _ (m % Rr % e.nf) b1 c1 c2 c3 b6 c4
        have hix : Spec.outIdx4 e.nf s.si.nctr s.sj.nctr s.sk.nctr s.sl.nctr (m/Rr) (m % Rr / e.nf % s.si.nctr)
            (m % Rr / e.nf / s.si.nctr % s.sj.nctr) (m % Rr / e.nf / s.si.nctr / s.sj.nctr % s.sk.nctr)
            (m % Rr / e.nf / s.si.nctr / s.sj.nctr / s.sk.nctr) (m % Rr % e.nf) = m := by
          unfold Spec.outIdx4
          have q1 := Nat.div_add_mod' (m % Rr / e.nf) s.si.nctr
          have q2 := Nat.div_add_mod' (m % Rr) e.nf
          have q3 := Nat.div_add_mod' m Rr
          have q4 := Nat.div_add_mod' (m % Rr / e.nf / s.si.nctr) s.sj.nctr
          have q5 := Nat.div_add_mod' (m % Rr / e.nf / s.si.nctr / s.sj.nctr) s.sk.nctr
          rw [q5, q4, q1, q2]
          exact q3
        have hix' : Spec.outIdx4 P.nf P.iCtr P.jCtr P.kCtr P.lCtr (m/Rr) (m % Rr / e.nf % s.si.nctr)
            (m % Rr / e.nf / s.si.nctr % s.sj.nctr) (m % Rr / e.nf / s.si.nctr / s.sj.nctr % s.sk.nctr)
            (m % Rr / e.nf / s.si.nctr / s.sj.nctr / s.sk.nctr) (m % Rr % e.nf) = m := hix
        rw [hix', b7, zero_add] at this
        exact this
      · intro hr comp ic jc kc lc n
        exact hz hr comp ic jc kc lc n
      · refine ADc.trans (AgreeD.trans (W1 := fun _ => False) (W := fun q => q.buf = buf) (AgreeD.of_eq d4 _) hd
          (fun _ x => x.elim) ?_) (fun _ => id) (fun _ => id)
        rintro q (hq | hq) <;> exact blk_buf hq
      · have AI4 : AgreeI h h4 (fun q => q.buf = buf ∨ q.buf = empty.buf ∨ q.buf = fl.buf ∨ q.buf = loc.buf) := by
          refine AgreeI.trans (W1 := fun _ => False) (AgreeI.of_eq hI3c _) a4 (fun _ x => x.elim) ?_
          rintro q (hq | hq)
          · exact Or.inl (blk_buf hq)
          · exact Or.inr (Or.inr (Or.inr (blk_buf hq)))
        refine AI4.trans hi (fun _ => id) ?_
        rintro q (hq | hq | hq)
        · exact Or.inr (Or.inl (by rw [hq]; rfl))
        · exact Or.inr (Or.inr (Or.inl (blk_buf hq)))
        · exact Or.inl (blk_buf hq)
      · have hne : ¬ PairEmpty L (s.pairArgs X) := fun hh => hem (e3.2 hh)
        constructor
        · intro hr
          rcases hret.1 hr with hb | hb
          · exact absurd hb (by simp)
          · exact ⟨hne, hb⟩
        · intro hh
          exact hret.2 (Or.inr hh.2)

end Verif.Lemmas
