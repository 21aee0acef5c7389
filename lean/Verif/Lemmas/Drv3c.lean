import Verif.Model.Int3c2e
import Verif.Lemmas.Nest3Cache
import Verif.Lemmas.OutGen

/-! CINT3c2e_loop_nopt on its part of the cache, and CINT3c2e_drv. -/
namespace Verif.Lemmas
open Verif Verif.Model Verif.Prog Verif.Props Verif.Spec

variable {α : Type}

section
variable [Zero α] [LT α] [DecidableLT α]
/-- positions of the integer arrays and of `g`, in doubles, when the loop's cache starts at `o` -/
def posIdx3 (s : Call3 α) (o : Nat) : Nat := o + (s.si.nprim + s.sj.nprim) + 5 * (s.si.nprim * s.sj.nprim)
def posTbl3 (X : Int2e α) (s : Call3 α) (fpd o : Nat) : Nat := posIdx3 s o + dblOf fpd ((s.env X).nf * 3)
def posG3 (X : Int2e α) (s : Call3 α) (fpd o : Nat) : Nat := posTbl3 X s fpd o + dblOf fpd s.tblLen

theorem arrays3c2e_eq {X : Int2e α} {s : Call3 α} {fpd : Nat} (hf : 0 < fpd) (buf o : Nat) :
    arrays3c2e X s fpd buf (fpd*o) =
      { logMaxc := ⟨buf, o⟩, pdata := ⟨buf, o + (s.si.nprim + s.sj.nprim)⟩
        idx := ⟨buf, fpd * posIdx3 s o⟩, tbl := ⟨buf, fpd * posTbl3 X s fpd o⟩
        g := ⟨buf, posG3 X s fpd o⟩ } := by
  unfold arrays3c2e
  simp only [mallocD_eq hf, mallocI_eq hf, mallocI_eq' hf, alignUp_eq hf, Nat.mul_div_cancel_left _ hf]
  rfl

/-- the doubles of the cache used as FINTs by CINT3c2e_loop_nopt -/
def intSlots3 (X : Int2e α) (s : Call3 α) (fpd o : Nat) (k : Nat) : Prop :=
  posIdx3 s o ≤ k ∧ k < posG3 X s fpd o
end

/-- The third shell sits in the `l` slot of the recursion: the index table gives these positions. -/
theorem idxT_int3c2e {e : EnvG} (hs : e.g_stride_k = e.g_stride_l) {idx : Ptr} {N : Nat} {T : Ptr → Option Int}
    (hT : ∀ k, k < 3*N → T (idx + k) = some (tblF e.nfi (g2eVal e) k)) :
    IdxT T idx N (adr4 e (i4 e) (j4 e) (l4 e) (k4 e)) := by
  intro n c hn hc
  rw [hT _ (by omega)]
  unfold tblF adr4 slab4 g2eVal i4 j4 k4 l4
  rw [show (3*n+c)/3 = n by omega, show (3*n+c)%3 = c by omega, hs]
  congr 1
  push_cast
  ring

theorem ncart_zero : ncart 0 = 1 := by decide

theorem allocMono_setI {h : Heap α} {q : Ptr} {x : Int} : AllocMono h (h.setI q x) := by
  refine ⟨fun p hp => hp, fun p hp => ?_⟩
  by_cases he : p = q
  · subst he
    rw [show (h.setI p x).I p = .val x from Heap.setI_I_self _ _ _]
    intro y; cases y
  · rw [Heap.setI_I_ne _ _ he]; exact hp

variable [Field α] [LinearOrder α]

/-- the evaluator of integral `X` gives `w` for the primitives it keeps -/
def EvalOK3 (R : Rys2 α) (K : Consts α) (L : MathLib α) (X : Int2e α) (s : Call3 α)
    (keep : Nat → Nat → Nat → Bool) (w : Nat → Nat → Nat → Nat → α) : Prop :=
  ∀ ip jp kp (g idx : Ptr) (T : Ptr → Option Int), ip < s.si.nprim → jp < s.sj.nprim → kp < s.sk.nprim →
    IdxT T idx (s.env X).nf (adr4 (s.env X) (i4 (s.env X)) (j4 (s.env X)) (l4 (s.env X)) (k4 (s.env X))) →
    KernelSpec T (fun fac => g0_2e R K (s.env X) (s.g3r X L ip jp kp)
        (s.cutoff X L - pairVal L (s.pairArgs X) ip jp 4) g fac)
      (fun _ gout em => X.gout (s.env X) (s.g3 X L ip jp kp) idx g gout em) (Blk g (s.leng X))
      ((s.env X).nf * X.nComp) (keep ip jp kp) (w ip jp kp)

/-- the numbers computed by the loop -/
def loopVal3 (R : Rys2 α) (K : Consts α) (L : MathLib α) (X : Int2e α) (s : Call3 α)
    (keep : Nat → Nat → Nat → Bool) (w : Nat → Nat → Nat → Nat → α) (comp ic jc kc n : Nat) : α :=
  expected3 (s.triple X R K L ⟨⟨0,0⟩,⟨0,0⟩,⟨0,0⟩,⟨0,0⟩,⟨0,0⟩⟩) keep w comp ic jc kc n

/-- some primitive triple contributes -/
def loopAny3 (L : MathLib α) (X : Int2e α) (s : Call3 α) (keep : Nat → Nat → Nat → Bool) : Prop :=
  ¬ PairEmpty L (s.pairArgs X) ∧ ∃ ip jp kp, ip < s.si.nprim ∧ jp < s.sj.nprim ∧ kp < s.sk.nprim ∧
    pairVal L (s.pairArgs X) ip jp 4 ≤ s.cutoff X L ∧ keep ip jp kp = true

variable {R : Rys2 α} {K : Consts α} {L : MathLib α} {X : Int2e α} {s : Call3 α}
  {keep : Nat → Nat → Nat → Bool} {w : Nat → Nat → Nat → Nat → α}

theorem loopVal3_empty (hE : PairEmpty L (s.pairArgs X)) (comp ic jc kc n : Nat) :
    loopVal3 R K L X s keep w comp ic jc kc n = 0 := by
  unfold loopVal3 expected3 Spec.contract3
  rw [Finset.sum_eq_zero, mul_zero]
  intro kp _
  refine Finset.sum_eq_zero (fun jp hj => Finset.sum_eq_zero (fun ip hi => ?_))
  have : pairVal L (s.pairArgs X) ip jp 3 = 0 := by
    have := hE ip jp (Finset.mem_range.1 hi) (Finset.mem_range.1 hj)
    unfold pairVal; simp [this]
  unfold Call3.triple
  dsimp only
  rw [this]
  simp

/-- the part of `g` that is used: see `Nest3.used` -/
def Call3.used (X : Int2e α) (s : Call3 α) : Nat :=
  let N := (s.env X).nf * X.nComp
  aliasLen X.nComp (N * s.nctr) + aliasLen s.sk.nctr (N * (s.si.nctr*s.sj.nctr)) + aliasLen s.sj.nctr (N * s.si.nctr) +
    aliasLen s.si.nctr N

theorem used_triple (A : Arrays2e) : (s.triple X R K L A).used = Call3.used X s := by
  unfold Nest3.used Call3.used
  have e2 : (s.triple X R K L A).lenk = (s.env X).nf * X.nComp * s.nctr := by
    show (s.env X).nf * s.nctr * X.nComp = _; ring
  have e3 : (s.triple X R K L A).lenj = (s.env X).nf * X.nComp * (s.si.nctr*s.sj.nctr) := by
    show (s.env X).nf * s.si.nctr * s.sj.nctr * X.nComp = _; ring
  have e4 : (s.triple X R K L A).leni = (s.env X).nf * X.nComp * s.si.nctr := by
    show (s.env X).nf * s.si.nctr * X.nComp = _; ring
  rw [e2, e3, e4]
  rfl

/-- What a loop function does: `V` are the contracted integrals, `ret` holds of the return value. -/
def Post3 (X : Int2e α) (s : Call3 α) (V : Nat → Nat → Nat → Nat → Nat → α) (ret : Bool → Prop) (buf o0 : Nat)
    (empty fl loc : Ptr) (h : Heap α) (res : Bool) (h' : Heap α) : Prop :=
  h'.I empty = .val (if res then 0 else 1) ∧
  (res = true → HoldsD h' ⟨buf, o0⟩ ((s.env X).nf * s.nctr * X.nComp)
    (ctrVal (fun comp ic jc kc _ n => V comp ic jc kc n) (s.env X).nf s.si.nctr s.sj.nctr s.sk.nctr 1)) ∧
  (res = false → ∀ comp ic jc kc n, V comp ic jc kc n = 0) ∧
  AgreeD h h' (fun q => q.buf = buf) ∧
  AgreeI h h' (fun q => q.buf = buf ∨ q.buf = empty.buf ∨ q.buf = fl.buf ∨ q.buf = loc.buf) ∧
  ret res

/-- Memory of CINT3c2e_loop_nopt; see `LoopMem2`. -/
structure LoopMem3 (X : Int2e α) (s : Call3 α) (h : Heap α) (fpd buf size o0 o : Nat) (empty fl loc : Ptr) : Prop where
  fpd_pos : 0 < fpd
  cache : CacheMem h fpd buf size (intSlots3 X s fpd o)
  room : posG3 X s fpd o + (s.leng X + Call3.used X s) ≤ size
  ctr : o0 + (s.env X).nf * s.nctr * X.nComp ≤ o
  flag : h.I empty = .val 1
  flw : ∀ k, k < 4 → h.I (fl + k) ≠ .oob
  locw : ∀ k, k < 12*136 → h.I (loc + k) ≠ .oob
  ebuf : empty.buf ≠ buf
  efl : empty.buf ≠ fl.buf
  eloc : empty.buf ≠ loc.buf
  flbuf : fl.buf ≠ buf
  locbuf : loc.buf ≠ buf

/-- CINT3c2e_loop_nopt runs within its part of the cache and computes the contracted integrals. -/
theorem loop3c2eRun_wp {h : Heap α} {fpd buf size o0 o : Nat} {empty fl loc : Ptr}
    (M : LoopMem3 X s h fpd buf size o0 o empty fl loc) (hK : EvalOK3 R K L X s keep w)
    (hic : 1 ≤ s.si.nctr) (hjc : 1 ≤ s.sj.nctr) (hkc : 1 ≤ s.sk.nctr) (hnc : 1 ≤ X.nComp)
    (hli : s.si.l ≤ 15) (hlj : s.sj.l ≤ 15) (hlk : s.sk.l ≤ 15) :
    wp (loop3c2eRun X s R K L fpd ⟨buf, o0⟩ empty buf (fpd*o) fl loc)
      (Post3 X s (loopVal3 R K L X s keep w) (fun res => res = true ↔ loopAny3 L X s keep) buf o0 empty fl loc h) h := by
  have hf := M.fpd_pos
  let np := s.si.nprim + s.sj.nprim
  let pp := s.si.nprim * s.sj.nprim
  let e := s.env X
  have hctr : o0 + e.nf * s.nctr * X.nComp ≤ o := M.ctr
  have hnfi : e.nfi = Spec.ncart e.i_l := rfl
  have hnfj : e.nfj = Spec.ncart e.j_l := rfl
  have hnfk : e.nfk = Spec.ncart e.k_l := rfl
  have hnfl : e.nfl = Spec.ncart e.l_l := ncart_zero.symm
  have hnf : e.nf = e.nfj * e.nfl * e.nfk * e.nfi := by
    show e.nfi * e.nfk * e.nfj = e.nfj * 1 * e.nfk * e.nfi; ring
  have dI : e.nf * 3 ≤ fpd * dblOf fpd (e.nf*3) := dblOf_mul hf _
  have dT : s.tblLen ≤ fpd * dblOf fpd s.tblLen := dblOf_mul hf _
  have hroom : o + np + 5*pp + dblOf fpd (e.nf*3) + dblOf fpd s.tblLen + (s.leng X + Call3.used X s) ≤ size := M.room
  have slotD : ∀ k, k < o + np + 5*pp ∨ (posG3 X s fpd o ≤ k ∧ k < size) → h.D ⟨buf, k⟩ ≠ .oob := by
    intro k hk
    refine M.cache.dbl k (by omega) ?_
    rintro ⟨h1, h2⟩
    have h1' : o + np + 5*pp ≤ k := h1
    omega
  have slotI : ∀ m, fpd * (o + np + 5*pp) ≤ m →
      m < fpd * (o + np + 5*pp + dblOf fpd (e.nf*3) + dblOf fpd s.tblLen) → h.I ⟨buf, m⟩ ≠ .oob := by
    intro m h1 h2
    refine M.cache.int m (lt_of_lt_of_le h2 (Nat.mul_le_mul_left _ (by omega))) ⟨?_, ?_⟩
    · exact (Nat.le_div_iff_mul_le hf).2 (by rw [Nat.mul_comm]; exact h1)
    · exact (Nat.div_lt_iff_lt_mul hf).2 (by rw [Nat.mul_comm]; exact h2)
  have m3 : fpd * (o + np + 5*pp + dblOf fpd (e.nf*3) + dblOf fpd s.tblLen) =
      fpd * (o + np + 5*pp) + fpd * dblOf fpd (e.nf*3) + fpd * dblOf fpd s.tblLen := by ring
  have m4 : fpd * posTbl3 X s fpd o = fpd * (o + np + 5*pp) + fpd * dblOf fpd (e.nf*3) := by
    show fpd * (o + np + 5*pp + dblOf fpd (e.nf*3)) = _
    ring
  unfold loop3c2eRun
  dsimp only
  rw [arrays3c2e_eq hf]
  dsimp only
  rw [wp_mbind]
  refine wp_mono (wp_allocMono (fillLogMaxC_wp (p := ⟨buf, o⟩) (fun i hi => slotD (o+i) (by left; omega)))) ?_
  rintro _ h1 ⟨⟨a1, i1⟩, k1⟩
  rw [wp_mbind]
  refine wp_mono (wp_allocMono (fillLogMaxC_wp (p := (⟨buf, o⟩ : Ptr) + s.si.nprim) (fun i hi => ?_))) ?_
  · refine k1.D _ ?_
    rw [Ptr.add_assoc]
    exact slotD (o + (s.si.nprim + i)) (by left; omega)
  rintro _ h2 ⟨⟨a2, i2⟩, k2⟩
  have k02 := k1.trans k2
  rw [wp_mbind]
  refine wp_mono (wp_allocMono (setPairdata_wp (pd := ⟨buf, o + np⟩) (fun i hi => ?_))) ?_
  · have hi' : i < 5 * (s.sj.nprim * s.si.nprim) := hi
    rw [Nat.mul_comm s.sj.nprim] at hi'
    refine k02.D _ (slotD _ (by left; show o + np + i < _; omega))
  rintro em h3 ⟨⟨e3, v3, a3, i3⟩, k3⟩
  have k03 := k02.trans k3
  have AD : AgreeD h h3 (fun q => q.buf = buf) :=
    ((a1.mono (W := fun q => q.buf = buf) (fun q hq => blk_buf hq)).trans
      (a2.mono (W := fun q => q.buf = buf) (fun q hq => blk_buf hq)) (fun _ => id) (fun _ => id)).trans
      (a3.mono (W := fun q => q.buf = buf) (fun q hq => blk_buf hq)) (fun _ => id) (fun _ => id)
  have hI3 : h3.I = h.I := by rw [i3, i2, i1]
  by_cases hem : em = true
  · rw [if_pos hem, wp_pure]
    exact ⟨by rw [hI3]; exact M.flag, fun hh => Bool.noConfusion hh, fun _ => loopVal3_empty (e3.1 hem), AD, AgreeI.of_eq hI3 _,
      ⟨fun hh => Bool.noConfusion hh, fun hh => absurd (e3.1 hem) hh.1⟩⟩
  · rw [if_neg hem, wp_mbind]
    refine wp_mono (wp_allocMono (g2eIndex_wp (e := e) (idx := ⟨buf, fpd * posIdx3 s o⟩) (loc := loc) hli hlj hlk
      (Nat.zero_le 15 : e.l_l ≤ 15) hnfi hnfj hnfk hnfl ⟨?_, fun k hk => k03.I _ (M.locw k hk), ?_⟩)) ?_
    · intro k hk
      refine k03.I _ (slotI _ (Nat.le_add_right _ _) ?_)
      rw [m3]
      show fpd * (o + np + 5*pp) + k < _
      rw [← hnf] at hk
      omega
    · intro i j _ _ hh
      exact M.locbuf (Ptr.ext_iff'.1 hh).1
    · rintro _ h4 ⟨⟨v4, a4, d4⟩, k4'⟩
      have k04 := k03.trans k4'
      rw [← hnf] at v4 a4
      let A : Arrays2e := { logMaxc := ⟨buf, o⟩, pdata := ⟨buf, o + np⟩, idx := ⟨buf, fpd * posIdx3 s o⟩
                            tbl := ⟨buf, fpd * posTbl3 X s fpd o⟩, g := ⟨buf, posG3 X s fpd o⟩ }
      let P := s.triple X R K L A
      have hused : P.used = Call3.used X s := used_triple A
      have hGo : o + np + 5*pp ≤ posG3 X s fpd o := by
        show _ ≤ o + np + 5*pp + dblOf fpd (e.nf*3) + dblOf fpd s.tblLen
        omega
      have NM : NestMem3 P h4 (tblF e.nfi (g2eVal e)) buf o0 (fpd * posIdx3 s o) (fpd * posTbl3 X s fpd o)
          (posG3 X s fpd o) empty fl := by
        refine ⟨hic, hjc, hkc, hnc, ?_, fun k hk => v4 k hk, ?_, ?_, ?_, ?_, ?_, fun k hk => k04.I _ (M.flw k hk), M.ebuf,
          M.efl, M.flbuf⟩
        · rw [a4, hI3]
          · exact M.flag
          · rintro (hq | hq)
            · exact M.ebuf (blk_buf hq)
            · exact M.eloc (blk_buf hq)
        · intro k hk
          have hk' : k < s.tblLen := hk
          refine k04.I _ (slotI _ ?_ ?_)
          · rw [m4]; omega
          · rw [m3, m4]; omega
        · rw [m4]
          show fpd * (o + np + 5*pp) + 3 * e.nf ≤ _
          omega
        · intro i hi
          rw [hused] at hi
          have hi' : i < s.leng X + Call3.used X s := hi
          have := M.room
          exact k04.D _ (slotD _ (by right; exact ⟨Nat.le_add_right _ _, by omega⟩))
        · intro i hi
          have hi' : i < e.nf * s.nctr * X.nComp := hi
          exact k04.D _ (slotD _ (by left; omega))
        · show o0 + e.nf * s.nctr * X.nComp ≤ _
          omega
      have hfin := nest3_wp (keep := keep) (w := w) NM (fun T hT ip jp kp hip hjp hkp =>
        hK ip jp kp _ _ T hip hjp hkp (idxT_int3c2e rfl hT))
      refine wp_mono hfin ?_
      rintro res h5 ⟨hfl, hv, hz, hd, hi, hret⟩
      refine ⟨hfl, hv, hz, ?_, ?_, ?_⟩
      · exact AD.trans (AgreeD.trans (W1 := fun _ => False) (W := fun q => q.buf = buf) (AgreeD.of_eq d4 _) hd
          (fun _ x => x.elim) (fun _ => id)) (fun _ => id) (fun _ => id)
      · have AI4 : AgreeI h h4 (fun q => q.buf = buf ∨ q.buf = empty.buf ∨ q.buf = fl.buf ∨ q.buf = loc.buf) := by
          refine AgreeI.trans (W1 := fun _ => False) (AgreeI.of_eq hI3 _) a4 (fun _ x => x.elim) ?_
          rintro q (hq | hq)
          · exact Or.inl (blk_buf hq)
          · exact Or.inr (Or.inr (Or.inr (blk_buf hq)))
        refine AI4.trans hi (fun _ => id) ?_
        rintro q (hq | hq | hq)
        · exact Or.inl hq
        · exact Or.inr (Or.inl hq)
        · exact Or.inr (Or.inr (Or.inl hq))
      · have hne : ¬ PairEmpty L (s.pairArgs X) := fun hh => hem (e3.2 hh)
        dsimp only
        rw [hret]
        have hsk : ∀ ip jp kp, P.skip ip jp kp = false ↔ pairVal L (s.pairArgs X) ip jp 4 ≤ s.cutoff X L := by
          intro ip jp kp
          show decide (pairVal L (s.pairArgs X) ip jp 4 > s.cutoff X L) = false ↔ _
          rw [decide_eq_false_iff_not, not_lt]
        constructor
        · rintro ⟨ip, jp, kp, x1, x2, x3, x4, x5⟩
          exact ⟨hne, ip, jp, kp, x1, x2, x3, (hsk _ _ _).1 x4, x5⟩
        · rintro ⟨_, ip, jp, kp, x1, x2, x3, x4, x5⟩
          exact ⟨ip, jp, kp, x1, x2, x3, (hsk _ _ _).2 x4, x5⟩

theorem used3_le_cacheSize (X : Int2e α) (s : Call3 α) {fpd : Nat} (hf : 0 < fpd)
    (hj : 1 ≤ s.sj.nctr) (hk : 1 ≤ s.sk.nctr) :
    posG3 X s fpd ((s.env X).nf * s.si.nctr * s.sj.nctr * s.sk.nctr * X.nComp) +
      (s.leng X + Call3.used X s) ≤ cacheSize3c2e X s := by
  have d1 := dblOf_le hf ((s.env X).nf * 3)
  have d2 := dblOf_le hf s.tblLen
  unfold posG3 posTbl3 posIdx3 cacheSize3c2e
  refine le_trans ?_ (le_max_left _ _)
  let N := (s.env X).nf * X.nComp
  have a1 := aliasLen_le X.nComp (N * s.nctr)
  have a3 := aliasLen_le' hk (N * (s.si.nctr*s.sj.nctr))
  have a4 := aliasLen_le' hj (N * s.si.nctr)
  have a5 := aliasLen_le s.si.nctr N
  have e3 : N * (s.si.nctr*s.sj.nctr) * s.sk.nctr = N * s.nctr := by unfold Call3.nctr; ring
  have e4 : N * s.si.nctr * s.sj.nctr = N * (s.si.nctr*s.sj.nctr) := by ring
  rw [e3] at a3
  rw [e4] at a4
  have hu : Call3.used X s ≤ 2 * (N * s.nctr) + N := by
    show aliasLen X.nComp (N * s.nctr) + aliasLen s.sk.nctr (N * (s.si.nctr*s.sj.nctr)) + aliasLen s.sj.nctr (N * s.si.nctr) +
      aliasLen s.si.nctr N ≤ _
    omega
  have eN : N * s.nctr = (s.env X).nf * s.si.nctr * s.sj.nctr * s.sk.nctr * X.nComp := by
    show (s.env X).nf * X.nComp * (s.si.nctr * s.sj.nctr * s.sk.nctr) = _
    ring
  rw [eN] at hu
  have hN : N = (s.env X).nf * X.nComp := rfl
  have d2' : dblOf fpd s.tblLen ≤ s.si.nprim + s.sj.nprim + s.sk.nprim + s.si.nprim * s.si.nctr +
    s.sj.nprim * s.sj.nctr + s.sk.nprim * s.sk.nctr := d2
  omega

/-! ### the driver -/

/-- angular momenta and numbers of contractions of the shells (1 function for the absent fourth) -/
def Call3.ls (s : Call3 α) : Nat → Nat := four s.si.l s.sj.l s.sk.l 0
def Call3.nctrs (s : Call3 α) : Nat → Nat := four s.si.nctr s.sj.nctr s.sk.nctr 1

/-- Memory at a call: see `CallMem2` (`_empty` has four elements). -/
structure CallMem3 (h : Heap α) (fpd buf size : Nat) (empty fl loc counts : Ptr) : Prop where
  fpd_pos : 0 < fpd
  dbl : ∀ k, k < size → h.D ⟨buf, k⟩ ≠ .oob
  int : ∀ m, m < fpd * size → h.I ⟨buf, m⟩ ≠ .oob
  emw : h.I empty ≠ .oob
  flw : ∀ k, k < 4 → h.I (fl + k) ≠ .oob
  locw : ∀ k, k < 12*136 → h.I (loc + k) ≠ .oob
  countsw : ∀ t, t < 4 → h.I (counts + t) ≠ .oob
  ebuf : empty.buf ≠ buf
  efl : empty.buf ≠ fl.buf
  eloc : empty.buf ≠ loc.buf
  flbuf : fl.buf ≠ buf
  locbuf : loc.buf ≠ buf

/-- the values, in the form used by the output stage -/
def V3 (V : Nat → Nat → Nat → Nat → Nat → α) : Nat → Nat → Nat → Nat → Nat → Nat → α :=
  fun comp ic jc kc _ n => V comp ic jc kc n

theorem nf_env3 : (s.env X).nf = blkLen (Call3.ls s) := by
  show lenCart s.si.l * lenCart s.sk.l * lenCart s.sj.l = ncart s.si.l * ncart s.sj.l * ncart s.sk.l * ncart 0
  rw [ncart_zero]
  simp only [lenCart_eq]
  ring

theorem nctr_env3 : s.nctr = nctrOf (Call3.nctrs s) := by
  show s.si.nctr * s.sj.nctr * s.sk.nctr = s.si.nctr * s.sj.nctr * s.sk.nctr * 1
  ring

/-- CINT3c2e_loop_nopt as called by the driver -/
theorem drv3c2e_nopt {h : Heap α} {fpd buf size : Nat} {empty fl loc counts : Ptr}
    (M : CallMem3 h fpd buf size empty fl loc counts) (hsize : cacheSize3c2e X s ≤ size)
    (hp : ∀ t, t < 4 → 0 < Call3.nctrs s t) (hK : EvalOK3 R K L X s keep w) (hnc : 1 ≤ X.nComp)
    (hl : ∀ t, t < 4 → Call3.ls s t ≤ 15) :
    wp (loop3c2eRun X s R K L fpd ⟨buf, 0⟩ empty buf (fpd * ((s.env X).nf * s.nctr * X.nComp)) fl loc)
      (Post3 X s (loopVal3 R K L X s keep w) (fun res => res = true ↔ loopAny3 L X s keep) buf 0 empty fl loc
        (h.setI empty 1)) (h.setI empty 1) := by
  have hf := M.fpd_pos
  have hic : 1 ≤ s.si.nctr := hp 0 (by omega)
  have hjc : 1 ≤ s.sj.nctr := hp 1 (by omega)
  have hkc : 1 ≤ s.sk.nctr := hp 2 (by omega)
  have hncE : (s.env X).nf * s.si.nctr * s.sj.nctr * s.sk.nctr = (s.env X).nf * s.nctr := by
    unfold Call3.nctr; ring
  have am0 := allocMono_setI (h := h) (q := empty) (x := 1)
  have LM : LoopMem3 X s (h.setI empty 1) fpd buf size 0 ((s.env X).nf * s.nctr * X.nComp) empty fl loc := by
    refine ⟨hf, ⟨fun k hk _ => M.dbl k hk, fun m hm _ => am0.I _ (M.int m hm)⟩, ?_, by omega, Heap.setI_I_self _ _ _,
      fun k hk => am0.I _ (M.flw k hk), fun k hk => am0.I _ (M.locw k hk), M.ebuf, M.efl, M.eloc, M.flbuf, M.locbuf⟩
    rw [← hncE]
    exact le_trans (used3_le_cacheSize X s hf hjc hkc) hsize
  exact loop3c2eRun_wp LM hK hic hjc hkc hnc (hl 0 (by omega)) (hl 1 (by omega)) (hl 2 (by omega))

section
variable {V : Nat → Nat → Nat → Nat → Nat → α} {ret : Bool → Prop} {loop : Ptr → Nat → Prog α Bool}

/-- the part of the driver up to the output stage -/
theorem drv3c2eBy_loop {h : Heap α} {fpd buf size : Nat} {empty fl loc counts : Ptr}
    (M : CallMem3 h fpd buf size empty fl loc counts)
    (hL : wp (loop ⟨buf, 0⟩ (fpd * ((s.env X).nf * s.nctr * X.nComp)))
      (Post3 X s V ret buf 0 empty fl loc (h.setI empty 1)) (h.setI empty 1))
    (trans : (buf c : Nat) → Ptr → Prog α Ptr) (nfo : Nat → Nat) (out : Ptr) (dims : Option Ptr)
    (Q : Bool → Heap α → Prop)
    (hQ : ∀ has h1, Looped h h1 (V3 V) (Call3.ls s) (Call3.nctrs s) X.nComp buf empty fl loc has → ret has →
      wp (outStage 3 has X.nComp (blkLen (Call3.ls s) * nctrOf (Call3.nctrs s))
          (c2sFun 3 (shapeOf nfo (Call3.nctrs s) (blkLen (Call3.ls s)))
          (trans buf (fpd * (blkLen (Call3.ls s) * nctrOf (Call3.nctrs s) * X.nComp)))) out ⟨buf, 0⟩ dims counts
          (fun t => nfo t * Call3.nctrs s t))
        (fun _ h2 => Q has h2) h1) :
    wp (drv3c2eBy X s loop fpd trans nfo out dims buf 0 empty counts) Q h := by
  have hf := M.fpd_pos
  have hncE : (s.env X).nf * s.si.nctr * s.sj.nctr * s.sk.nctr = (s.env X).nf * s.nctr := by
    unfold Call3.nctr; ring
  unfold drv3c2eBy
  dsimp only
  rw [hncE]
  rw [show mallocD fpd buf 0 ((s.env X).nf * s.nctr * X.nComp) = (⟨buf, 0⟩, fpd * ((s.env X).nf * s.nctr * X.nComp)) from by
    have := mallocD_eq hf buf 0 ((s.env X).nf * s.nctr * X.nComp); rw [Nat.zero_add] at this; exact this]
  dsimp only
  rw [wp_mbind]
  refine (wp_stI _ _ _ _).2 ⟨M.emw, ?_⟩
  have hI0 : ∀ q, q ≠ empty → (h.setI empty 1).I q = h.I q := fun q hq => Heap.setI_I_ne _ _ hq
  have am0 := allocMono_setI (h := h) (q := empty) (x := 1)
  rw [wp_mbind]
  refine wp_mono (wp_allocMono hL) ?_
  rintro res h1 ⟨⟨hfl, hv, hz, hD, hI, hret⟩, hm⟩
  rw [wp_mbind]
  refine (wp_ldI _ _ _).2 ⟨_, hfl, ?_⟩
  have hres : decide ((if res then (0:Int) else 1) = 0) = res := by cases res <;> rfl
  rw [hres]
  have hIh : AgreeI h h1 (fun q => q.buf = buf ∨ q.buf = empty.buf ∨ q.buf = fl.buf ∨ q.buf = loc.buf) := by
    intro q hq
    rw [hI q hq, hI0 q (fun e => hq (by rw [e]; exact Or.inr (Or.inl rfl)))]
  have D : Looped h h1 (V3 V) (Call3.ls s) (Call3.nctrs s) X.nComp buf empty fl loc res := by
    refine ⟨fun hr => ?_, fun hr m => hz hr _ _ _ _ _, hD, hIh, am0.trans hm⟩
    have := hv hr
    rw [nf_env3, nctr_env3] at this
    exact this
  have := hQ res h1 D hret
  rw [nf_env3, nctr_env3, wp_mbind]
  refine wp_mono this ?_
  intro _ h2 hq
  rw [wp_pure]
  exact hq

/-- Cartesian output -/
theorem drv3c2eBy_cart {h : Heap α} {fpd buf size : Nat} {empty fl loc counts out : Ptr} {dims : Option Ptr} {nd : Nat → Nat}
    (M : CallMem3 h fpd buf size empty fl loc counts)
    (hL : wp (loop ⟨buf, 0⟩ (fpd * ((s.env X).nf * s.nctr * X.nComp)))
      (Post3 X s V ret buf 0 empty fl loc (h.setI empty 1)) (h.setI empty 1))
    (hs : Sizes 3 (ncar (Call3.ls s)) (Call3.nctrs s) nd)
    (O : OutArg2 3 h nd (fun t => ncar (Call3.ls s) t * Call3.nctrs s t) X.nComp out dims buf empty fl loc counts) :
    ∃ has h', run (drv3c2eBy X s loop fpd (fun _ _ => pure) (ncar (Call3.ls s)) out dims buf 0 empty counts) h
        = some (has, h') ∧
      (∀ n ic jc kc i j k, n < X.nComp → ic < s.si.nctr → jc < s.sj.nctr → kc < s.sk.nctr →
        i < ncart s.si.l → j < ncart s.sj.l → k < ncart s.sk.l →
        h'.D (out + outAt nd n (ic*ncart s.si.l+i) (jc*ncart s.sj.l+j) (kc*ncart s.sk.l+k) 0) =
          .val (V n ic jc kc (pos4c (ncar (Call3.ls s)) i j k 0))) ∧
      (has = false → ∀ m, InBlock nd (fun t => ncar (Call3.ls s) t * Call3.nctrs s t) X.nComp m → h'.D (out + m) = .val 0) ∧
      Frame2 h h' nd (fun t => ncar (Call3.ls s) t * Call3.nctrs s t) X.nComp buf out empty fl loc counts ∧
      ret has := by
  refine (wp_iff_run _ (fun has h' => _) _).1 ?_
  refine drv3c2eBy_loop M hL _ _ _ _ _ ?_
  intro has h1 D hret
  refine wp_mono (cartOut D hs O (fun _ _ x => absurd x (by omega)) M.countsw) ?_
  rintro _ h2 ⟨v, z, f⟩
  refine ⟨?_, z, f, hret⟩
  intro n ic jc kc i j k hn q1 q2 q3 p1 p2 p3
  have := v n ic jc kc 0 i j k 0 hn q1 q2 q3 Nat.one_pos p1 p2 p3 (ncart_pos _)
  rw [Nat.zero_mul] at this
  exact this

/-- the transformed integral -/
def sphOf3 (s : Call3 α) (V : Nat → Nat → Nat → Nat → Nat → α) (n ic jc kc i j k : Nat) : α :=
  ∑ a ∈ Finset.range (ncart s.si.l), ∑ b ∈ Finset.range (ncart s.sj.l), ∑ c ∈ Finset.range (ncart s.sk.l),
    c2sCoef s.si.l i a * c2sCoef s.sj.l j b * c2sCoef s.sk.l k c * V n ic jc kc (pos4c (ncar (Call3.ls s)) a b c 0)

theorem sphGen3 (V : Nat → Nat → Nat → Nat → Nat → Nat → α) {ls : Nat → Nat} (h3 : ls 3 = 0) (n ic jc kc i j k : Nat) :
    sphGen ls V n ic jc kc 0 i j k 0 = ∑ a ∈ Finset.range (ncart (ls 0)), ∑ b ∈ Finset.range (ncart (ls 1)),
      ∑ c ∈ Finset.range (ncart (ls 2)), c2sCoef (ls 0) i a * c2sCoef (ls 1) j b * c2sCoef (ls 2) k c *
        V n ic jc kc 0 (pos4c (ncar ls) a b c 0) := by
  unfold sphGen
  refine Finset.sum_congr rfl fun a _ => Finset.sum_congr rfl fun b _ => Finset.sum_congr rfl fun c _ => ?_
  rw [h3]
  have h1 : ncart 0 = 1 := ncart_zero
  have h2 : (c2sCoef 0 0 0 : α) = 1 := (coef_id (by omega) (by omega)).trans (if_pos rfl)
  rw [h1, Finset.sum_range_one, h2, mul_one]

/-- Spherical output, given the room for the transformation -/
theorem drv3c2eBy_sph' {h : Heap α} {fpd buf size : Nat} {empty fl loc counts out tab : Ptr} {dims : Option Ptr} {nd : Nat → Nat}
    (M : CallMem3 h fpd buf size empty fl loc counts)
    (hL : wp (loop ⟨buf, 0⟩ (fpd * ((s.env X).nf * s.nctr * X.nComp)))
      (Post3 X s V ret buf 0 empty fl loc (h.setI empty 1)) (h.setI empty 1))
    (hfree : blkLen (Call3.ls s) * nctrOf (Call3.nctrs s) * X.nComp + blkLen (Call3.ls s) * 3 ≤ size)
    (hs : Sizes 3 (nsph (Call3.ls s)) (Call3.nctrs s) nd)
    (O : OutArg2 3 h nd (fun t => nsph (Call3.ls s) t * Call3.nctrs s t) X.nComp out dims buf empty fl loc counts)
    (hT : HoldsTab h tab) (htb : tab.buf ≠ buf) (hto : out.buf ≠ tab.buf)
    (hl : ∀ t, t < 4 → Call3.ls s t ≤ 15) :
    ∃ has h', run (drv3c2eBy X s loop fpd (sphTrans3c tab fpd s.si.l s.sj.l s.sk.l) (nsph (Call3.ls s)) out dims
        buf 0 empty counts) h = some (has, h') ∧
      (∀ n ic jc kc i j k, n < X.nComp → ic < s.si.nctr → jc < s.sj.nctr → kc < s.sk.nctr →
        i < s.si.l*2+1 → j < s.sj.l*2+1 → k < s.sk.l*2+1 →
        h'.D (out + outAt nd n (ic*(s.si.l*2+1)+i) (jc*(s.sj.l*2+1)+j) (kc*(s.sk.l*2+1)+k) 0) =
          .val (sphOf3 s V n ic jc kc i j k)) ∧
      (has = false → ∀ m, InBlock nd (fun t => nsph (Call3.ls s) t * Call3.nctrs s t) X.nComp m → h'.D (out + m) = .val 0) ∧
      Frame2 h h' nd (fun t => nsph (Call3.ls s) t * Call3.nctrs s t) X.nComp buf out empty fl loc counts ∧
      ret has := by
  refine (wp_iff_run _ (fun has h' => _) _).1 ?_
  refine drv3c2eBy_loop M hL _ _ _ _ _ ?_
  intro has h1 D hret
  refine wp_mono (sphOut D hs O (fun _ _ x => absurd x (by omega)) M.countsw M.fpd_pos hl (fun t a b => ?_) hT htb hto
    (le_refl _) hfree M.dbl) ?_
  · obtain rfl : t = 3 := by omega
    rfl
  rintro _ h2 ⟨v, z, f⟩
  refine ⟨?_, z, f, hret⟩
  intro n ic jc kc i j k hn q1 q2 q3 p1 p2 p3
  have := v n ic jc kc 0 i j k 0 hn q1 q2 q3 Nat.one_pos p1 p2 p3 Nat.one_pos
  rw [Nat.zero_mul, sphGen3 (V3 V) (ls := Call3.ls s) rfl] at this
  exact this

/-- Spherical output -/
theorem drv3c2eBy_sph {h : Heap α} {fpd buf size : Nat} {empty fl loc counts out tab : Ptr} {dims : Option Ptr} {nd : Nat → Nat}
    (M : CallMem3 h fpd buf size empty fl loc counts)
    (hL : wp (loop ⟨buf, 0⟩ (fpd * ((s.env X).nf * s.nctr * X.nComp)))
      (Post3 X s V ret buf 0 empty fl loc (h.setI empty 1)) (h.setI empty 1)) (hsize : cacheSize3c2e X s ≤ size)
    (hs : Sizes 3 (nsph (Call3.ls s)) (Call3.nctrs s) nd)
    (O : OutArg2 3 h nd (fun t => nsph (Call3.ls s) t * Call3.nctrs s t) X.nComp out dims buf empty fl loc counts)
    (hT : HoldsTab h tab) (htb : tab.buf ≠ buf) (hto : out.buf ≠ tab.buf)
    (hl : ∀ t, t < 4 → Call3.ls s t ≤ 15) :
    ∃ has h', run (drv3c2eBy X s loop fpd (sphTrans3c tab fpd s.si.l s.sj.l s.sk.l) (nsph (Call3.ls s)) out dims
        buf 0 empty counts) h = some (has, h') ∧
      (∀ n ic jc kc i j k, n < X.nComp → ic < s.si.nctr → jc < s.sj.nctr → kc < s.sk.nctr →
        i < s.si.l*2+1 → j < s.sj.l*2+1 → k < s.sk.l*2+1 →
        h'.D (out + outAt nd n (ic*(s.si.l*2+1)+i) (jc*(s.sj.l*2+1)+j) (kc*(s.sk.l*2+1)+k) 0) =
          .val (sphOf3 s V n ic jc kc i j k)) ∧
      (has = false → ∀ m, InBlock nd (fun t => nsph (Call3.ls s) t * Call3.nctrs s t) X.nComp m → h'.D (out + m) = .val 0) ∧
      Frame2 h h' nd (fun t => nsph (Call3.ls s) t * Call3.nctrs s t) X.nComp buf out empty fl loc counts ∧
      ret has := by
  have hfree : blkLen (Call3.ls s) * nctrOf (Call3.nctrs s) * X.nComp + blkLen (Call3.ls s) * 3 ≤ size := by
    refine le_trans ?_ hsize
    unfold cacheSize3c2e
    refine le_trans ?_ (le_max_right _ _)
    rw [← nf_env3 (X := X), ← nctr_env3]
    have : (s.env X).nf * s.si.nctr * s.sj.nctr * s.sk.nctr = (s.env X).nf * s.nctr := by
      unfold Call3.nctr; ring
    rw [this]
  exact drv3c2eBy_sph' M hL hfree hs O hT htb hto hl

end

theorem drv3c2e_cart {h : Heap α} {fpd buf size : Nat} {empty fl loc counts out : Ptr} {dims : Option Ptr} {nd : Nat → Nat}
    (M : CallMem3 h fpd buf size empty fl loc counts) (hsize : cacheSize3c2e X s ≤ size)
    (hs : Sizes 3 (ncar (Call3.ls s)) (Call3.nctrs s) nd)
    (O : OutArg2 3 h nd (fun t => ncar (Call3.ls s) t * Call3.nctrs s t) X.nComp out dims buf empty fl loc counts)
    (hK : EvalOK3 R K L X s keep w) (hnc : 1 ≤ X.nComp) (hl : ∀ t, t < 4 → Call3.ls s t ≤ 15) :
    ∃ has h', run (drv3c2e X s R K L fpd (fun _ _ => pure) (ncar (Call3.ls s)) out dims buf 0 empty fl loc counts) h
        = some (has, h') ∧
      (∀ n ic jc kc i j k, n < X.nComp → ic < s.si.nctr → jc < s.sj.nctr → kc < s.sk.nctr →
        i < ncart s.si.l → j < ncart s.sj.l → k < ncart s.sk.l →
        h'.D (out + outAt nd n (ic*ncart s.si.l+i) (jc*ncart s.sj.l+j) (kc*ncart s.sk.l+k) 0) =
          .val (loopVal3 R K L X s keep w n ic jc kc (pos4c (ncar (Call3.ls s)) i j k 0))) ∧
      (has = false → ∀ m, InBlock nd (fun t => ncar (Call3.ls s) t * Call3.nctrs s t) X.nComp m → h'.D (out + m) = .val 0) ∧
      Frame2 h h' nd (fun t => ncar (Call3.ls s) t * Call3.nctrs s t) X.nComp buf out empty fl loc counts ∧
      (has = true ↔ loopAny3 L X s keep) :=
  drv3c2eBy_cart M (loop := fun gctr c' => loop3c2eRun X s R K L fpd gctr empty buf c' fl loc)
    (drv3c2e_nopt M hsize hs.nctr_pos hK hnc hl) hs O

/-- the transformed integral -/
def sphVal3 (R : Rys2 α) (K : Consts α) (L : MathLib α) (X : Int2e α) (s : Call3 α)
    (keep : Nat → Nat → Nat → Bool) (w : Nat → Nat → Nat → Nat → α) (n ic jc kc i j k : Nat) : α :=
  sphOf3 s (loopVal3 R K L X s keep w) n ic jc kc i j k

theorem drv3c2e_sph {h : Heap α} {fpd buf size : Nat} {empty fl loc counts out tab : Ptr} {dims : Option Ptr} {nd : Nat → Nat}
    (M : CallMem3 h fpd buf size empty fl loc counts) (hsize : cacheSize3c2e X s ≤ size)
    (hs : Sizes 3 (nsph (Call3.ls s)) (Call3.nctrs s) nd)
    (O : OutArg2 3 h nd (fun t => nsph (Call3.ls s) t * Call3.nctrs s t) X.nComp out dims buf empty fl loc counts)
    (hT : HoldsTab h tab) (htb : tab.buf ≠ buf) (hto : out.buf ≠ tab.buf)
    (hK : EvalOK3 R K L X s keep w) (hnc : 1 ≤ X.nComp) (hl : ∀ t, t < 4 → Call3.ls s t ≤ 15) :
    ∃ has h', run (drv3c2e X s R K L fpd (sphTrans3c tab fpd s.si.l s.sj.l s.sk.l) (nsph (Call3.ls s)) out dims
        buf 0 empty fl loc counts) h = some (has, h') ∧
      (∀ n ic jc kc i j k, n < X.nComp → ic < s.si.nctr → jc < s.sj.nctr → kc < s.sk.nctr →
        i < s.si.l*2+1 → j < s.sj.l*2+1 → k < s.sk.l*2+1 →
        h'.D (out + outAt nd n (ic*(s.si.l*2+1)+i) (jc*(s.sj.l*2+1)+j) (kc*(s.sk.l*2+1)+k) 0) =
          .val (sphVal3 R K L X s keep w n ic jc kc i j k)) ∧
      (has = false → ∀ m, InBlock nd (fun t => nsph (Call3.ls s) t * Call3.nctrs s t) X.nComp m → h'.D (out + m) = .val 0) ∧
      Frame2 h h' nd (fun t => nsph (Call3.ls s) t * Call3.nctrs s t) X.nComp buf out empty fl loc counts ∧
      (has = true ↔ loopAny3 L X s keep) :=
  drv3c2eBy_sph M (loop := fun gctr c' => loop3c2eRun X s R K L fpd gctr empty buf c' fl loc)
    (drv3c2e_nopt M hsize hs.nctr_pos hK hnc hl) hsize hs O hT htb hto hl

end Verif.Lemmas
