import Verif.Lemmas.Kern3c1e
import Verif.Lemmas.Drv3c

/-! CINT3c1e_loop_nopt and CINT3c1e_nuc_loop_nopt on their part of the cache, and CINT3c1e_drv. -/
namespace Verif.Lemmas
open Verif Verif.Model Verif.Prog Verif.Props Verif.Spec

variable {α : Type}

section
/-- positions of the integer arrays and of `g`, in doubles, when the loop's cache starts at `o` -/
def posTbl1 (X : Int2e α) (s : Call3 α) (fpd o : Nat) : Nat := o + dblOf fpd ((s.env1 X).nf * 3)
def posG1 (X : Int2e α) (s : Call3 α) (fpd o : Nat) : Nat := posTbl1 X s fpd o + dblOf fpd s.tblLen1

theorem arrays3c1e_eq {X : Int2e α} {s : Call3 α} {fpd : Nat} (hf : 0 < fpd) (buf o : Nat) :
    arrays3c1e X s fpd buf (fpd*o) =
      { idx := ⟨buf, fpd * o⟩, tbl := ⟨buf, fpd * posTbl1 X s fpd o⟩, g := ⟨buf, posG1 X s fpd o⟩ } := by
  unfold arrays3c1e
  simp only [mallocI_eq hf, mallocI_eq' hf, alignUp_eq hf, Nat.mul_div_cancel_left _ hf]
  rfl

/-- the doubles of the cache used as FINTs by the loop functions -/
def intSlots1 (X : Int2e α) (s : Call3 α) (fpd o : Nat) (k : Nat) : Prop := o ≤ k ∧ k < posG1 X s fpd o
end

variable [Field α] [LinearOrder α]
variable {R : Rys α} {K : Consts α} {L : MathLib α} {op : Op3c1e α} {X : Int2e α} {s : Call3 α}
  {keep : Nat → Nat → Nat → Bool} {w : Nat → Nat → Nat → Nat → α}

/-- the numbers computed by the loops -/
def loopVal1 (R : Rys α) (K : Consts α) (L : MathLib α) (op : Op3c1e α) (X : Int2e α) (s : Call3 α)
    (keep : Nat → Nat → Nat → Bool) (w : Nat → Nat → Nat → Nat → α) (comp ic jc kc n : Nat) : α :=
  expected3 (s.triple1 X R K L op ⟨⟨0,0⟩,⟨0,0⟩,⟨0,0⟩⟩) keep w comp ic jc kc n

/-- some primitive triple contributes -/
def loopAny1 (s : Call3 α) (keep : Nat → Nat → Nat → Bool) : Prop :=
  ∃ ip jp kp, ip < s.si.nprim ∧ jp < s.sj.nprim ∧ kp < s.sk.nprim ∧ s.eijk ip jp kp ≤ 60 ∧ keep ip jp kp = true

theorem nf_env1 : (s.env1 X).nf = (s.env X).nf := by
  show lenCart s.si.l * lenCart s.sj.l * lenCart s.sk.l = lenCart s.si.l * lenCart s.sk.l * lenCart s.sj.l
  ring

theorem used_triple1 (A : Arrays3c1e) : (s.triple1 X R K L op A).used = Call3.used X s := by
  unfold Nest3.used Call3.used
  have e2 : (s.triple1 X R K L op A).lenk = (s.env X).nf * X.nComp * s.nctr := by
    rw [← nf_env1]
    show (s.env1 X).nf * s.nctr * X.nComp = _; ring
  have e3 : (s.triple1 X R K L op A).lenj = (s.env X).nf * X.nComp * (s.si.nctr*s.sj.nctr) := by
    rw [← nf_env1]
    show (s.env1 X).nf * s.si.nctr * s.sj.nctr * X.nComp = _; ring
  have e4 : (s.triple1 X R K L op A).leni = (s.env X).nf * X.nComp * s.si.nctr := by
    rw [← nf_env1]
    show (s.env1 X).nf * s.si.nctr * X.nComp = _; ring
  have e5 : (s.triple1 X R K L op A).len0 = (s.env X).nf * X.nComp := by
    rw [← nf_env1]
    rfl
  rw [e2, e3, e4, e5]
  rfl

/-- Memory of the loop functions; see `LoopMem2`. -/
structure LoopMem1 (X : Int2e α) (s : Call3 α) (h : Heap α) (fpd buf size o0 o : Nat) (empty fl loc : Ptr) : Prop where
  fpd_pos : 0 < fpd
  cache : CacheMem h fpd buf size (intSlots1 X s fpd o)
  room : posG1 X s fpd o + (s.leng1 X + Call3.used X s) ≤ size
  ctr : o0 + (s.env X).nf * s.nctr * X.nComp ≤ o
  flag : h.I empty = .val 1
  flw : ∀ k, k < 4 → h.I (fl + k) ≠ .oob
  locw : ∀ k, k < 12*136 → h.I (loc + k) ≠ .oob
  ebuf : empty.buf ≠ buf
  efl : empty.buf ≠ fl.buf
  eloc : empty.buf ≠ loc.buf
  flbuf : fl.buf ≠ buf
  locbuf : loc.buf ≠ buf

/-- The loop functions run within their part of the cache and compute the contracted integrals. -/
theorem loop3c1eRun_wp {h : Heap α} {fpd buf size o0 o : Nat} {empty fl loc : Ptr}
    (M : LoopMem1 X s h fpd buf size o0 o empty fl loc) (hK : EvalOK1 R K L op X s keep w)
    (hic : 1 ≤ s.si.nctr) (hjc : 1 ≤ s.sj.nctr) (hkc : 1 ≤ s.sk.nctr) (hnc : 1 ≤ X.nComp)
    (hli : s.si.l ≤ 15) (hlj : s.sj.l ≤ 15) (hlk : s.sk.l ≤ 15) :
    wp (loop3c1eRun X s R K L op fpd ⟨buf, o0⟩ empty buf (fpd*o) fl loc)
      (Post3 X s (loopVal1 R K L op X s keep w) (fun res => res = true ↔ loopAny1 s keep) buf o0 empty fl loc h) h := by
  have hf := M.fpd_pos
  let e := s.env1 X
  have hctr0 : o0 + (s.env X).nf * s.nctr * X.nComp ≤ o := M.ctr
  rw [← nf_env1] at hctr0
  have hctr : o0 + e.nf * s.nctr * X.nComp ≤ o := hctr0
  have hnfi : e.nfi = Spec.ncart e.i_l := rfl
  have hnfj : e.nfj = Spec.ncart e.j_l := rfl
  have hnfk : e.nfk = Spec.ncart e.k_l := rfl
  have hnfl : e.nfl = Spec.ncart e.l_l := ncart_zero.symm
  have hnf : e.nf = e.nfj * e.nfl * e.nfk * e.nfi := by
    show e.nfi * e.nfj * e.nfk = e.nfj * 1 * e.nfk * e.nfi; ring
  have dI : e.nf * 3 ≤ fpd * dblOf fpd (e.nf*3) := dblOf_mul hf _
  have dT : s.tblLen1 ≤ fpd * dblOf fpd s.tblLen1 := dblOf_mul hf _
  have hroom : o + dblOf fpd (e.nf*3) + dblOf fpd s.tblLen1 + (s.leng1 X + Call3.used X s) ≤ size := M.room
  have slotD : ∀ k, k < o ∨ (posG1 X s fpd o ≤ k ∧ k < size) → h.D ⟨buf, k⟩ ≠ .oob := by
    intro k hk
    refine M.cache.dbl k (by omega) ?_
    rintro ⟨h1, h2⟩
    omega
  have slotI : ∀ m, fpd * o ≤ m →
      m < fpd * (o + dblOf fpd (e.nf*3) + dblOf fpd s.tblLen1) → h.I ⟨buf, m⟩ ≠ .oob := by
    intro m h1 h2
    refine M.cache.int m (lt_of_lt_of_le h2 (Nat.mul_le_mul_left _ (by omega))) ⟨?_, ?_⟩
    · exact (Nat.le_div_iff_mul_le hf).2 (by rw [Nat.mul_comm]; exact h1)
    · exact (Nat.div_lt_iff_lt_mul hf).2 (by rw [Nat.mul_comm]; exact h2)
  have m3 : fpd * (o + dblOf fpd (e.nf*3) + dblOf fpd s.tblLen1) =
      fpd * o + fpd * dblOf fpd (e.nf*3) + fpd * dblOf fpd s.tblLen1 := by ring
  have m4 : fpd * posTbl1 X s fpd o = fpd * o + fpd * dblOf fpd (e.nf*3) := by
    show fpd * (o + dblOf fpd (e.nf*3)) = _
    ring
  unfold loop3c1eRun
  dsimp only
  rw [arrays3c1e_eq hf]
  dsimp only
  rw [wp_mbind]
  refine wp_mono (wp_allocMono (g2eIndex_wp (e := e) (idx := ⟨buf, fpd * o⟩) (loc := loc) hli hlj hlk
    (Nat.zero_le 15 : e.l_l ≤ 15) hnfi hnfj hnfk hnfl ⟨?_, fun k hk => M.locw k hk, ?_⟩)) ?_
  · intro k hk
    refine slotI _ (Nat.le_add_right _ _) ?_
    rw [m3]
    show fpd * o + k < _
    rw [← hnf] at hk
    omega
  · intro i j _ _ hh
    exact M.locbuf (Ptr.ext_iff'.1 hh).1
  · rintro _ h4 ⟨⟨v4, a4, d4⟩, k04⟩
    rw [← hnf] at v4 a4
    let A : Arrays3c1e := { idx := ⟨buf, fpd * o⟩, tbl := ⟨buf, fpd * posTbl1 X s fpd o⟩, g := ⟨buf, posG1 X s fpd o⟩ }
    let P := s.triple1 X R K L op A
    have hused : P.used = Call3.used X s := used_triple1 A
    have hGo : o ≤ posG1 X s fpd o := by
      show _ ≤ o + dblOf fpd (e.nf*3) + dblOf fpd s.tblLen1
      omega
    have NM : NestMem3 P h4 (tblF e.nfi (g2eVal e)) buf o0 (fpd * o) (fpd * posTbl1 X s fpd o)
        (posG1 X s fpd o) empty fl := by
      refine ⟨hic, hjc, hkc, hnc, ?_, fun k hk => v4 k hk, ?_, ?_, ?_, ?_, ?_, fun k hk => k04.I _ (M.flw k hk), M.ebuf,
        M.efl, M.flbuf⟩
      · rw [a4]
        · exact M.flag
        · rintro (hq | hq)
          · exact M.ebuf (blk_buf hq)
          · exact M.eloc (blk_buf hq)
      · intro k hk
        have hk' : k < s.tblLen1 := hk
        refine k04.I _ (slotI _ ?_ ?_)
        · rw [m4]; omega
        · rw [m3, m4]; omega
      · rw [m4]
        show fpd * o + 3 * e.nf ≤ _
        omega
      · intro i hi
        rw [hused] at hi
        have hi' : i < s.leng1 X + Call3.used X s := hi
        have := M.room
        exact k04.D _ (slotD _ (by right; exact ⟨Nat.le_add_right _ _, by omega⟩))
      · intro i hi
        have hi' : i < e.nf * s.nctr * X.nComp := hi
        exact k04.D _ (slotD _ (by left; omega))
      · show o0 + e.nf * s.nctr * X.nComp ≤ _
        omega
    have hfin := nest3_wp (keep := keep) (w := w) NM (fun T hT ip jp kp hip hjp hkp =>
      hK ip jp kp A T hip hjp hkp (idxT_int3c1e rfl rfl rfl hT))
    refine wp_mono hfin ?_
    rintro res h5 ⟨hfl, hv, hz, hd, hi, hret⟩
    refine ⟨hfl, fun hr => ?_, hz, ?_, ?_, ?_⟩
    · rw [← nf_env1]
      exact hv hr
    · exact AgreeD.trans (W1 := fun _ => False) (W := fun q => q.buf = buf) (AgreeD.of_eq d4 _) hd
        (fun _ x => x.elim) (fun _ => id)
    · have AI4 : AgreeI h h4 (fun q => q.buf = buf ∨ q.buf = empty.buf ∨ q.buf = fl.buf ∨ q.buf = loc.buf) := by
        refine a4.mono ?_
        rintro q (hq | hq)
        · exact Or.inl (blk_buf hq)
        · exact Or.inr (Or.inr (Or.inr (blk_buf hq)))
      refine AI4.trans hi (fun _ => id) ?_
      rintro q (hq | hq | hq)
      · exact Or.inl hq
      · exact Or.inr (Or.inl hq)
      · exact Or.inr (Or.inr (Or.inl hq))
    · dsimp only
      rw [hret]
      have hsk : ∀ ip jp kp, P.skip ip jp kp = false ↔ s.eijk ip jp kp ≤ 60 := by
        intro ip jp kp
        show decide (s.eijk ip jp kp > 60) = false ↔ _
        rw [decide_eq_false_iff_not, not_lt]
      constructor
      · rintro ⟨ip, jp, kp, x1, x2, x3, x4, x5⟩
        exact ⟨ip, jp, kp, x1, x2, x3, (hsk _ _ _).1 x4, x5⟩
      · rintro ⟨ip, jp, kp, x1, x2, x3, x4, x5⟩
        exact ⟨ip, jp, kp, x1, x2, x3, (hsk _ _ _).2 x4, x5⟩

theorem dblOf_half {fpd : Nat} (hf : 2 ≤ fpd) (n : Nat) : 2 * dblOf fpd n ≤ n + 1 := by
  unfold dblOf
  have h1 : (n + fpd - 1) / fpd ≤ (n + 1) / 2 := by
    rcases Nat.eq_zero_or_pos n with rfl | hn
    · rw [Nat.div_eq_of_lt (by omega)]
    · obtain ⟨q, rfl⟩ : ∃ q, fpd = q + 2 := ⟨fpd - 2, by omega⟩
      rw [Nat.div_le_iff_le_mul_add_pred (by omega)]
      have h2 : n ≤ 2 * ((n+1)/2) := by omega
      have h3 : q * 1 ≤ q * ((n+1)/2) := Nat.mul_le_mul_left _ (by omega)
      have h4 : (q+2) * ((n+1)/2) = q * ((n+1)/2) + 2 * ((n+1)/2) := by ring
      rw [h4]
      omega
  omega

/-- The reserved cache suffices when a double holds two FINTs.  With FINTs of 8 bytes it does only if the numbers of
primitives are small. -/
def CacheFits (X : Int2e α) (s : Call3 α) (fpd : Nat) : Prop :=
  2 ≤ fpd ∨ s.si.nprim + s.sj.nprim + s.sk.nprim ≤ (s.env X).nf * s.nctr * X.nComp

theorem used1_le_cacheSize (X : Int2e α) (s : Call3 α) {fpd : Nat} (hf : 0 < fpd) (hfit : CacheFits X s fpd)
    (hi : 1 ≤ s.si.nctr) (hj : 1 ≤ s.sj.nctr) (hk : 1 ≤ s.sk.nctr) :
    posG1 X s fpd ((s.env X).nf * s.si.nctr * s.sj.nctr * s.sk.nctr * X.nComp) +
      (s.leng1 X + Call3.used X s) ≤ cacheSize3c1e X s := by
  have d1 := dblOf_le hf ((s.env X).nf * 3)
  have d2 := dblOf_le hf s.tblLen1
  unfold posG1 posTbl1 cacheSize3c1e
  rw [nf_env1]
  refine le_trans ?_ (le_max_left _ _)
  let N := (s.env X).nf * X.nComp
  have a1 := aliasLen_le X.nComp (N * s.nctr)
  have a3 := aliasLen_le' hk (N * (s.si.nctr*s.sj.nctr))
  have a4 := aliasLen_le' hj (N * s.si.nctr)
  have a5 := aliasLen_le s.si.nctr N
  have e3 : N * (s.si.nctr*s.sj.nctr) * s.sk.nctr = N * s.nctr := by unfold Call3.nctr; ring
  have e4 : N * s.si.nctr * s.sj.nctr = N * (s.si.nctr*s.sj.nctr) := by ring
  rw [e3] at a3
  rw [e4] at a4
  have hu : Call3.used X s ≤ 2 * (N * s.nctr) + N := by
    show aliasLen X.nComp (N * s.nctr) + aliasLen s.sk.nctr (N * (s.si.nctr*s.sj.nctr)) + aliasLen s.sj.nctr (N * s.si.nctr) +
      aliasLen s.si.nctr N ≤ _
    omega
  have eN : N * s.nctr = (s.env X).nf * s.si.nctr * s.sj.nctr * s.sk.nctr * X.nComp := by
    show (s.env X).nf * X.nComp * (s.si.nctr * s.sj.nctr * s.sk.nctr) = _
    ring
  rw [eN] at hu
  have hN : N = (s.env X).nf * X.nComp := rfl
  have pi : s.si.nprim * 1 ≤ s.si.nprim * s.si.nctr := Nat.mul_le_mul_left _ hi
  have pj : s.sj.nprim * 1 ≤ s.sj.nprim * s.sj.nctr := Nat.mul_le_mul_left _ hj
  have pk : s.sk.nprim * 1 ≤ s.sk.nprim * s.sk.nctr := Nat.mul_le_mul_left _ hk
  have hT : s.tblLen1 = s.si.nprim + s.sj.nprim + s.sk.nprim + s.si.nprim * s.si.nctr +
    s.sj.nprim * s.sj.nctr + s.sk.nprim * s.sk.nctr := rfl
  have hnf : 0 < (s.env X).nf := by
    rw [nf_env3]
    exact Nat.mul_pos (Nat.mul_pos (Nat.mul_pos (ncart_pos _) (ncart_pos _)) (ncart_pos _)) (ncart_pos _)
  rcases hfit with h2 | h1
  · have t1 := dblOf_half h2 ((s.env X).nf * 3)
    have t2 := dblOf_half h2 s.tblLen1
    omega
  · have e6 : (s.env X).nf * s.nctr * X.nComp = (s.env X).nf * s.si.nctr * s.sj.nctr * s.sk.nctr * X.nComp := by
      unfold Call3.nctr; ring
    rw [e6] at h1
    omega

/-! ### the driver -/

theorem drv3c1e_eq {fpd buf c : Nat} {trans : (buf c : Nat) → Ptr → Prog α Ptr} {nfo : Nat → Nat} {out : Ptr}
    {dims : Option Ptr} {empty fl loc counts : Ptr} :
    drv3c1e X s R K L op fpd trans nfo out dims buf c empty fl loc counts =
      drv3c2eBy X s (fun gctr c' => loop3c1eRun X s R K L op fpd gctr empty buf c' fl loc) fpd trans nfo out dims buf c
        empty counts := by
  unfold drv3c1e drv3c2eBy
  rw [nf_env1]

theorem drv3c1e_loop {h : Heap α} {fpd buf size : Nat} {empty fl loc counts : Ptr}
    (M : CallMem3 h fpd buf size empty fl loc counts) (hfit : CacheFits X s fpd) (hsize : cacheSize3c1e X s ≤ size)
    (hp : ∀ t, t < 4 → 0 < Call3.nctrs s t) (hK : EvalOK1 R K L op X s keep w) (hnc : 1 ≤ X.nComp)
    (hl : ∀ t, t < 4 → Call3.ls s t ≤ 15) :
    wp (loop3c1eRun X s R K L op fpd ⟨buf, 0⟩ empty buf (fpd * ((s.env X).nf * s.nctr * X.nComp)) fl loc)
      (Post3 X s (loopVal1 R K L op X s keep w) (fun res => res = true ↔ loopAny1 s keep) buf 0 empty fl loc
        (h.setI empty 1)) (h.setI empty 1) := by
  have hf := M.fpd_pos
  have hic : 1 ≤ s.si.nctr := hp 0 (by omega)
  have hjc : 1 ≤ s.sj.nctr := hp 1 (by omega)
  have hkc : 1 ≤ s.sk.nctr := hp 2 (by omega)
  have hncE : (s.env X).nf * s.si.nctr * s.sj.nctr * s.sk.nctr = (s.env X).nf * s.nctr := by
    unfold Call3.nctr; ring
  have am0 := allocMono_setI (h := h) (q := empty) (x := 1)
  have LM : LoopMem1 X s (h.setI empty 1) fpd buf size 0 ((s.env X).nf * s.nctr * X.nComp) empty fl loc := by
    refine ⟨hf, ⟨fun k hk _ => M.dbl k hk, fun m hm _ => am0.I _ (M.int m hm)⟩, ?_, by omega, Heap.setI_I_self _ _ _,
      fun k hk => am0.I _ (M.flw k hk), fun k hk => am0.I _ (M.locw k hk), M.ebuf, M.efl, M.eloc, M.flbuf, M.locbuf⟩
    rw [← hncE]
    exact le_trans (used1_le_cacheSize X s hf hfit hic hjc hkc) hsize
  exact loop3c1eRun_wp LM hK hic hjc hkc hnc (hl 0 (by omega)) (hl 1 (by omega)) (hl 2 (by omega))

theorem drv3c1e_cart {h : Heap α} {fpd buf size : Nat} {empty fl loc counts out : Ptr} {dims : Option Ptr} {nd : Nat → Nat}
    (M : CallMem3 h fpd buf size empty fl loc counts) (hfit : CacheFits X s fpd) (hsize : cacheSize3c1e X s ≤ size)
    (hs : Sizes 3 (ncar (Call3.ls s)) (Call3.nctrs s) nd)
    (O : OutArg2 3 h nd (fun t => ncar (Call3.ls s) t * Call3.nctrs s t) X.nComp out dims buf empty fl loc counts)
    (hK : EvalOK1 R K L op X s keep w) (hnc : 1 ≤ X.nComp) (hl : ∀ t, t < 4 → Call3.ls s t ≤ 15) :
    ∃ has h', run (drv3c1e X s R K L op fpd (fun _ _ => pure) (ncar (Call3.ls s)) out dims buf 0 empty fl loc counts) h
        = some (has, h') ∧
      (∀ n ic jc kc i j k, n < X.nComp → ic < s.si.nctr → jc < s.sj.nctr → kc < s.sk.nctr →
        i < ncart s.si.l → j < ncart s.sj.l → k < ncart s.sk.l →
        h'.D (out + outAt nd n (ic*ncart s.si.l+i) (jc*ncart s.sj.l+j) (kc*ncart s.sk.l+k) 0) =
          .val (loopVal1 R K L op X s keep w n ic jc kc (pos4c (ncar (Call3.ls s)) i j k 0))) ∧
      (has = false → ∀ m, InBlock nd (fun t => ncar (Call3.ls s) t * Call3.nctrs s t) X.nComp m → h'.D (out + m) = .val 0) ∧
      Frame2 h h' nd (fun t => ncar (Call3.ls s) t * Call3.nctrs s t) X.nComp buf out empty fl loc counts ∧
      (has = true ↔ loopAny1 s keep) := by
  rw [drv3c1e_eq]
  exact drv3c2eBy_cart M (loop := fun gctr c' => loop3c1eRun X s R K L op fpd gctr empty buf c' fl loc)
    (drv3c1e_loop M hfit hsize hs.nctr_pos hK hnc hl) hs O

theorem drv3c1e_sph {h : Heap α} {fpd buf size : Nat} {empty fl loc counts out tab : Ptr} {dims : Option Ptr} {nd : Nat → Nat}
    (M : CallMem3 h fpd buf size empty fl loc counts) (hfit : CacheFits X s fpd) (hsize : cacheSize3c1e X s ≤ size)
    (hs : Sizes 3 (nsph (Call3.ls s)) (Call3.nctrs s) nd)
    (O : OutArg2 3 h nd (fun t => nsph (Call3.ls s) t * Call3.nctrs s t) X.nComp out dims buf empty fl loc counts)
    (hT : HoldsTab h tab) (htb : tab.buf ≠ buf) (hto : out.buf ≠ tab.buf)
    (hK : EvalOK1 R K L op X s keep w) (hnc : 1 ≤ X.nComp) (hl : ∀ t, t < 4 → Call3.ls s t ≤ 15) :
    ∃ has h', run (drv3c1e X s R K L op fpd (sphTrans3c tab fpd s.si.l s.sj.l s.sk.l) (nsph (Call3.ls s)) out dims
        buf 0 empty fl loc counts) h = some (has, h') ∧
      (∀ n ic jc kc i j k, n < X.nComp → ic < s.si.nctr → jc < s.sj.nctr → kc < s.sk.nctr →
        i < s.si.l*2+1 → j < s.sj.l*2+1 → k < s.sk.l*2+1 →
        h'.D (out + outAt nd n (ic*(s.si.l*2+1)+i) (jc*(s.sj.l*2+1)+j) (kc*(s.sk.l*2+1)+k) 0) =
          .val (sphOf3 s (loopVal1 R K L op X s keep w) n ic jc kc i j k)) ∧
      (has = false → ∀ m, InBlock nd (fun t => nsph (Call3.ls s) t * Call3.nctrs s t) X.nComp m → h'.D (out + m) = .val 0) ∧
      Frame2 h h' nd (fun t => nsph (Call3.ls s) t * Call3.nctrs s t) X.nComp buf out empty fl loc counts ∧
      (has = true ↔ loopAny1 s keep) := by
  have hfree : blkLen (Call3.ls s) * nctrOf (Call3.nctrs s) * X.nComp + blkLen (Call3.ls s) * 3 ≤ size := by
    refine le_trans ?_ hsize
    unfold cacheSize3c1e
    refine le_trans ?_ (le_max_right _ _)
    rw [nf_env1, ← nf_env3 (X := X), ← nctr_env3]
    have : (s.env X).nf * s.si.nctr * s.sj.nctr * s.sk.nctr = (s.env X).nf * s.nctr := by
      unfold Call3.nctr; ring
    rw [this]
  rw [drv3c1e_eq]
  exact drv3c2eBy_sph' M (loop := fun gctr c' => loop3c1eRun X s R K L op fpd gctr empty buf c' fl loc)
    (drv3c1e_loop M hfit hsize hs.nctr_pos hK hnc hl) hfree hs O hT htb hto hl

end Verif.Lemmas
