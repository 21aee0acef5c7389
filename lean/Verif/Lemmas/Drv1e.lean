import Verif.Model.Drv1e
import Verif.Lemmas.Loop2c
import Verif.Lemmas.Index
import Verif.Lemmas.PairData
import Verif.Lemmas.Ovlp
import Verif.Props.Loop1e

/-! CINT1e_loop on its part of the cache. -/
namespace Verif.Lemmas
open Verif Verif.Model Verif.Prog Verif.Props

/-- number of doubles that hold `n` FINTs -/
def dblOf (fpd n : Nat) : Nat := (n + fpd - 1)/fpd

theorem dblOf_mul {fpd : Nat} (hf : 0 < fpd) (n : Nat) : n ≤ fpd * dblOf fpd n := by
  have := Nat.div_add_mod (n + fpd - 1) fpd
  have := Nat.mod_lt (n + fpd - 1) hf
  unfold dblOf; omega

theorem dblOf_le {fpd : Nat} (hf : 0 < fpd) (n : Nat) : dblOf fpd n ≤ n := by
  unfold dblOf
  rcases Nat.eq_zero_or_pos n with rfl | hn
  · simp; omega
  · have : n + fpd - 1 ≤ n * fpd := by
      have h1 : (n-1) * 1 ≤ (n-1)*fpd := Nat.mul_le_mul_left _ hf
      have h2 : n * fpd = (n-1)*fpd + fpd := by
        conv_lhs => rw [show n = n - 1 + 1 by omega]
        ring
      omega
    exact Nat.div_le_of_le_mul (by rw [Nat.mul_comm fpd]; exact this)

theorem alignUp_eq {fpd : Nat} (hf : 0 < fpd) (o n : Nat) :
    alignUp fpd (fpd*o + n) = fpd*(o + dblOf fpd n) := by
  unfold alignUp dblOf
  rw [show fpd*o + n + fpd - 1 = fpd*o + (n + fpd - 1) by omega, Nat.mul_add_div hf]
  ring

theorem alignUp_mul {fpd : Nat} (hf : 0 < fpd) (o : Nat) : alignUp fpd (fpd*o) = fpd*o := by
  have := alignUp_eq hf o 0
  simp only [Nat.add_zero] at this
  rw [this]
  unfold dblOf
  rw [Nat.div_eq_of_lt (by omega)]; rfl

theorem mallocD_eq {fpd : Nat} (hf : 0 < fpd) (buf o n : Nat) :
    mallocD fpd buf (fpd*o) n = (⟨buf, o⟩, fpd*(o+n)) := by
  unfold mallocD
  rw [alignUp_mul hf, Nat.mul_div_cancel_left _ hf, Nat.mul_add]

theorem mallocD_eq' {fpd : Nat} (hf : 0 < fpd) (buf o m n : Nat) :
    mallocD fpd buf (fpd*o+m) n = (⟨buf, o + dblOf fpd m⟩, fpd*(o+dblOf fpd m+n)) := by
  unfold mallocD
  rw [alignUp_eq hf, Nat.mul_div_cancel_left _ hf, Nat.mul_add fpd (o + dblOf fpd m)]

theorem mallocI_eq {fpd : Nat} (hf : 0 < fpd) (buf o n : Nat) :
    mallocI fpd buf (fpd*o) n = (⟨buf, fpd*o⟩, fpd*o+n) := by
  unfold mallocI
  rw [alignUp_mul hf]

theorem mallocI_eq' {fpd : Nat} (hf : 0 < fpd) (buf o m n : Nat) :
    mallocI fpd buf (fpd*o+m) n = (⟨buf, fpd*(o+dblOf fpd m)⟩, fpd*(o+dblOf fpd m)+n) := by
  unfold mallocI
  rw [alignUp_eq hf]

variable {α : Type}

/-- positions of the integer arrays and of `g`, in doubles, when the loop's cache starts at `o` -/
def posIdx (s : Call α) (o : Nat) : Nat := o + (s.si.nprim + s.sj.nprim) + 5 * (s.si.nprim * s.sj.nprim)
def posTbl (X : Int1e α) (s : Call α) (fpd o : Nat) : Nat := posIdx s o + dblOf fpd ((s.env X).nf * 3)
def posG (X : Int1e α) (s : Call α) (fpd o : Nat) : Nat := posTbl X s fpd o + dblOf fpd s.tblLen

theorem arrays1e_eq {X : Int1e α} {s : Call α} {fpd : Nat} (hf : 0 < fpd) (buf o : Nat) :
    arrays1e X s fpd buf (fpd*o) =
      { logMaxc := ⟨buf, o⟩, pdata := ⟨buf, o + (s.si.nprim + s.sj.nprim)⟩
        idx := ⟨buf, fpd * posIdx s o⟩, tbl := ⟨buf, fpd * posTbl X s fpd o⟩
        g := ⟨buf, posG X s fpd o⟩ } := by
  unfold arrays1e
  simp only [mallocD_eq hf, mallocI_eq hf, mallocI_eq' hf, mallocD_eq' hf]
  rfl

/-- A cache of `size` doubles at the start of buffer `buf`: each double is either used as a double
or as `fpd` FINTs. -/
structure CacheMem (h : Heap α) (fpd buf size : Nat) (isI : Nat → Prop) : Prop where
  dbl : ∀ k, k < size → ¬ isI k → h.D ⟨buf, k⟩ ≠ .oob
  int : ∀ m, m < fpd * size → isI (m / fpd) → h.I ⟨buf, m⟩ ≠ .oob

theorem CacheMem.mono {h h' : Heap α} {fpd buf size : Nat} {isI : Nat → Prop}
    (H : CacheMem h fpd buf size isI) (M : AllocMono h h') : CacheMem h' fpd buf size isI :=
  ⟨fun k hk hi => M.D _ (H.dbl k hk hi), fun m hm hi => M.I _ (H.int m hm hi)⟩

/-- the doubles of the cache used as FINTs by CINT1e_loop -/
def intSlots (X : Int1e α) (s : Call α) (fpd o : Nat) (k : Nat) : Prop :=
  posIdx s o ≤ k ∧ k < posG X s fpd o

variable [Field α] [LinearOrder α]

theorem fillLogMaxC_wp {L : MathLib α} {p : Ptr} {t : PShell α} {h : Heap α} (ha : AllocD h p t.nprim) :
    wp (fillLogMaxC L p t) (fun _ h' => AgreeD h h' (Blk p t.nprim) ∧ h'.I = h.I) h := by
  unfold fillLogMaxC
  refine wp_forN (fun ip h' => AgreeD h h' (Blk p t.nprim) ∧ h'.I = h.I ∧ AllocMono h h')
    ⟨AgreeD.refl _ _, rfl, AllocMono.refl _⟩ ?_ (fun h' x => ⟨x.1, x.2.1⟩)
  rintro ip hip h1 ⟨a, b, m⟩
  refine wp_mono (wp_allocMono (p := st (p + ip) (logMaxC L t ip))
    (Q := fun _ h2 => AgreeD h1 h2 (Blk p t.nprim) ∧ h2.I = h1.I) ?_) ?_
  · rw [wp_st]
    refine ⟨m.D _ (ha ip hip), ?_, rfl⟩
    intro q hq
    show (h1.setD (p+ip) _).D q = _
    unfold Heap.setD
    exact if_neg (fun e => hq ⟨ip, hip, e⟩)
  · rintro _ h2 ⟨⟨x, y⟩, m2⟩
    exact ⟨a.trans x (fun _ => id) (fun _ => id), by rw [y, b], m.trans m2⟩

/-- the evaluator of integral `X` gives `w` for primitives `ip`, `jp` -/
def EvalOK (K : Consts α) (L : MathLib α) (X : Int1e α) (s : Call α) (w : Nat → Nat → Nat → α) : Prop :=
  ∀ ip jp (g idx : Ptr) (T : Ptr → Option Int), ip < s.si.nprim → jp < s.sj.nprim →
    IdxT T idx (s.env X).nf (adr2 (s.env X)) →
    KernelSpec T (fun _ => pure true)
      (fun fac gout em => makeGout (X.gout (s.env X) (s.g1 X L ip jp) idx g) g gout fac
        (X.g0s K (s.env X) (s.g1 X L ip jp)) em) (Blk g (s.leng X))
      ((s.env X).nf * X.nComp) true (w ip jp)

/-- make_g1e_gout adds up the contributions of all sets of intermediates -/
theorem makeGout_wp {T : Ptr → Option Int} {f : Ptr → Int → Prog α Unit} {g gout : Ptr} {fac : α} {N : Nat}
    {Gs : Ptr → Prop} (l : List (Ptr → α → Prog α Bool)) (ws : List (Nat → α))
    (hl : List.Forall₂ (fun g0 w => KernelSpec T (g0 g) (fun _ => f) Gs N true w) l ws) :
    ∀ (em : Int) (u : Nat → α) (h : Heap α), (l = [] → em = 0) → RO T h →
    (∀ q, Gs q → h.D q ≠ .oob) → AllocD h gout N → (∀ i, i < N → ¬ Gs (gout + i)) →
    (em = 0 → HoldsD h gout N u) →
    wp (makeGout f g gout fac l em) (fun _ h2 =>
        HoldsD h2 gout N (fun n => if em = 0 then u n + fac * (ws.map (fun w => w n)).sum
          else fac * (ws.map (fun w => w n)).sum) ∧
        AgreeD h h2 (fun q => Gs q ∨ Blk gout N q) ∧ h2.I = h.I) h := by
  induction hl with
  | nil =>
    intro em u h he hR hG hA hd hE
    unfold makeGout
    rw [wp_pure]
    refine ⟨fun i hi => ?_, AgreeD.refl _ _, rfl⟩
    rw [hE (he rfl) i hi]
    simp [he rfl]
  | @cons g0 w l ws h0 _ ih =>
    intro em u h he hR hG hA hd hE
    unfold makeGout
    rw [wp_mbind]
    refine wp_mono (wp_allocMono (h0 fac gout em u h hR hG hA hd hE)) ?_
    rintro r h1 ⟨⟨hr, hag1, hI1, hk⟩, hm1⟩
    rw [wp_mbind]
    refine wp_mono (wp_allocMono (hk hr)) ?_
    rintro _ h2 ⟨⟨hv, hag2, hI2⟩, hm2⟩
    refine wp_mono (ih 0 _ h2 (fun _ => rfl) ?_ ?_ ?_ hd (fun _ => hv)) ?_
    · intro q x hq; rw [hI2]; exact hR q x hq
    · exact fun q hq => hm2.D _ (hm1.D _ (hG q hq))
    · exact fun i hi => hm2.D _ (hm1.D _ (hA i hi))
    · rintro _ h3 ⟨hv3, hag3, hI3⟩
      refine ⟨fun i hi => ?_, hag2.trans hag3 (fun _ => id) (fun _ => id), by rw [hI3, hI2]⟩
      rw [hv3 i hi]
      simp only [List.map_cons, List.sum_cons, if_true]
      split
      · congr 1; ring
      · congr 1; ring

theorem evalOK_of_list {K : Consts α} {L : MathLib α} {X : Int1e α} {s : Call α}
    {ws : Nat → Nat → List (Nat → α)}
    (hne : ∀ ip jp, ip < s.si.nprim → jp < s.sj.nprim → X.g0s K (s.env X) (s.g1 X L ip jp) ≠ [])
    (hl : ∀ ip jp (g idx : Ptr) (T : Ptr → Option Int), ip < s.si.nprim → jp < s.sj.nprim →
      IdxT T idx (s.env X).nf (adr2 (s.env X)) →
      List.Forall₂ (fun g0 w => KernelSpec T (g0 g) (fun _ => X.gout (s.env X) (s.g1 X L ip jp) idx g)
        (Blk g (s.leng X)) ((s.env X).nf * X.nComp) true w) (X.g0s K (s.env X) (s.g1 X L ip jp)) (ws ip jp)) :
    EvalOK K L X s (fun ip jp n => ((ws ip jp).map (fun w => w n)).sum) := by
  intro ip jp g idx T hip hjp hT fac gout em u h hR hG hA hd hE
  rw [wp_pure]
  refine ⟨rfl, AgreeD.refl _ _, rfl, fun _ => ?_⟩
  exact makeGout_wp _ _ (hl ip jp g idx T hip hjp hT) em u h (fun e => absurd e (hne ip jp hip hjp)) hR hG hA hd hE

theorem idxT_int1e (X : Int1e α) (s : Call α) {idx : Ptr} {F : Nat → Int} {T : Ptr → Option Int}
    (hF : F = tblF (s.env X).nfi fun m i c => (c * (s.env X).g_size : Int) +
      (s.env X).g_stride_j * Spec.pw (s.env X).j_l c m + (s.env X).g_stride_i * Spec.pw (s.env X).i_l c i)
    (hT : ∀ k, k < 3*(s.env X).nf → T (idx + k) = some (F k)) :
    IdxT T idx (s.env X).nf (adr2 (s.env X)) := by
  intro n c hn hc
  rw [hT _ (by omega), hF]
  unfold tblF adr2 slab2
  rw [show (3*n+c)/3 = n by omega, show (3*n+c)%3 = c by omega]
  congr 1
  push_cast
  ring

/-- the numbers computed by the loop -/
def loopVal (K : Consts α) (L : MathLib α) (X : Int1e α) (s : Call α) (w : Nat → Nat → Nat → α)
    (comp ic jc n : Nat) : α :=
  (X.common * commonFacSp s.si.l * commonFacSp s.sj.l) *
    Spec.contract2 s.si.nprim s.sj.nprim s.si.c s.sj.c
      (fun ip jp => pairVal L (s.pairArgs X) ip jp 3 * w ip jp (n * X.nComp + comp)) ic jc

theorem expected2_nest {K : Consts α} {L : MathLib α} {X : Int1e α} {s : Call α} {A : Arrays1e}
    {w : Nat → Nat → Nat → α} {comp ic jc n : Nat} :
    expected2 (s.nest X K L A) X.nComp (fun _ _ => true) w comp ic jc n = loopVal K L X s w comp ic jc n := by
  unfold expected2 loopVal Call.nest
  dsimp only
  congr 2
  funext ip jp
  by_cases hc : pairVal L (s.pairArgs X) ip jp 4 > setijCutoff s.envCut
  · have h3 : pairVal L (s.pairArgs X) ip jp 3 = 0 := by
      have : ¬ pairCC L (s.pairArgs X) ip jp < (s.pairArgs X).cutoff := by
        have h1 : pairVal L (s.pairArgs X) ip jp 4 = pairCC L (s.pairArgs X) ip jp := by
          unfold pairVal; simp
        rw [h1] at hc
        exact not_lt.2 (le_of_lt hc)
      unfold pairVal; simp [this]
    rw [if_neg (by simp [hc]), h3, zero_mul]
  · rw [if_pos ⟨by simpa using hc, rfl⟩]

theorem loopVal_empty {K : Consts α} {L : MathLib α} {X : Int1e α} {s : Call α}
    {w : Nat → Nat → Nat → α} (hE : PairEmpty L (s.pairArgs X)) (comp ic jc n : Nat) :
    loopVal K L X s w comp ic jc n = 0 := by
  unfold loopVal Spec.contract2
  rw [Finset.sum_eq_zero, mul_zero]
  intro jp hj
  refine Finset.sum_eq_zero (fun ip hi => ?_)
  have : pairVal L (s.pairArgs X) ip jp 3 = 0 := by
    have := hE ip jp (Finset.mem_range.1 hi) (Finset.mem_range.1 hj)
    unfold pairVal; simp [this]
  simp [this]

/-- some primitive pair contributes -/
def loopAny (L : MathLib α) (X : Int1e α) (s : Call α) : Prop :=
  ¬ PairEmpty L (s.pairArgs X) ∧ ∃ ip jp, ip < s.si.nprim ∧ jp < s.sj.nprim ∧
    ¬ pairVal L (s.pairArgs X) ip jp 4 > setijCutoff s.envCut

/-- Memory of CINT1e_loop: the cache is buffer `buf`; `gctr` sits at double `o0`, the loop's own
arrays start at double `o`; `fl` and `loc` are local arrays (not in the cache). -/
structure LoopMem (X : Int1e α) (s : Call α) (h : Heap α) (fpd buf size o0 o : Nat) (fl loc : Ptr) : Prop where
  fpd_pos : 0 < fpd
  cache : CacheMem h fpd buf size (intSlots X s fpd o)
  room : posG X s fpd o + s.len X ≤ size
  ctr : o0 + (s.env X).nf * (s.si.nctr * s.sj.nctr) * X.nComp ≤ o
  flw : ∀ k, k < 4 → h.I (fl + k) ≠ .oob
  locw : ∀ k, k < 12*136 → h.I (loc + k) ≠ .oob
  flbuf : fl.buf ≠ buf
  locbuf : loc.buf ≠ buf

theorem ptr_add_mk (b o k : Nat) : (⟨b, o⟩ : Ptr) + k = ⟨b, o+k⟩ := rfl

theorem blk_buf {p q : Ptr} {n : Nat} (h : Blk p n q) : q.buf = p.buf := by
  obtain ⟨i, _, rfl⟩ := h; rfl

/-- CINT1e_loop runs within its part of the cache and computes the contracted integrals. -/
theorem loop1eRun_wp {K : Consts α} {L : MathLib α} {X : Int1e α} {s : Call α} {w : Nat → Nat → Nat → α}
    {h : Heap α} {fpd buf size o0 o : Nat} {fl loc : Ptr}
    (M : LoopMem X s h fpd buf size o0 o fl loc) (hK : EvalOK K L X s w)
    (hic : 1 ≤ s.si.nctr) (hjc : 1 ≤ s.sj.nctr) (hnc : 1 ≤ X.nComp)
    (hli : s.si.l ≤ 15) (hlj : s.sj.l ≤ 15) :
    wp (loop1eRun X s K L fpd ⟨buf, o0⟩ buf (fpd*o) fl loc) (fun res h' =>
      (res = true → HoldsD h' ⟨buf, o0⟩ ((s.env X).nf * (s.si.nctr * s.sj.nctr) * X.nComp)
        (fun m => loopVal K L X s w (m / ((s.env X).nf * (s.si.nctr * s.sj.nctr)))
          (m % ((s.env X).nf * (s.si.nctr * s.sj.nctr)) / (s.env X).nf % s.si.nctr)
          (m % ((s.env X).nf * (s.si.nctr * s.sj.nctr)) / (s.env X).nf / s.si.nctr)
          (m % (s.env X).nf))) ∧
      (res = false → ∀ comp ic jc n, loopVal K L X s w comp ic jc n = 0) ∧
      PairBlk h' (arrays1e X s fpd buf (fpd*o)).pdata s.si.nprim s.sj.nprim
        (pairVal L (s.pairArgs X)) ∧
      AgreeD h h' (fun q => q.buf = buf) ∧
      AgreeI h h' (fun q => q.buf = buf ∨ q.buf = fl.buf ∨ q.buf = loc.buf) ∧
      (res = true ↔ loopAny L X s)) h := by
  have hf := M.fpd_pos
  let np := s.si.nprim + s.sj.nprim
  let pp := s.si.nprim * s.sj.nprim
  let e := s.env X
  have hnp : s.si.nprim + s.sj.nprim = np := rfl
  have hctr : o0 + e.nf * (s.si.nctr * s.sj.nctr) * X.nComp ≤ o := M.ctr
  have hnfi : e.nfi = Spec.ncart e.i_l := rfl
  have hnfj : e.nfj = Spec.ncart e.j_l := rfl
  have hnf : e.nf = e.nfj * e.nfi := Nat.mul_comm _ _
  have dI : e.nf * 3 ≤ fpd * dblOf fpd (e.nf*3) := dblOf_mul hf _
  have dT : s.tblLen ≤ fpd * dblOf fpd s.tblLen := dblOf_mul hf _
  have hroom : o + np + 5*pp + dblOf fpd (e.nf*3) + dblOf fpd s.tblLen + s.len X ≤ size := M.room
  -- access to the cache
  have slotD : ∀ k, k < o + np + 5*pp ∨ (posG X s fpd o ≤ k ∧ k < size) → h.D ⟨buf, k⟩ ≠ .oob := by
    intro k hk
    refine M.cache.dbl k (by omega) ?_
    rintro ⟨h1, h2⟩
    have h1' : o + np + 5*pp ≤ k := h1
    omega
  have slotI : ∀ m, fpd * (o + np + 5*pp) ≤ m →
      m < fpd * (o + np + 5*pp + dblOf fpd (e.nf*3) + dblOf fpd s.tblLen) → h.I ⟨buf, m⟩ ≠ .oob := by
    intro m h1 h2
    refine M.cache.int m (lt_of_lt_of_le h2 (Nat.mul_le_mul_left _ (by omega))) ⟨?_, ?_⟩
    · exact (Nat.le_div_iff_mul_le hf).2 (by rw [Nat.mul_comm]; exact h1)
    · exact (Nat.div_lt_iff_lt_mul hf).2 (by rw [Nat.mul_comm]; exact h2)
  have m3 : fpd * (o + np + 5*pp + dblOf fpd (e.nf*3) + dblOf fpd s.tblLen) =
      fpd * (o + np + 5*pp) + fpd * dblOf fpd (e.nf*3) + fpd * dblOf fpd s.tblLen := by ring
  have m4 : fpd * posTbl X s fpd o = fpd * (o + np + 5*pp) + fpd * dblOf fpd (e.nf*3) := by
    show fpd * (o + np + 5*pp + dblOf fpd (e.nf*3)) = _
    ring
  unfold loop1eRun
  dsimp only
  rw [arrays1e_eq hf]
  dsimp only
  rw [wp_mbind]
  refine wp_mono (wp_allocMono (fillLogMaxC_wp (p := ⟨buf, o⟩) (fun i hi => slotD (o+i) (by left; omega)))) ?_
  rintro _ h1 ⟨⟨a1, i1⟩, k1⟩
  rw [wp_mbind]
  refine wp_mono (wp_allocMono (fillLogMaxC_wp (p := (⟨buf, o⟩ : Ptr) + s.si.nprim) (fun i hi => ?_))) ?_
  · refine k1.D _ ?_
    rw [Ptr.add_assoc]
    exact slotD (o + (s.si.nprim + i)) (by left; omega)
  rintro _ h2 ⟨⟨a2, i2⟩, k2⟩
  have k02 := k1.trans k2
  rw [wp_mbind]
  refine wp_mono (wp_allocMono (setPairdata_wp (pd := ⟨buf, o + np⟩) (fun i hi => ?_))) ?_
  · have hi' : i < 5 * (s.sj.nprim * s.si.nprim) := hi
    rw [Nat.mul_comm s.sj.nprim] at hi'
    refine k02.D _ (slotD _ (by left; show o + np + i < _; omega))
  rintro em h3 ⟨⟨e3, v3, a3, i3⟩, k3⟩
  have k03 := k02.trans k3
  have AD : AgreeD h h3 (fun q => q.buf = buf) :=
    ((a1.mono (W := fun q => q.buf = buf) (fun q hq => blk_buf hq)).trans
      (a2.mono (W := fun q => q.buf = buf) (fun q hq => blk_buf hq)) (fun _ => id) (fun _ => id)).trans
      (a3.mono (W := fun q => q.buf = buf) (fun q hq => blk_buf hq)) (fun _ => id) (fun _ => id)
  have hI3 : h3.I = h.I := by rw [i3, i2, i1]
  by_cases hem : em = true
  · rw [if_pos hem, wp_pure]
    exact ⟨fun hh => Bool.noConfusion hh, fun _ => loopVal_empty (e3.1 hem), v3, AD, AgreeI.of_eq hI3 _,
      ⟨fun x => Bool.noConfusion x, fun x => absurd (e3.1 hem) x.1⟩⟩
  · rw [if_neg hem, wp_mbind]
    refine wp_mono (wp_allocMono (g1eIndex_wp (e := e) (idx := ⟨buf, fpd * posIdx s o⟩) (loc := loc) hli hlj hnfi hnfj
      ⟨?_, fun k hk => k03.I _ (M.locw k hk), ?_⟩)) ?_
    · intro k hk
      refine k03.I _ (slotI _ (Nat.le_add_right _ _) ?_)
      rw [m3]
      show fpd * (o + np + 5*pp) + k < _
      rw [← hnf] at hk
      omega
    · intro i j _ _ hh
      exact M.locbuf (Ptr.ext_iff'.1 hh).1
    · rintro _ h4 ⟨⟨v4, a4, d4⟩, k4⟩
      have k04 := k03.trans k4
      rw [← hnf] at v4 a4
      let F := tblF e.nfi fun m i c => (c * e.g_size : Int) + e.g_stride_j * Spec.pw e.j_l c m +
        e.g_stride_i * Spec.pw e.i_l c i
      let idx : Ptr := ⟨buf, fpd * posIdx s o⟩
      let T : Ptr → Option Int := fun q => if q.buf = buf ∧ fpd * posIdx s o ≤ q.off ∧ q.off < fpd * posIdx s o + 3 * e.nf then
        some (F (q.off - fpd * posIdx s o)) else none
      have hTv : ∀ k, k < 3 * e.nf → T (idx + k) = some (F k) := by
        intro k hk
        show (if buf = buf ∧ fpd * posIdx s o ≤ fpd * posIdx s o + k ∧ fpd * posIdx s o + k < fpd * posIdx s o + 3 * e.nf then
          some (F (fpd * posIdx s o + k - fpd * posIdx s o)) else none) = _
        rw [if_pos ⟨rfl, by omega, by omega⟩, Nat.add_sub_cancel_left]
      let A : Arrays1e := { logMaxc := ⟨buf, o⟩, pdata := ⟨buf, o + np⟩, idx := idx
                            tbl := ⟨buf, fpd * posTbl X s fpd o⟩, g := ⟨buf, posG X s fpd o⟩ }
      let P := s.nest X K L A
      have htl : P.tblSize = s.tblLen := rfl
      have hused : s.leng X + P.used X.nComp ≤ s.len X := by
        have hal : ∀ c n, aliasLen c n ≤ n := by intro c n; unfold aliasLen; split <;> omega
        have h1 := hal X.nComp P.lenj
        have h2 := hal P.jCtr P.leni
        have h3 := hal P.iCtr P.len0
        have e1 : P.lenj = e.nf * (s.si.nctr * s.sj.nctr) * X.nComp := by
          show e.nf * X.nComp * s.si.nctr * s.sj.nctr = _; ring
        have e2 : P.leni = e.nf * s.si.nctr * X.nComp := by
          show e.nf * X.nComp * s.si.nctr = _; ring
        have e3 : P.len0 = e.nf * X.nComp := rfl
        show s.leng X + (aliasLen X.nComp P.lenj + aliasLen P.jCtr P.leni + aliasLen P.iCtr P.len0) ≤
          s.leng X + e.nf * (s.si.nctr * s.sj.nctr) * X.nComp + e.nf * s.si.nctr * X.nComp + e.nf * X.nComp
        omega
      have hG : ∀ i, i < s.leng X + P.used X.nComp → posG X s fpd o + i < size := by
        intro i hi
        have := M.room
        omega
      have hGo : o + np + 5*pp ≤ posG X s fpd o := by
        show _ ≤ o + np + 5*pp + dblOf fpd (e.nf*3) + dblOf fpd s.tblLen
        omega
      have S : Setup1e P ⟨buf, o0⟩ A.g fl A.tbl e.nf X.nComp (s.leng X) T (fun _ _ => true) w h4 := by
        refine ⟨hic, hjc, hnc, rfl, ?_, ?_, ?_, ?_, ?_, ?_, ?_, ?_, ?_, ?_⟩
        · intro q x hq
          by_cases hc : q.buf = buf ∧ fpd * posIdx s o ≤ q.off ∧ q.off < fpd * posIdx s o + 3 * e.nf
          · have hq2 : T q = some (F (q.off - fpd * posIdx s o)) := if_pos hc
            rw [hq2] at hq
            obtain rfl : F (q.off - fpd * posIdx s o) = x := by simpa using hq
            have := v4 (q.off - fpd * posIdx s o) (by omega)
            rw [show (⟨buf, fpd * posIdx s o⟩ : Ptr) + (q.off - fpd * posIdx s o) = q from
              Ptr.ext_iff'.2 ⟨hc.1.symm, by show fpd * posIdx s o + _ = _; omega⟩] at this
            exact this
          · have hq2 : T q = none := if_neg hc
            rw [hq2] at hq; cases hq
        · intro k hk
          rw [htl] at hk
          refine k04.I _ (slotI _ ?_ ?_)
          · show _ ≤ fpd * posTbl X s fpd o + k
            rw [m4]; omega
          · show fpd * posTbl X s fpd o + k < _
            rw [m3, m4]; omega
        · intro k hk
          refine if_neg ?_
          rintro ⟨_, _, h3⟩
          have h3' : fpd * posTbl X s fpd o + k < fpd * (o + np + 5*pp) + 3 * e.nf := h3
          rw [m4] at h3'
          omega
        · intro i j _ _ hh
          exact M.flbuf (Ptr.ext_iff'.1 hh).1.symm
        · intro k hk; exact k04.I _ (M.flw k hk)
        · intro k hk
          refine if_neg ?_
          rintro ⟨h1, _⟩
          exact M.flbuf h1
        · intro i hi
          exact k04.D _ (slotD _ (by right; exact ⟨Nat.le_add_right _ _, hG i hi⟩))
        · intro i hi
          have hi' : i < e.nf * (s.si.nctr * s.sj.nctr) * X.nComp := hi
          exact k04.D _ (slotD _ (by left; show o0 + i < _; omega))
        · intro i j hi hj hh
          have hi' : i < e.nf * (s.si.nctr * s.sj.nctr) * X.nComp := hi
          have h2 : o0 + i = posG X s fpd o + j := (Ptr.ext_iff'.1 hh).2
          omega
        · intro ip jp hip hjp
          exact hK ip jp _ _ T hip hjp (idxT_int1e X s rfl hTv)
      have hfin := (wp_iff_run _ _ _).2 (C08_loop S)
      refine wp_mono hfin ?_
      rintro res h5 ⟨hret, hv, hz, hd, hi⟩
      refine ⟨?_, ?_, ?_, ?_, ?_, ?_⟩
      · intro hr m hm
        let R := e.nf * (s.si.nctr * s.sj.nctr)
        have hnfp : 0 < e.nf := by
          rcases Nat.eq_zero_or_pos e.nf with h0 | h0
          · have hm' : m < e.nf * (s.si.nctr * s.sj.nctr) * X.nComp := hm
            rw [h0] at hm'; simp at hm'
          · exact h0
        have hR : 0 < R := Nat.mul_pos hnfp (Nat.mul_pos hic hjc)
        have b1 : m / R < X.nComp := (Nat.div_lt_iff_lt_mul hR).2 (by rw [Nat.mul_comm]; exact hm)
        have b2 : m % R < R := Nat.mod_lt _ hR
        have b3 : m % R / e.nf < s.sj.nctr * s.si.nctr := (Nat.div_lt_iff_lt_mul hnfp).2 (by
          calc m % R < R := b2
            _ = _ := by show e.nf * (s.si.nctr * s.sj.nctr) = _; ring)
        have b4 : m % R / e.nf / s.si.nctr < s.sj.nctr := (Nat.div_lt_iff_lt_mul hic).2 b3
        have b5 : m % R / e.nf % s.si.nctr < s.si.nctr := Nat.mod_lt _ hic
        have b6 : m % R % e.nf < e.nf := Nat.mod_lt _ hnfp
        have b7 : m % R % e.nf = m % e.nf := Nat.mod_mod_of_dvd _ (Dvd.intro _ rfl)
        have := hv hr (m/R) (m % R / e.nf % s.si.nctr) (m % R / e.nf / s.si.nctr) (m % R % e.nf) b1 b5 b4 b6
        rw [expected2_nest] at this
        have hix : Spec.outIdx2 e.nf s.si.nctr s.sj.nctr (m/R) (m % R / e.nf % s.si.nctr)
            (m % R / e.nf / s.si.nctr) (m % R % e.nf) = m := by
          unfold Spec.outIdx2
          have q1 := Nat.div_add_mod (m % R / e.nf) s.si.nctr
          have q2 := Nat.div_add_mod (m % R) e.nf
          have q3 := Nat.div_add_mod m R
          rw [Nat.mul_comm _ s.si.nctr, q1, Nat.mul_comm _ e.nf, q2]
          rw [Nat.mul_comm (m/R)]
          exact q3
        have hix' : Spec.outIdx2 e.nf P.iCtr P.jCtr (m/R) (m % R / e.nf % s.si.nctr)
            (m % R / e.nf / s.si.nctr) (m % R % e.nf) = m := hix
        rw [hix', b7] at this
        exact this
      · intro hr comp ic jc n
        rw [← expected2_nest (A := A)]
        exact hz hr comp ic jc n
      · intro ip jp k hip hjp hk
        have hlt : 5*(jp*s.si.nprim+ip)+k < 5*pp := by
          have := radix_lt hjp hip
          have e : s.sj.nprim * s.si.nprim = pp := Nat.mul_comm _ _
          omega
        have hne : ¬ (Blk (⟨buf, o0⟩ : Ptr) (e.nf * (P.iCtr*P.jCtr) * X.nComp)
              (⟨buf, o + np + (5*(jp*s.si.nprim+ip)+k)⟩ : Ptr) ∨
            Blk A.g (s.leng X + P.used X.nComp) (⟨buf, o + np + (5*(jp*s.si.nprim+ip)+k)⟩ : Ptr)) := by
          rintro (⟨i, hi, ee⟩ | ⟨i, hi, ee⟩)
          · have e' : o + np + (5*(jp*s.si.nprim+ip)+k) = o0 + i := (Ptr.ext_iff'.1 ee).2
            have hi' : i < e.nf * (s.si.nctr * s.sj.nctr) * X.nComp := hi
            omega
          · have e' : o + np + (5*(jp*s.si.nprim+ip)+k) = posG X s fpd o + i := (Ptr.ext_iff'.1 ee).2
            omega
        have := hd _ hne
        show h5.D ⟨buf, o + np + (5*(jp*s.si.nprim+ip)+k)⟩ = _
        rw [this, d4]
        exact v3 ip jp k hip hjp hk
      · refine AD.trans (AgreeD.trans (W1 := fun _ => False) (W := fun q => q.buf = buf) (AgreeD.of_eq d4 _) hd
          (fun _ x => x.elim) ?_) (fun _ => id) (fun _ => id)
        rintro q (hq | hq) <;> exact blk_buf hq
      · have AI4 : AgreeI h h4 (fun q => q.buf = buf ∨ q.buf = fl.buf ∨ q.buf = loc.buf) := by
          refine AgreeI.trans (W1 := fun _ => False) (AgreeI.of_eq hI3 _) a4 (fun _ x => x.elim) ?_
          rintro q (hq | hq)
          · exact Or.inl (blk_buf hq)
          · exact Or.inr (Or.inr (blk_buf hq))
        refine AI4.trans hi (fun _ => id) ?_
        rintro q (hq | hq)
        · exact Or.inr (Or.inl (blk_buf hq))
        · exact Or.inl (blk_buf hq)
      · rw [hret]
        constructor
        · rintro ⟨ip, jp, a, b, c, _⟩
          exact ⟨fun x => hem (e3.2 x), ip, jp, a, b, of_decide_eq_false c⟩
        · rintro ⟨_, ip, jp, a, b, c⟩
          exact ⟨ip, jp, a, b, decide_eq_false c, rfl⟩

end Verif.Lemmas
