import Verif.Lemmas.GridsBlock

/-! CINT1e_grids_loop on its part of the cache. -/
namespace Verif.Lemmas
open Verif Verif.Model Verif.Prog Verif.Props

/-- the next position at a 64-byte boundary, in doubles, in a buffer that starts `sh` doubles behind one -/
def alignA (sh p : Nat) : Nat := (p + sh + 7)/8*8 - sh

theorem alignA_le (sh p : Nat) : p ≤ alignA sh p ∧ alignA sh p ≤ p + 7 ∧ alignA sh p + sh = (p + sh + 7)/8*8 := by
  unfold alignA; omega

theorem alignA_add (sh p k : Nat) : alignA sh (alignA sh p + 8*k) = alignA sh p + 8*k := by
  unfold alignA; omega

theorem mallocA_eq {fpd : Nat} (hf : 0 < fpd) (sh buf o m n : Nat) :
    mallocA fpd sh buf (fpd*o+m) n = (⟨buf, alignA sh (o + dblOf fpd m)⟩, fpd*(alignA sh (o + dblOf fpd m) + n)) := by
  have e1 : alignUp (8*fpd) (fpd*o+m+fpd*sh) = fpd*((o + dblOf fpd m + sh + 7)/8*8) := by
    unfold alignUp dblOf
    have : (fpd*o+m+fpd*sh + 8*fpd - 1)/(8*fpd) = (o + (m+fpd-1)/fpd + sh + 7)/8 := by
      rw [Nat.mul_comm 8 fpd, ← Nat.div_div_eq_div_mul]
      congr 1
      rw [show fpd*o+m+fpd*sh + fpd*8 - 1 = fpd*(o+sh+7) + (m+fpd-1) by
        rw [show fpd*(o+sh+7) = fpd*o+fpd*sh+fpd*7 by ring]; omega, Nat.mul_add_div hf]
      omega
    rw [this]; ring
  have e2 : fpd*((o + dblOf fpd m + sh + 7)/8*8) - fpd*sh = fpd*alignA sh (o + dblOf fpd m) := by
    unfold alignA; rw [Nat.mul_sub]
  unfold mallocA
  rw [e1]
  dsimp only
  rw [e2, Nat.mul_div_cancel_left _ hf, Nat.mul_add]

theorem mallocA_eq0 {fpd : Nat} (hf : 0 < fpd) (sh buf o n : Nat) :
    mallocA fpd sh buf (fpd*o) n = (⟨buf, alignA sh o⟩, fpd*(alignA sh o + n)) := by
  have := mallocA_eq hf sh buf o 0 n
  have h0 : dblOf fpd 0 = 0 := by unfold dblOf; exact Nat.div_eq_of_lt (by omega)
  rw [h0] at this
  exact this

variable {α : Type} [Field α] [LinearOrder α]

/-- positions, in doubles, when the loop's cache starts at `o` -/
def posTblG (X : IntG α) (s : CallG α) (fpd o : Nat) : Nat := posIdx s.toCall o + dblOf fpd ((s.envG X).nf * 3)
def posEndI (X : IntG α) (s : CallG α) (fpd o : Nat) : Nat := posTblG X s fpd o + dblOf fpd s.tblLen
def posT (X : IntG α) (s : CallG α) (fpd sh o : Nat) : Nat := alignA sh (posEndI X s fpd o)
def posU (X : IntG α) (s : CallG α) (fpd sh o : Nat) : Nat := alignA sh (posT X s fpd sh o + (s.lenG X + 104*3))
/-- where the scratch of the loop ends -/
def posEnd (X : IntG α) (s : CallG α) (fpd sh o : Nat) : Nat := posU X s fpd sh o + (104*(s.envG X).nrys_roots + 728)

theorem arraysG_eq {X : IntG α} {s : CallG α} {fpd : Nat} (hf : 0 < fpd) (sh buf o : Nat) :
    arraysG X s fpd sh buf (fpd*o) =
      { logMaxc := ⟨buf, o⟩, pdata := ⟨buf, o + (s.si.nprim + s.sj.nprim)⟩
        idx := ⟨buf, fpd * posIdx s.toCall o⟩, tbl := ⟨buf, fpd * posTblG X s fpd o⟩
        gridsT := ⟨buf, posT X s fpd sh o⟩
        aux := { u := ⟨buf, posU X s fpd sh o⟩, rijrg := ⟨buf, posU X s fpd sh o + 104*(s.envG X).nrys_roots⟩
                 t2 := ⟨buf, posU X s fpd sh o + 104*(s.envG X).nrys_roots + 104*3⟩ } } := by
  unfold arraysG gridAux
  simp only [mallocD_eq hf, mallocI_eq hf, mallocI_eq' hf, mallocA_eq hf, mallocA_eq0 hf]
  have h1 : alignA sh (posU X s fpd sh o + 104*(s.envG X).nrys_roots) = posU X s fpd sh o + 104*(s.envG X).nrys_roots := by
    have := alignA_add sh (posT X s fpd sh o + (s.lenG X + 104*3)) (13*(s.envG X).nrys_roots)
    rw [show 8*(13*(s.envG X).nrys_roots) = 104*(s.envG X).nrys_roots by ring] at this
    exact this
  have h2 : alignA sh (posU X s fpd sh o + 104*(s.envG X).nrys_roots + 104*3) = posU X s fpd sh o + 104*(s.envG X).nrys_roots + 104*3 := by
    have := alignA_add sh (posT X s fpd sh o + (s.lenG X + 104*3)) (13*(s.envG X).nrys_roots + 39)
    rw [show 8*(13*(s.envG X).nrys_roots + 39) = 104*(s.envG X).nrys_roots + 104*3 by ring, ← Nat.add_assoc] at this
    exact this
  unfold posU posT posEndI posTblG posIdx at *
  rw [h1, h2]

/-- the doubles of the cache used as FINTs -/
def intSlotsG (X : IntG α) (s : CallG α) (fpd o : Nat) (k : Nat) : Prop :=
  posIdx s.toCall o ≤ k ∧ k < posEndI X s fpd o

structure GLoopMem (X : IntG α) (s : CallG α) (h : Heap α) (fpd sh buf size o0 o : Nat) (fl loc : Ptr) : Prop where
  fpd_pos : 0 < fpd
  cache : CacheMem h fpd buf size (intSlotsG X s fpd o)
  room : posEnd X s fpd sh o ≤ size
  ctr : o0 + dijG X s * s.ngrids * X.nComp ≤ o
  flw : ∀ k, k < 4 → h.I (fl + k) ≠ .oob
  locw : ∀ k, k < 12*136 → h.I (loc + k) ≠ .oob
  flbuf : fl.buf ≠ buf
  locbuf : loc.buf ≠ buf

theorem idxT_grids (X : IntG α) (s : CallG α) {idx : Ptr} {F : Nat → Int} {T : Ptr → Option Int}
    (hF : F = tblF (s.envG X).nfi fun m i c => (c * (s.envG X).g_size : Int) +
      (s.envG X).g_stride_j * Spec.pw (s.envG X).j_l c m + (s.envG X).g_stride_i * Spec.pw (s.envG X).i_l c i)
    (hT : ∀ k, k < 3*(s.envG X).nf → T (idx + k) = some (F k)) :
    IdxT T idx (s.envG X).nf (adr2 (s.envG X)) := by
  intro n c hn hc
  rw [hT _ (by omega), hF]
  unfold tblF adr2 slab2
  rw [show (3*n+c)/3 = n by omega, show (3*n+c)%3 = c by omega]
  congr 1
  push_cast
  ring

theorem gridVal_empty {K : Consts α} {L : MathLib α} {X : IntG α} {s : CallG α} {w : Nat → Nat → (Nat → α) → Nat → α}
    (hE : PairEmpty L (s.pairArgsG X)) (r : Nat → α) (comp ic jc n : Nat) : gridVal K L X s w r comp ic jc n = 0 := by
  unfold gridVal Spec.contract2
  rw [Finset.sum_eq_zero, mul_zero]
  intro jp hj
  refine Finset.sum_eq_zero (fun ip hi => ?_)
  have : pairVal L (s.pairArgsG X) ip jp 3 = 0 := by
    have := hE ip jp (Finset.mem_range.1 hi) (Finset.mem_range.1 hj)
    unfold pairVal; simp [this]
  simp [this]

theorem gridVal_none {K : Consts α} {L : MathLib α} {X : IntG α} {s : CallG α} {w : Nat → Nat → (Nat → α) → Nat → α}
    (hE : ¬ gridAny L X s) (r : Nat → α) (comp ic jc n : Nat) : gridVal K L X s w r comp ic jc n = 0 := by
  refine gridVal_empty (fun ip jp hi hj => ?_) r comp ic jc n
  by_contra hc
  refine hE ⟨ip, jp, hi, hj, ?_⟩
  have h1 : pairVal L (s.pairArgsG X) ip jp 4 = pairCC L (s.pairArgsG X) ip jp := by
    unfold pairVal; simp
  rw [h1]
  have : pairCC L (s.pairArgsG X) ip jp < (s.pairArgsG X).cutoff := by simpa using hc
  exact not_lt.2 (le_of_lt this)

/-- positions of different blocks differ -/
theorem gpos_ne {ng D t t' c N ig c' N' ig' : Nat} (htt : t' < t) (ht : 104*t < ng)
    (hN : N < D) (hig : ig < bgrids ng (104*t)) (hN' : N' < D) (hig' : ig' < bgrids ng (104*t')) :
    gpos ng D (104*t) c N ig ≠ gpos ng D (104*t') c' N' ig' := by
  unfold gpos
  intro e
  have b1 : bgrids ng (104*t) ≤ ng - 104*t := Nat.min_le_left _ _
  have b2 : bgrids ng (104*t') ≤ ng - 104*t' := Nat.min_le_left _ _
  have b3 : bgrids ng (104*t') ≤ 104 := Nat.min_le_right _ _
  have h1 : N*bgrids ng (104*t)+ig < D*bgrids ng (104*t) := radix_lt hN hig
  have h1' : N'*bgrids ng (104*t')+ig' < D*bgrids ng (104*t') := radix_lt hN' hig'
  have h2 : 104*t*D + D*bgrids ng (104*t) ≤ D*ng := by
    calc 104*t*D + D*bgrids ng (104*t) = D*(104*t + bgrids ng (104*t)) := by ring
      _ ≤ _ := Nat.mul_le_mul_left _ (by omega)
  have h2' : 104*t'*D + D*bgrids ng (104*t') ≤ D*(104*t) := by
    calc 104*t'*D + D*bgrids ng (104*t') = D*(104*t' + bgrids ng (104*t')) := by ring
      _ ≤ _ := Nat.mul_le_mul_left _ (by omega)
  have h3 : D*(104*t) ≤ D*ng := Nat.mul_le_mul_left _ (by omega)
  have h4 : 104*t*D = D*(104*t) := Nat.mul_comm _ _
  have := (radix_inj (m := D*ng) (by omega) (by omega) e).2
  omega

theorem gpos_lt {ng D off C c N ig : Nat} (hc : c < C) (hN : N < D) (hig : ig < bgrids ng off) :
    gpos ng D off c N ig < D*ng*C := by
  have b1 : bgrids ng off ≤ ng - off := Nat.min_le_left _ _
  unfold gpos
  have h1 : N*bgrids ng off+ig < D*bgrids ng off := radix_lt hN hig
  have h2 : off*D + D*bgrids ng off ≤ D*ng := by
    calc off*D + D*bgrids ng off = D*(off+bgrids ng off) := by ring
      _ ≤ _ := Nat.mul_le_mul_left _ (by omega)
  have h3 : c*(D*ng) + (off*D + (N*bgrids ng off+ig)) < C*(D*ng) := radix_lt hc (by omega)
  rw [Nat.mul_comm C] at h3
  exact h3

/-- CINT1e_grids_loop runs within its part of the cache and computes the contracted integrals of every point. -/
theorem loopGrids_wp {R : Rys2 α} {K : Consts α} {L : MathLib α} {X : IntG α} {s : CallG α}
    {w : Nat → Nat → (Nat → α) → Nat → α} {h : Heap α} {fpd sh buf size o0 o : Nat} {fl loc : Ptr}
    (M : GLoopMem X s h fpd sh buf size o0 o fl loc) (hK : EvalG R K L X s w)
    (hic : 1 ≤ s.si.nctr) (hjc : 1 ≤ s.sj.nctr) (hnc : 1 ≤ X.nComp)
    (hli : s.si.l ≤ 15) (hlj : s.sj.l ≤ 15) :
    wp (loopGrids X s R K L fpd sh ⟨buf, o0⟩ buf (fpd*o) fl loc) (fun res h' =>
      (res = true ↔ ¬ PairEmpty L (s.pairArgsG X) ∧ gridAny L X s ∧ 0 < s.ngrids) ∧
      (res = true → ∀ comp ic jc n gi, comp < X.nComp → ic < s.si.nctr → jc < s.sj.nctr → n < (s.envG X).nf →
        gi < s.ngrids →
        h'.D ((⟨buf, o0⟩ : Ptr) + gpos s.ngrids (dijG X s) (104*(gi/104)) comp ((jc*s.si.nctr+ic)*(s.envG X).nf + n) (gi%104)) =
          .val (gridVal K L X s w (s.grid gi) comp ic jc n)) ∧
      (res = false → ∀ comp ic jc n gi, gi < s.ngrids → gridVal K L X s w (s.grid gi) comp ic jc n = 0) ∧
      AgreeD h h' (fun q => q.buf = buf) ∧
      AgreeI h h' (fun q => q.buf = buf ∨ q.buf = fl.buf ∨ q.buf = loc.buf)) h := by
  have hf := M.fpd_pos
  let np := s.si.nprim + s.sj.nprim
  let pp := s.si.nprim * s.sj.nprim
  let e := s.envG X
  have hnfi : e.nfi = Spec.ncart e.i_l := rfl
  have hnfj : e.nfj = Spec.ncart e.j_l := rfl
  have hnf : e.nf = e.nfj * e.nfi := Nat.mul_comm _ _
  have dI : e.nf * 3 ≤ fpd * dblOf fpd (e.nf*3) := dblOf_mul hf _
  have dT : s.tblLen ≤ fpd * dblOf fpd s.tblLen := dblOf_mul hf _
  have pI : posEndI X s fpd o = o + np + 5*pp + dblOf fpd (e.nf*3) + dblOf fpd s.tblLen := rfl
  have pT := alignA_le sh (posEndI X s fpd o)
  have pU := alignA_le sh (posT X s fpd sh o + (s.lenG X + 104*3))
  have pT1 : posEndI X s fpd o ≤ posT X s fpd sh o := pT.1
  have pU1 : posT X s fpd sh o + (s.lenG X + 104*3) ≤ posU X s fpd sh o := pU.1
  have hroom : posU X s fpd sh o + (104*e.nrys_roots + 728) ≤ size := M.room
  have hctr : o0 + dijG X s * s.ngrids * X.nComp ≤ o := M.ctr
  have slotD : ∀ k, k < o + np + 5*pp ∨ (posT X s fpd sh o ≤ k ∧ k < size) → h.D ⟨buf, k⟩ ≠ .oob := by
    intro k hk
    refine M.cache.dbl k (by omega) ?_
    rintro ⟨h1, h2⟩
    have h1' : o + np + 5*pp ≤ k := h1
    omega
  have slotI : ∀ m, fpd * (o + np + 5*pp) ≤ m →
      m < fpd * (o + np + 5*pp + dblOf fpd (e.nf*3) + dblOf fpd s.tblLen) → h.I ⟨buf, m⟩ ≠ .oob := by
    intro m h1 h2
    refine M.cache.int m (lt_of_lt_of_le h2 (Nat.mul_le_mul_left _ (by omega))) ⟨?_, ?_⟩
    · exact (Nat.le_div_iff_mul_le hf).2 (by rw [Nat.mul_comm]; exact h1)
    · exact (Nat.div_lt_iff_lt_mul hf).2 (by rw [Nat.mul_comm]; exact h2)
  have m3 : fpd * (o + np + 5*pp + dblOf fpd (e.nf*3) + dblOf fpd s.tblLen) =
      fpd * (o + np + 5*pp) + fpd * dblOf fpd (e.nf*3) + fpd * dblOf fpd s.tblLen := by ring
  have m4 : fpd * posTblG X s fpd o = fpd * (o + np + 5*pp) + fpd * dblOf fpd (e.nf*3) := by
    show fpd * (o + np + 5*pp + dblOf fpd (e.nf*3)) = _
    ring
  unfold loopGrids
  dsimp only
  rw [arraysG_eq hf]
  let A : ArraysG :=
      { logMaxc := ⟨buf, o⟩, pdata := ⟨buf, o + (s.si.nprim + s.sj.nprim)⟩
        idx := ⟨buf, fpd * posIdx s.toCall o⟩, tbl := ⟨buf, fpd * posTblG X s fpd o⟩
        gridsT := ⟨buf, posT X s fpd sh o⟩
        aux := { u := ⟨buf, posU X s fpd sh o⟩, rijrg := ⟨buf, posU X s fpd sh o + 104*(s.envG X).nrys_roots⟩
                 t2 := ⟨buf, posU X s fpd sh o + 104*(s.envG X).nrys_roots + 104*3⟩ } }
  rw [wp_mbind]
  refine wp_mono (wp_allocMono (fillLogMaxC_wp (p := ⟨buf, o⟩) (fun i hi => slotD (o+i) (by left; omega)))) ?_
  rintro _ h1 ⟨⟨a1, i1⟩, k1⟩
  rw [wp_mbind]
  refine wp_mono (wp_allocMono (fillLogMaxC_wp (p := (⟨buf, o⟩ : Ptr) + s.si.nprim) (fun i hi => ?_))) ?_
  · refine k1.D _ ?_
    rw [Ptr.add_assoc]
    exact slotD (o + (s.si.nprim + i)) (by left; omega)
  rintro _ h2 ⟨⟨a2, i2⟩, k2⟩
  have k02 := k1.trans k2
  rw [wp_mbind]
  refine wp_mono (wp_allocMono (setPairdata_wp (pd := ⟨buf, o + np⟩) (fun i hi => ?_))) ?_
  · have hi' : i < 5 * (s.sj.nprim * s.si.nprim) := hi
    rw [Nat.mul_comm s.sj.nprim] at hi'
    refine k02.D _ (slotD _ (by left; show o + np + i < _; omega))
  rintro em h3 ⟨⟨e3, v3, a3, i3⟩, k3⟩
  have k03 := k02.trans k3
  have AD : AgreeD h h3 (fun q => q.buf = buf) :=
    ((a1.mono (W := fun q => q.buf = buf) (fun q hq => blk_buf hq)).trans
      (a2.mono (W := fun q => q.buf = buf) (fun q hq => blk_buf hq)) (fun _ => id) (fun _ => id)).trans
      (a3.mono (W := fun q => q.buf = buf) (fun q hq => blk_buf hq)) (fun _ => id) (fun _ => id)
  have hI3 : h3.I = h.I := by rw [i3, i2, i1]
  by_cases hem : em = true
  · rw [if_pos hem, wp_pure]
    exact ⟨⟨fun hh => Bool.noConfusion hh, fun x => absurd (e3.1 hem) x.1⟩, fun hh => Bool.noConfusion hh,
      fun _ comp ic jc n gi _ => gridVal_empty (e3.1 hem) _ _ _ _ _, AD, AgreeI.of_eq hI3 _⟩
  · rw [if_neg hem, wp_mbind]
    refine wp_mono (wp_allocMono (initFlags_wp (fun k hk => k03.I _ (M.flw k hk)))) ?_
    rintro _ h4 ⟨H4, k4⟩
    have k04 := k03.trans k4
    have a4 : AgreeI h3 h4 (Blk fl 4) := H4.agree (fun k hk => ⟨k, hk, rfl⟩)
    rw [wp_mbind]
    refine wp_mono (wp_allocMono (g1eIndex_wp (e := e) (idx := ⟨buf, fpd * posIdx s.toCall o⟩) (loc := loc) hli hlj hnfi hnfj
      ⟨?_, fun k hk => k04.I _ (M.locw k hk), ?_⟩)) ?_
    · intro k hk
      refine k04.I _ (slotI _ (Nat.le_add_right _ _) ?_)
      rw [m3]
      show fpd * (o + np + 5*pp) + k < _
      rw [← hnf] at hk
      omega
    · intro i j _ _ hh
      exact M.locbuf (Ptr.ext_iff'.1 hh).1
    rintro _ h5 ⟨⟨v5, a5, d5⟩, k5⟩
    have k05 := k04.trans k5
    rw [← hnf] at v5 a5
    let F := tblF e.nfi fun m i c => (c * e.g_size : Int) + e.g_stride_j * Spec.pw e.j_l c m +
      e.g_stride_i * Spec.pw e.i_l c i
    let pi := fpd * posIdx s.toCall o
    have hpi : pi = fpd * (o + np + 5*pp) := rfl
    let idx : Ptr := ⟨buf, pi⟩
    let T : Ptr → Option Int := fun q => if q.buf = buf ∧ pi ≤ q.off ∧ q.off < pi + 3 * e.nf then
      some (F (q.off - pi)) else none
    have hTv : ∀ k, k < 3 * e.nf → T (idx + k) = some (F k) := by
      intro k hk
      show (if buf = buf ∧ pi ≤ pi + k ∧ pi + k < pi + 3 * e.nf then some (F (pi + k - pi)) else none) = _
      rw [if_pos ⟨rfl, by omega, by omega⟩, Nat.add_sub_cancel_left]
    have hro5 : RO T h5 := by
      intro q x hq
      by_cases hc : q.buf = buf ∧ pi ≤ q.off ∧ q.off < pi + 3 * e.nf
      · have hq2 : T q = some (F (q.off - pi)) := if_pos hc
        rw [hq2] at hq
        obtain rfl : F (q.off - pi) = x := by simpa using hq
        have := v5 (q.off - pi) (by omega)
        rw [show (⟨buf, fpd * posIdx s.toCall o⟩ : Ptr) + (q.off - pi) = q from
          Ptr.ext_iff'.2 ⟨hc.1.symm, by show pi + _ = _; omega⟩] at this
        exact this
      · have hq2 : T q = none := if_neg hc
        rw [hq2] at hq; cases hq
    let P := s.nestG X R K L 0 A.idx A.gridsT A.aux
    have htl : P.tblSize = s.tblLen := rfl
    have htab := wp_allocMono (tables2_wp (P := P) (base := A.tbl) (h := h5) (p := True) (q := True)
      (fun k hk => by
        rw [htl] at hk
        refine k05.I _ (slotI _ ?_ ?_)
        · show _ ≤ fpd * posTblG X s fpd o + k
          rw [m4]; omega
        · show fpd * posTblG X s fpd o + k < _
          rw [m3, m4]; omega))
    have htblT : ∀ k, k < P.tblSize → T (A.tbl + k) = none := by
      intro k hk
      refine if_neg ?_
      rintro ⟨_, _, h3⟩
      have h3' : fpd * posTblG X s fpd o + k < fpd * (o + np + 5*pp) + 3 * e.nf := h3
      rw [m4] at h3'
      omega
    simp only [if_true, wp_mbind] at htab
    rw [wp_mbind]
    refine wp_mono htab ?_
    intro _ h6 H6
    rw [wp_mbind]
    refine wp_mono H6 ?_
    rintro _ h7 ⟨⟨d7, a7, t7⟩, k7⟩
    obtain ⟨ti, tj⟩ := t7 T
    have k07 := k05.trans k7
    let T' := roBlk T A.tbl P.tblSize h7
    have hro7 : RO T h7 := hro5.agree a7 (by rintro q ⟨k, hk, rfl⟩; exact htblT k hk)
    have hro7' : RO T' h7 := roBlk_ro hro7
    have hT'fl : ∀ k, k < 3 → T' (fl + k) = none := fun k hk =>
      roBlk_none (if_neg (by rintro ⟨h1, _⟩; exact M.flbuf h1)) (by
        rintro ⟨i, hi, ee⟩; exact M.flbuf (Ptr.ext_iff'.1 ee).1)
    have AD7 : AgreeD h h7 (fun q => q.buf = buf) :=
      AD.trans (AgreeD.of_eq (d7.trans (d5.trans H4.dbl)) (fun _ => False)) (fun _ => id) (fun _ x => x.elim)
    have AI7 : AgreeI h h7 (fun q => q.buf = buf ∨ q.buf = fl.buf ∨ q.buf = loc.buf) := by
      have x4 : AgreeI h h4 (fun q => q.buf = buf ∨ q.buf = fl.buf ∨ q.buf = loc.buf) :=
        AgreeI.trans (W1 := fun _ => False) (AgreeI.of_eq hI3 _) a4 (fun _ x => x.elim)
          (fun q hq => Or.inr (Or.inl (blk_buf hq)))
      have x5 := x4.trans a5 (fun _ => id) (W := fun q => q.buf = buf ∨ q.buf = fl.buf ∨ q.buf = loc.buf) (by
        rintro q (hq | hq)
        · exact Or.inl (blk_buf hq)
        · exact Or.inr (Or.inr (blk_buf hq)))
      exact x5.trans a7 (fun _ => id) (fun q hq => Or.inl (blk_buf hq))
    have hMem : ∀ h', AllocMono h7 h' → GBMem X s A ⟨buf, o0⟩ fl (posEnd X s fpd sh o) T' h' := by
      intro h' k'
      have k0' := k07.trans k'
      refine ⟨rfl, rfl, ?_, ?_, rfl, ⟨rfl, ?_⟩, ?_, ?_, fun k hk => k0'.I _ (M.flw k (by omega)), hT'fl, ti trivial, tj trivial, ?_⟩
      · show o0 + dijG X s * s.ngrids * X.nComp ≤ posT X s fpd sh o
        omega
      · show posT X s fpd sh o + 312 + s.lenG X ≤ posU X s fpd sh o
        omega
      · exact Ptr.ext_iff'.2 ⟨rfl, Nat.add_assoc _ _ _⟩
      · intro i hi
        exact k0'.D _ (slotD _ (by left; show o0 + i < _; omega))
      · rintro ⟨qb, qo⟩ h1 h2 h3
        have h1' : qb = buf := h1
        subst h1'
        have h3' : qo < posU X s fpd sh o + (104*e.nrys_roots + 728) := h3
        exact k0'.D _ (slotD _ (by right; exact ⟨h2, by omega⟩))
      · intro n c hn hc
        exact roBlk_ext htblT (idxT_grids X s rfl hTv n c hn hc)
    refine wp_forS (fun t res h' => (res = true ↔ 0 < t ∧ gridAny L X s) ∧
      (res = true → ∀ comp ic jc n t' ig, comp < X.nComp → ic < s.si.nctr → jc < s.sj.nctr → n < (s.envG X).nf →
        t' < t → ig < bgrids s.ngrids (104*t') →
        h'.D ((⟨buf, o0⟩ : Ptr) + gpos s.ngrids (dijG X s) (104*t') comp ((jc*s.si.nctr+ic)*(s.envG X).nf + n) ig) =
          .val (gridVal K L X s w (s.grid (104*t' + ig)) comp ic jc n)) ∧
      AgreeD h h' (fun q => q.buf = buf) ∧ AgreeI h7 h' (Blk fl 3) ∧ AllocMono h7 h')
      ⟨by simp, by simp, AD7, AgreeI.refl _ _, AllocMono.refl _⟩ ?_ ?_
    · rintro t ht res h8 ⟨r8, v8, d8, a8, k8⟩
      have ht' : 104*t < s.ngrids := by unfold nblk at ht; omega
      have hro8 : RO T' h8 := hro7'.agree a8 (by rintro q ⟨k, hk, rfl⟩; exact hT'fl k hk)
      rw [wp_mbind]
      refine wp_mono (wp_allocMono (gridBlock_wp (hMem h8 k8) hro8 hK ht' hic hjc hnc)) ?_
      rintro r h9 ⟨⟨r9, v9, z9, d9, a9⟩, k9⟩
      rw [wp_pure]
      refine ⟨?_, ?_, d8.trans d9 (fun _ => id) ?_, a8.trans a9 (fun _ => id) (fun _ => id), k8.trans k9⟩
      · rw [Bool.or_eq_true, r8, r9]
        constructor
        · rintro (⟨_, x⟩ | x) <;> exact ⟨by omega, x⟩
        · rintro ⟨_, x⟩; exact Or.inr x
      · intro hr comp ic jc n t' ig g1 g2 g3 g4 g5 g6
        have hany : gridAny L X s := by
          rw [Bool.or_eq_true, r8, r9] at hr
          rcases hr with ⟨_, x⟩ | x <;> exact x
        have hN : (jc*s.si.nctr+ic)*(s.envG X).nf + n < dijG X s := by
          calc _ < s.sj.nctr*s.si.nctr*(s.envG X).nf := radix_lt (radix_lt g3 g2) g4
            _ = _ := by unfold dijG; ring
        rcases Nat.lt_succ_iff_lt_or_eq.1 g5 with g5 | rfl
        · rw [d9 _ ?_]
          · exact v8 (r8.2 ⟨by omega, hany⟩) comp ic jc n t' ig g1 g2 g3 g4 g5 g6
          · rintro (⟨c, N, ig', x1, x2, x3, ee⟩ | ⟨_, x2, _⟩)
            · exact gpos_ne g5 ht' x2 x3 hN g6 ((Ptr.add_right_inj _ _ _).1 ee).symm
            · have := gpos_lt (C := X.nComp) g1 hN g6
              have x2' : posT X s fpd sh o ≤ o0 + gpos s.ngrids (dijG X s) (104*t') comp ((jc*s.si.nctr+ic)*(s.envG X).nf + n) ig := x2
              omega
        · exact v9 (r9.2 hany) comp ic jc n ig g1 g2 g3 g4 g6
      · rintro q (⟨c, N, ig', x1, x2, x3, rfl⟩ | ⟨x1, _⟩)
        · rfl
        · exact x1
    · rintro res h8 ⟨r8, v8, d8, a8, k8⟩
      have hn0 : 0 < nblk s.ngrids ↔ 0 < s.ngrids := by unfold nblk; omega
      refine ⟨?_, ?_, ?_, d8, AI7.trans a8 (fun _ => id) (fun q hq => Or.inr (Or.inl (blk_buf hq)))⟩
      · rw [r8, hn0]
        constructor
        · rintro ⟨a, b⟩; exact ⟨fun x => hem (e3.2 x), b, a⟩
        · rintro ⟨_, b, a⟩; exact ⟨a, b⟩
      · intro hr comp ic jc n gi g1 g2 g3 g4 g5
        have hb : gi % 104 < bgrids s.ngrids (104*(gi/104)) := by
          unfold bgrids; rw [lt_min_iff]; omega
        have := v8 hr comp ic jc n (gi/104) (gi%104) g1 g2 g3 g4 (by unfold nblk; omega) hb
        rw [Nat.div_add_mod] at this
        exact this
      · intro hr comp ic jc n gi hgi
        refine gridVal_none ?_ _ _ _ _ _
        intro hany
        have := r8.2 ⟨by rw [hn0]; omega, hany⟩
        rw [hr] at this; cases this

end Verif.Lemmas
