import Verif.Lemmas.ZGrids
import Verif.Lemmas.SpGrids
import Verif.Lemmas.GridsTrans

/-! CINT1e_grids_spinor_drv. -/
namespace Verif.Lemmas
open Verif Verif.Model Verif.Prog Verif.Props Verif.Spec

variable {α : Type} [Field α] [LinearOrder α]

/-- The caller's output array of complex numbers and `dims`. -/
structure GOutArgZ (h : Heap α) (nd cnt : Nat → Nat) (nT : Nat) (out : Ptr) (dims : Option Ptr)
    (buf : Nat) (fl loc counts loc2 : Ptr) : Prop where
  h_dims : DimsArg 3 h dims counts nd cnt
  h_dims3 : ∀ d, dims = some d → ∃ x, h.I (d + 3) = .val x
  h_dbuf : ∀ d, dims = some d → d.buf ≠ buf ∧ d.buf ≠ fl.buf ∧ d.buf ≠ loc.buf ∧ d.buf ≠ loc2.buf
  fits : cnt 0 ≤ nd 0 ∧ cnt 1 ≤ nd 1 ∧ cnt 2 ≤ nd 2
  h_out : ∀ m, InGridBlock nd cnt nT (m/2) → h.D (out + m) ≠ .oob
  h_obuf : out.buf ≠ buf
  l2 : ∀ t, t < 8 → h.I (loc2 + t) ≠ .oob
  l2c : loc2.buf ≠ counts.buf

theorem gridAtZ_eq (nd : Nat → Nat) (n g i j : Nat) (im : Bool) :
    2*gridAt nd n g i j + imOff im = 2*(nd 0*nd 1*nd 2)*n + posZ (nd 2) (nd 0) (nd 1) (im,g,i,j,0) := by
  rw [gridAt_pos4]
  unfold posZ
  ring

/-- element `m` of an array of doubles belongs to a complex block -/
theorem inGridZ_iff {nd cnt : Nat → Nat} {nT m : Nat} : InGridBlock nd cnt nT (m/2) ↔
    ∃ n g i j im, n < nT ∧ g < cnt 2 ∧ i < cnt 0 ∧ j < cnt 1 ∧ m = 2*gridAt nd n g i j + imOff im := by
  constructor
  · rintro ⟨n, g, i, j, hn, hg, hi, hj, e⟩
    refine ⟨n, g, i, j, decide (m%2 = 1), hn, hg, hi, hj, ?_⟩
    have e2 : m = 2*(m/2) + m%2 := (Nat.div_add_mod m 2).symm
    rw [e] at e2
    have e3 : imOff (decide (m%2 = 1)) = m%2 := by
      rcases Nat.mod_two_eq_zero_or_one m with h | h <;> rw [h] <;> rfl
    omega
  · rintro ⟨n, g, i, j, im, hn, hg, hi, hj, e⟩
    have := imOff_lt im
    exact ⟨n, g, i, j, hn, hg, hi, hj, by omega⟩

/-- the zero block -/
theorem zset0G_loop {nT : Nat} {out dims counts loc2 : Ptr} {nd cnt : Nat → Nat} {h : Heap α}
    (hd : ∀ t, t < 3 → h.I (dims + t) = .val (nd t)) (hd3 : ∃ z, h.I (dims + 3) = .val z)
    (hc : ∀ t, t < 4 → h.I (counts + t) = .val (cnt t)) (hc3 : cnt 3 = 1) (hl : ∀ t, t < 8 → h.I (loc2 + t) ≠ .oob)
    (hdl : dims.buf ≠ loc2.buf) (hcl : loc2.buf ≠ counts.buf)
    (hal : ∀ m, InGridBlock nd cnt nT (m/2) → h.D (out + m) ≠ .oob) :
    wp (forN nT fun n => c2sGridsZset0 (out + 2*(nd 0*nd 1*nd 2*n)) dims counts loc2) (fun _ h' =>
      (∀ m, InGridBlock nd cnt nT (m/2) → h'.D (out + m) = .val 0) ∧
      (∀ q, (∀ m, InGridBlock nd cnt nT (m/2) → q ≠ out + m) → h'.D q = h.D q) ∧
      ∀ q, q.buf ≠ loc2.buf → h'.I q = h.I q) h := by
  have hpos : ∀ n g i j im, (out + (2*gridAt nd n g i j + imOff im) : Ptr) =
      out + 2*(nd 0*nd 1*nd 2*n) + posZ (nd 2) (nd 0) (nd 1) (im,g,i,j,0) := by
    intro n g i j im
    rw [gridAtZ_eq, Ptr.add_assoc, Nat.mul_assoc 2]
  have hin : ∀ n (k : Zx), n < nT → inBlk (cnt 2) (cnt 0) (cnt 1) (cnt 3) k.2 →
      InGridBlock nd cnt nT ((2*gridAt nd n k.2.1 k.2.2.1 k.2.2.2.1 + imOff k.1)/2) ∧
      out + 2*(nd 0*nd 1*nd 2*n) + posZ (nd 2) (nd 0) (nd 1) k = out + (2*gridAt nd n k.2.1 k.2.2.1 k.2.2.2.1 + imOff k.1) := by
    rintro n ⟨im, g, i, j, z⟩ hn ⟨h1, h2, h3, h4⟩
    dsimp only at h4
    rw [hc3] at h4
    obtain rfl : z = 0 := by omega
    exact ⟨inGridZ_iff.2 ⟨n, g, i, j, im, hn, h1, h2, h3, rfl⟩, (hpos n g i j im).symm⟩
  refine wp_forN (fun t h' =>
      (∀ n g i j im, n < t → g < cnt 2 → i < cnt 0 → j < cnt 1 → h'.D (out + (2*gridAt nd n g i j + imOff im)) = .val 0) ∧
      (∀ q, (∀ m, InGridBlock nd cnt nT (m/2) → q ≠ out + m) → h'.D q = h.D q) ∧
      (∀ q, h.D q ≠ .oob → h'.D q ≠ .oob) ∧ (∀ t, t < 8 → h'.I (loc2 + t) ≠ .oob) ∧
      ∀ q, q.buf ≠ loc2.buf → h'.I q = h.I q)
    ⟨fun n g i j im hn => by omega, fun _ _ => rfl, fun _ x => x, hl, fun _ _ => rfl⟩ ?_ ?_
  · rintro t ht h1 ⟨H1, H2, H3, H4, H5⟩
    refine wp_mono (c2sGridsZset0_wp (nd := nd) (cnt := cnt) (fun t ht => ?_) ?_ (fun t ht => ?_) H4 hdl ?_) ?_
    · rw [H5 (dims + t) hdl]; exact hd t ht
    · rw [H5 (dims + 3) hdl]; exact hd3
    · rw [H5 (counts + t) hcl.symm]; exact hc t ht
    · intro k hk
      obtain ⟨a, b⟩ := hin t k ht hk
      rw [b]
      exact H3 _ (hal _ a)
    · rintro _ h2 ⟨G1, G2, G3, G4, G5⟩
      refine ⟨fun n g i j im hn hg hi hj => ?_, fun q hq => ?_, fun q hq => G3 q (H3 q hq), G4, fun q hq => by rw [G5 q hq, H5 q hq]⟩
      · by_cases e : n = t
        · subst e
          rw [hpos]
          exact G1 (im,g,i,j,0) ⟨hg, hi, hj, by show 0 < cnt 3; omega⟩
        · by_cases e2 : ∃ k : Zx, inBlk (cnt 2) (cnt 0) (cnt 1) (cnt 3) k.2 ∧
            (out + (2*gridAt nd n g i j + imOff im) : Ptr) = out + 2*(nd 0*nd 1*nd 2*t) + posZ (nd 2) (nd 0) (nd 1) k
          · obtain ⟨k, hk, e3⟩ := e2
            rw [e3]; exact G1 k hk
          · rw [G2 _ (fun k hk e3 => e2 ⟨k, hk, e3⟩)]
            exact H1 n g i j im (by omega) hg hi hj
      · rw [G2 q (fun k hk e => ?_), H2 q hq]
        obtain ⟨a, b⟩ := hin t k ht hk
        rw [b] at e
        exact hq _ a e
  · rintro h' ⟨H1, H2, H3, H4, H5⟩
    refine ⟨?_, H2, H5⟩
    intro m hm
    obtain ⟨n, g, i, j, im, hn, hg, hi, hj, rfl⟩ := inGridZ_iff.1 hm
    exact H1 n g i j im hn hg hi hj

/-- the elements of a block of contracted functions in the cache -/
theorem gblk_lt (X : IntG α) (s : CallG α) {N x : Nat} (hN : N < s.sj.nctr*s.si.nctr) (hx : x < (s.envG X).nf) :
    N*(s.envG X).nf + x < dijG X s := by
  have := radix_lt hN hx
  unfold dijG
  rw [show (s.envG X).nf * (s.si.nctr*s.sj.nctr) = s.sj.nctr*s.si.nctr*(s.envG X).nf by ring]
  exact this

set_option maxHeartbeats 1600000 in
/-- CINT1e_grids_spinor_drv -/
theorem drvGridsSp_run {R : Rys2 α} {K : Consts α} {L : MathLib α} {X : IntG α} {s : CallG α}
    {w : Nat → Nat → (Nat → α) → Nat → α} {h : Heap α} {fpd sh buf size nT : Nat} {fl loc counts loc2 out : Ptr}
    {dims : Option Ptr} {nd : Nat → Nat} {tab : JTab} {kd : SpKind} {ki kj : Int}
    (M : CallMem h fpd buf size fl loc counts) (hsize : cacheSizeGrids X s ≤ size)
    (O : GOutArgZ h nd (three (lenSpinorC2S ki s.si.l*s.si.nctr) (lenSpinorC2S kj s.sj.l*s.sj.nctr) s.ngrids) nT out dims buf
      fl loc counts loc2)
    (Tb : TabArg h tab buf out) (hn : X.nComp = SpKind.e1 kd * nT)
    (hK : EvalG R K L X s w) (hic : 1 ≤ s.si.nctr) (hjc : 1 ≤ s.sj.nctr) (hnT : 1 ≤ nT)
    (hli : s.si.l < 13) (hlj : s.sj.l < 13) (hdi : 0 < lenSpinorC2S ki s.si.l) (hdj : 0 < lenSpinorC2S kj s.sj.l) :
    ∃ has h', run (drvGridsSp X s R K L (SpKind.e1 kd) nT kd tab ki kj fpd sh out dims buf 0 fl loc counts loc2) h =
        some (has, h') ∧
      (∀ n gi ic jc i j, n < nT → gi < s.ngrids → ic < s.si.nctr → jc < s.sj.nctr → i < lenSpinorC2S ki s.si.l →
        j < lenSpinorC2S kj s.sj.l →
        HoldsC h' out (gridAt nd n gi (ic*lenSpinorC2S ki s.si.l+i) (jc*lenSpinorC2S kj s.sj.l+j))
          (spinor2 kd.si kd.ph ki kj s.si.l s.sj.l (fun c a b => Cx.ofR
            (gridVal K L X s w (s.grid gi) (n*SpKind.e1 kd + c) ic jc (b*ncart s.si.l+a))) i j)) ∧
      (has = false → ∀ m, InGridBlock nd (three (lenSpinorC2S ki s.si.l*s.si.nctr) (lenSpinorC2S kj s.sj.l*s.sj.nctr) s.ngrids)
        nT (m/2) → h'.D (out + m) = .val 0) ∧
      (∀ q, q.buf ≠ buf → (∀ m, InGridBlock nd (three (lenSpinorC2S ki s.si.l*s.si.nctr) (lenSpinorC2S kj s.sj.l*s.sj.nctr)
        s.ngrids) nT (m/2) → q ≠ out + m) → h'.D q = h.D q) ∧
      (∀ q, q.buf ≠ buf → q.buf ≠ fl.buf → q.buf ≠ loc.buf → q.buf ≠ counts.buf → q.buf ≠ loc2.buf → h'.I q = h.I q) ∧
      (has = true ↔ ¬ PairEmpty L (s.pairArgsG X) ∧ gridAny L X s ∧ 0 < s.ngrids) := by
  have hf := M.fpd_pos
  have he1 : 1 ≤ SpKind.e1 kd := by unfold SpKind.e1; split <;> omega
  have hnc : 1 ≤ X.nComp := by rw [hn]; exact Nat.mul_pos he1 hnT
  obtain ⟨di, edi⟩ : ∃ d, d = lenSpinorC2S ki s.si.l := ⟨_, rfl⟩
  obtain ⟨dj, edj⟩ : ∃ d, d = lenSpinorC2S kj s.sj.l := ⟨_, rfl⟩
  rw [← edi] at O hdi ⊢
  rw [← edj] at O hdj ⊢
  obtain ⟨cnt, hcnt⟩ : ∃ c, c = three (di*s.si.nctr) (dj*s.sj.nctr) s.ngrids := ⟨_, rfl⟩
  have c0 : cnt 0 = di*s.si.nctr := by rw [hcnt]; rfl
  have c1 : cnt 1 = dj*s.sj.nctr := by rw [hcnt]; rfl
  have c2 : cnt 2 = s.ngrids := by rw [hcnt]; rfl
  have c3 : cnt 3 = 1 := by rw [hcnt]; rfl
  rw [← hcnt] at O ⊢
  have hnc' : s.ngrids * (s.envG X).nf * s.si.nctr * s.sj.nctr = dijG X s * s.ngrids := by unfold dijG; ring
  have hnf : (s.envG X).nf = ncart s.si.l * ncart s.sj.l := rfl
  obtain ⟨o, ho⟩ : ∃ o, o = alignA sh 0 + dijG X s * s.ngrids * X.nComp := ⟨_, rfl⟩
  have hroom : posEnd X s fpd sh o ≤ size := by
    have := usedG_le X s hf sh
    rw [hnc', ← ho] at this
    exact le_trans this hsize
  have hfree : o + 104*(ncart s.si.l*ncart s.sj.l)*16 + 7 ≤ size := by
    refine le_trans ?_ hsize
    unfold cacheSizeGrids
    refine le_trans ?_ (Nat.add_le_add_right (le_max_right _ _) 32)
    have h3 := (alignA_le sh 0).2.1
    rw [hnc', ← hnf]
    have e16 : 104 * (s.envG X).nf * 8 * 2 = 104*(s.envG X).nf*16 := by ring
    rw [e16]
    generalize dijG X s * s.ngrids * X.nComp = A at *
    generalize 104 * (s.envG X).nf * 16 = C at *
    omega
  have LM : GLoopMem X s h fpd sh buf size (alignA sh 0) o fl loc :=
    ⟨hf, ⟨fun k hk _ => M.dbl k hk, fun m hm _ => M.int m hm⟩, hroom, by rw [ho], M.flw, M.locw, M.flbuf, M.locbuf⟩
  have key := loopGrids_wp LM hK hic hjc hnc (by omega) (by omega)
  refine (wp_iff_run _ (fun has h' => _) _).1 ?_
  unfold drvGridsSp
  dsimp only
  rw [← edi, ← edj]
  rw [hnc']
  have em : mallocA fpd sh buf 0 (dijG X s * s.ngrids * SpKind.e1 kd * nT) = (⟨buf, alignA sh 0⟩, fpd*o) := by
    have := mallocA_eq0 hf sh buf 0 (dijG X s * s.ngrids * SpKind.e1 kd * nT)
    rw [Nat.mul_zero] at this
    rw [this, ho, hn]
    refine congrArg (fun z => ((⟨buf, alignA sh 0⟩ : Ptr), fpd*(alignA sh 0 + z))) ?_
    ring
  rw [em]
  dsimp only
  rw [wp_mbind]
  refine wp_mono (wp_allocMono key) ?_
  rintro has h1 ⟨⟨hret, hv, hz, hD, hI⟩, hm⟩
  have hrest : wp (forN 4 fun t => stI (counts + t) (cnt t)) (fun _ h2 =>
      wp (prodDims (dims.getD counts) 3 >>= fun nout =>
        (if has = true then
          forN nT fun n => c2sZGrids (shapeG X s di dj) s.ngrids (spTransGrids kd tab fpd sh s.si.l s.sj.l ki kj (dijG X s * s.ngrids) buf (fpd*o)) (out + 2*(nout*n))
            ((⟨buf, alignA sh 0⟩ : Ptr) + dijG X s * s.ngrids * SpKind.e1 kd * n) (dims.getD counts)
        else forN nT fun n => c2sGridsZset0 (out + 2*(nout*n)) (dims.getD counts) counts loc2) >>= fun _ => pure has)
        (fun has h' => (∀ n gi ic jc i j, n < nT → gi < s.ngrids → ic < s.si.nctr → jc < s.sj.nctr → i < di → j < dj →
        HoldsC h' out (gridAt nd n gi (ic*di+i) (jc*dj+j))
          (spinor2 kd.si kd.ph ki kj s.si.l s.sj.l (fun c a b => Cx.ofR
            (gridVal K L X s w (s.grid gi) (n*SpKind.e1 kd + c) ic jc (b*ncart s.si.l+a))) i j)) ∧
      (has = false → ∀ m, InGridBlock nd cnt nT (m/2) →
        h'.D (out + m) = .val 0) ∧
      (∀ q, q.buf ≠ buf → (∀ m, InGridBlock nd cnt nT (m/2) →
        q ≠ out + m) → h'.D q = h.D q) ∧
      (∀ q, q.buf ≠ buf → q.buf ≠ fl.buf → q.buf ≠ loc.buf → q.buf ≠ counts.buf → q.buf ≠ loc2.buf → h'.I q = h.I q) ∧
      (has = true ↔ ¬ PairEmpty L (s.pairArgsG X) ∧ gridAny L X s ∧ 0 < s.ngrids)) h2) h1 := by
    refine counts_wp (fun t ht => hm.I _ (M.countsw t ht)) ?_
    intro h2 eD eC eI
    have hIc : ∀ q, q.buf ≠ counts.buf → h2.I q = h1.I q := fun q hq =>
      eI q (fun t _ e => hq (by rw [e]; rfl))
    have hdm : (∀ t, t < 3 → h2.I (dims.getD counts + t) = .val (nd t)) ∧
        (∃ z, h2.I (dims.getD counts + 3) = .val z) ∧ (dims.getD counts).buf ≠ loc2.buf := by
      cases hdim : dims with
      | none =>
        have h3 := O.h_dims
        rw [hdim] at h3
        refine ⟨fun t ht => ?_, ⟨_, eC 3 (by omega)⟩, O.l2c.symm⟩
        rw [h3 t (by omega)]
        exact eC t (by omega)
      | some d =>
        have h3 := O.h_dims
        rw [hdim] at h3
        obtain ⟨b1, b2, b3, b4⟩ := O.h_dbuf d hdim
        have hh : ∀ t : Nat, h2.I (d + t) = h.I (d + t) := fun t => by
          rw [hIc (d+t) h3.2, hI (d+t) (by rintro (x | x | x) <;> [exact b1 x; exact b2 x; exact b3 x])]
        refine ⟨fun t ht => ?_, ?_, b4⟩
        · show h2.I (d + t) = _
          rw [hh]; exact h3.1 t ht
        · obtain ⟨x, hx⟩ := O.h_dims3 d hdim
          exact ⟨x, by show h2.I (d+3) = _; rw [hh]; exact hx⟩
    obtain ⟨hd, hd3, hdl⟩ := hdm
    rw [wp_mbind]
    refine prodDims_wp hd ?_
    show wp ((if has = true then _ else _) >>= fun _ => pure has) _ h2
    have e3 : (Nat.rec 1 (fun t p => p * nd t) 3 : Nat) = nd 0*nd 1*nd 2 := by
      show 1*nd 0*nd 1*nd 2 = _
      rw [Nat.one_mul]
    rw [e3, wp_mbind]
    have hal : ∀ m, InGridBlock nd cnt nT (m/2) → h2.D (out + m) ≠ .oob := fun m hm' => by
      rw [eD]; exact hm.D _ (O.h_out m hm')
    have hI2 : ∀ q, q.buf ≠ buf → q.buf ≠ fl.buf → q.buf ≠ loc.buf → q.buf ≠ counts.buf → h2.I q = h.I q := by
      intro q a b c d
      rw [hIc q d, hI q (by rintro (x | x | x) <;> [exact a x; exact b x; exact c x])]
    obtain ⟨ft0, ft1, ft2⟩ := O.fits
    cases has with
    | false =>
      rw [if_neg (by decide)]
      refine wp_mono (zset0G_loop (nT := nT) hd hd3 eC c3 (fun t ht => ?_) hdl O.l2c hal) ?_
      · rw [hIc (loc2 + t) O.l2c]; exact hm.I _ (O.l2 t ht)
      rintro _ h3 ⟨G1, G2, G3⟩
      rw [wp_pure]
      refine ⟨?_, fun _ => G1, ?_, ?_, hret⟩
      · intro n gi ic jc i j hn hg k3 h4 h5 h6
        rw [spinor2_zero (fun c a b => by rw [hz rfl _ _ _ _ gi hg]; rfl)]
        have hin : ∀ im, h3.D (out + (2*gridAt nd n gi (ic*di+i) (jc*dj+j) + imOff im)) = .val 0 := fun im =>
          G1 _ (inGridZ_iff.2 ⟨n, gi, _, _, im, hn, by omega, by rw [c0]; exact digit_lt h5 k3, by rw [c1]; exact digit_lt h6 h4, rfl⟩)
        exact ⟨hin false, hin true⟩
      · intro q hq hb
        rw [G2 q hb, eD]
        exact hD q hq
      · intro q a b c d e
        rw [G3 q e, hI2 q a b c d]
    | true =>
      rw [if_pos rfl]
      let V := gridCtr K L X s w
      let S := shapeG X s di dj
      have hH : GHolds X s h2 ⟨buf, alignA sh 0⟩ V := by
        intro c gi N hc hg hN
        rw [eD]
        have hnf : 0 < (s.envG X).nf := by
          rcases Nat.eq_zero_or_pos (s.envG X).nf with e | e
          · exfalso; unfold dijG at hN; rw [e, Nat.zero_mul] at hN; omega
          · exact e
        have hNb : N / (s.envG X).nf < s.si.nctr * s.sj.nctr := Nat.div_lt_of_lt_mul hN
        have := hv rfl c (N / (s.envG X).nf % s.si.nctr) (N / (s.envG X).nf / s.si.nctr) (N % (s.envG X).nf) gi hc
          (Nat.mod_lt _ (by omega)) (Nat.div_lt_of_lt_mul hNb) (Nat.mod_lt _ hnf) hg
        refine Eq.trans ?_ this
        congr 3
        rw [Nat.mul_comm _ s.si.nctr, Nat.div_add_mod, Nat.mul_comm, Nat.div_add_mod]
      let ok : Heap α → Prop := fun h' => (HoldsJ h' tab.R tab.I ∧ GHolds X s h' ⟨buf, alignA sh 0⟩ V ∧ ∀ k, k < size → h'.D ⟨buf, k⟩ ≠ .oob) ∧
        h'.I = h2.I ∧ ∀ m, InGridBlock nd cnt nT (m/2) → h'.D (out + m) ≠ .oob
      have hok : ok h2 := ⟨⟨holdsJ_agree (P := fun q => q.buf = buf) Tb.holds (fun q hq => by rw [eD]; exact hD q hq)
          (fun q hq => by rw [hq]; exact Tb.Rbuf.symm) (fun q hq => by rw [hq]; exact Tb.Ibuf.symm),
          hH, fun k hk => by rw [eD]; exact hm.D _ (M.dbl k hk)⟩, rfl, hal⟩
      have hin : ∀ n (k : Zx), n < nT → inGrid S s.ngrids k.2 →
          InGridBlock nd cnt nT ((2*(nd 0*nd 1*nd 2)*n + posZ (nd 2) (nd 0) (nd 1) k)/2) := by
        rintro n ⟨im, g, i, j, z⟩ hn ⟨a1, a2, a3, a4⟩
        dsimp only at a4
        obtain rfl : z = 0 := by omega
        exact inGridZ_iff.2 ⟨n, g, i, j, im, hn, by rw [c2]; exact a1, by rw [c0]; exact a2, by rw [c1]; exact a3,
          (gridAtZ_eq nd n g i j im).symm⟩
      let Y : Nat → Nat → Nat → Nat → Cx α := fun n gi N m => spinor2 kd.si kd.ph ki kj s.si.l s.sj.l
        (fun c a b => Cx.ofR (V (n*SpKind.e1 kd + c) gi (N*(s.envG X).nf + (b*ncart s.si.l + a)))) (m % di) (m / di)
      have hset : ∀ n, n < nT → SetupGZ S s.ngrids (spTransGrids kd tab fpd sh s.si.l s.sj.l ki kj (dijG X s * s.ngrids) buf (fpd*o))
          ((⟨buf, alignA sh 0⟩ : Ptr) + dijG X s * s.ngrids * SpKind.e1 kd * n)
          (out + 2*(nd 0*nd 1*nd 2)*n) (Y n) (fun q => q.buf = buf ∧ o ≤ q.off) ok (nd 2) (nd 0) (nd 1) := by
        intro n hn'
        have hob : ∀ q, (∃ k : Zx, inGrid S s.ngrids k.2 ∧ q = out + 2*(nd 0*nd 1*nd 2)*n + posZ (nd 2) (nd 0) (nd 1) k) →
            q.buf = out.buf := by
          rintro q ⟨k, hk, rfl⟩
          rfl
        refine ⟨hdi, hdj, by omega, c0 ▸ ft0, c1 ▸ ft1, ⟨?_, ?_, ?_⟩, ?_⟩
        · intro t N ht hN h' hok'
          obtain ⟨⟨k1, k2, k3⟩, _, _⟩ := hok'
          intro b
          have hb104 : b ≤ 104 := by show min _ _ ≤ _; omega
          have key2 := spTransGrids_wp (sh := sh) (k := kd) (ki := ki) (kj := kj) (n := dijG X s * s.ngrids) (b := b)
            (goff := alignA sh 0 + dijG X s * s.ngrids * SpKind.e1 kd * n + (104*t*(s.sj.nctr*s.si.nctr*(s.envG X).nf) + N*(b*(s.envG X).nf)))
            (x := fun c j i m => V (n*SpKind.e1 kd + c) (104*t+m) (N*(s.envG X).nf + (j*ncart s.si.l + i)))
            hf k1 hli hlj Tb.Rbuf Tb.Ibuf hb104 (fun k _ hk => k3 k hk) hfree (fun c hc j i m hj hi hm' => by
              have hx : j*ncart s.si.l+i < (s.envG X).nf := by
                rw [hnf, Nat.mul_comm (ncart s.si.l)]; exact radix_lt hj hi
              have hcn : n*SpKind.e1 kd + c < X.nComp := by
                rw [hn, Nat.mul_comm (SpKind.e1 kd)]; exact radix_lt hn' hc
              have e3 : alignA sh 0 + dijG X s * s.ngrids * SpKind.e1 kd * n + (104*t*(s.sj.nctr*s.si.nctr*(s.envG X).nf) +
                  N*(b*(s.envG X).nf)) + (c*(dijG X s * s.ngrids) + ((j*ncart s.si.l+i)*b+m)) =
                  alignA sh 0 + (dijG X s * s.ngrids * (n*SpKind.e1 kd + c) + (104*t*(s.sj.nctr*s.si.nctr*(s.envG X).nf) +
                    N*(b*(s.envG X).nf)) + ((j*ncart s.si.l+i)*b+m)) := by ring
              have h7 := k2.block (n := n*SpKind.e1 kd + c) hm' hcn hN hx
              have h8 := gpos_end X s hcn (bgrids_lt hm').1 (gblk_lt X s hN hx)
              rw [← gpos_block X s hm'] at h8
              refine ⟨?_, ?_⟩
              · rw [← h7]
                refine congrArg h'.D ?_
                refine congrArg (Ptr.mk buf) (e3.trans ?_)
                have e9 : ∀ a p q r : Nat, a + (p + q + r) = a + p + q + r := fun a p q r => by omega
                exact e9 _ _ _ _
              · rw [e3, ho]
                exact Nat.add_lt_add_left h8 _)
          refine wp_mono key2 ?_
          rintro tmp h3 ⟨q1, q2, q3⟩
          refine ⟨?_, q2.D, q2.I⟩
          rintro ⟨im, g, i, j, z⟩ ⟨a1, a2, a3, a4⟩
          dsimp only at a1 a2 a3 a4 ⊢
          obtain rfl : z = 0 := by omega
          refine ⟨?_, fun hq => O.h_obuf (by rw [← hob _ hq]; exact q3 im)⟩
          have a2' : i < di := a2
          have := q1 im j i g (by rw [← edj]; exact a3) (by rw [← edi]; exact a2) a1
          rw [← edi] at this
          show h3.D (side tmp im + (((0*dj + j)*di + i)*b + g)) = .val (part (spinor2 kd.si kd.ph ki kj s.si.l s.sj.l
            (fun c a b => Cx.ofR (V (n*SpKind.e1 kd + c) (104*t+g) (N*(s.envG X).nf + (b*ncart s.si.l + a)))) ((j*di+i) % di) ((j*di+i) / di)) im)
          rw [Nat.zero_mul, Nat.zero_add, (digit a2').1, (digit a2').2]
          exact this
        · intro h' h3 hok' hA hM hI'
          obtain ⟨⟨k1, k2, k3⟩, k4, k5⟩ := hok'
          refine ⟨⟨holdsJ_agree k1 hA ?_ ?_, k2.agree hA ho (fun q hq => hq.imp id (fun x => by rw [hob q x]; exact O.h_obuf)),
            fun k hk => hM _ (k3 k hk)⟩, by rw [hI', k4], fun m hm' => hM _ (k5 m hm')⟩
          · rintro q (⟨hw, _⟩ | hq)
            · rw [hw]; exact Tb.Rbuf.symm
            · rw [hob q hq]; exact Tb.Rout.symm
          · rintro q (⟨hw, _⟩ | hq)
            · rw [hw]; exact Tb.Ibuf.symm
            · rw [hob q hq]; exact Tb.Iout.symm
        · intro q hw hq
          exact O.h_obuf (by rw [← hob q hq]; exact hw.1)
        · intro h' hok' k hk
          rw [Ptr.add_assoc]
          exact hok'.2.2 _ (hin n k hn' hk)
      have eo : ∀ n, out + 2*(nd 0*nd 1*nd 2*n) = out + 2*(nd 0*nd 1*nd 2)*n := fun n => by rw [Nat.mul_assoc 2]
      simp only [eo]
      have hW := compZ_writes (nComp := nT) (nout := 2*(nd 0*nd 1*nd 2)) (out := out) (P := fun k : Zx => inGrid S s.ngrids k.2)
        (ad := posZ (nd 2) (nd 0) (nd 1)) (v := fun n k => part (Y n k.2.1 (gBlk S k.2) (gCell S k.2)) k.1)
        (W := fun q => q.buf = buf ∧ o ≤ q.off) (ok := ok)
        (f := fun n => c2sZGrids S s.ngrids (spTransGrids kd tab fpd sh s.si.l s.sj.l ki kj (dijG X s * s.ngrids) buf (fpd*o))
          (out + 2*(nd 0*nd 1*nd 2)*n)
          ((⟨buf, alignA sh 0⟩ : Ptr) + dijG X s * s.ngrids * SpKind.e1 kd * n) (dims.getD counts))
        (fun n k hn hk hw => O.h_obuf hw.1)
        (by
          rintro ⟨im, g, i, j, z⟩ ⟨a1, a2, a3, a4⟩
          dsimp only at a1 a2 a3 a4
          have := pos4_lt (ni := nd 2) (nj := nd 0) (nk := nd 1) (nl := 1) (k := (g,i,j,z)) (by omega)
            (by show i < nd 0; exact lt_of_lt_of_le a2 (c0 ▸ ft0)) (by show j < nd 1; exact lt_of_lt_of_le a3 (c1 ▸ ft1)) a4
          have e := imOff_lt im
          have e2 : nd 2 * nd 0 * nd 1 * 1 = nd 0*nd 1*nd 2 := by ring
          rw [e2] at this
          unfold posZ
          dsimp only
          omega)
        (by
          rintro ⟨im, g, i, j, z⟩ ⟨im', g', i', j', z'⟩ ⟨a1, a2, a3, a4⟩ ⟨b1, b2, b3, b4⟩ e
          have e0 : S.di*S.ic = cnt 0 := c0.symm
          have e1 : S.dj*S.jc = cnt 1 := c1.symm
          rw [e0] at a2 b2
          rw [e1] at a3 b3
          exact posZ_inj (by omega) (by omega) (by omega) (by omega) (by omega) (by omega) e)
        (fun n hn => (hset n hn).stable (fun k hk => hk) _)
        (fun n hn => c2sZGrids_writes (hset n hn) (fun h' hok' => by
          rw [hok'.2.1]
          refine ⟨?_, hd 1 (by omega), hd 2 (by omega)⟩
          have := hd 0 (by omega)
          rw [Ptr.add_zero] at this
          exact this)) h2 hok
      refine wp_mono hW ?_
      rintro _ h3 ⟨_, HW⟩
      rw [wp_pure]
      refine ⟨?_, fun x => Bool.noConfusion x, ?_, ?_, hret⟩
      · intro n gi ic jc i j hn hg k1 k2 k3 k4
        have hk : inGrid S s.ngrids (gi, ic*di+i, jc*dj+j, 0) := ⟨hg, digit_lt k3 k1, digit_lt k4 k2, Nat.zero_lt_one⟩
        have hval : ∀ im, h3.D (out + (2*gridAt nd n gi (ic*di+i) (jc*dj+j) + imOff im)) =
            .val (part (spinor2 kd.si kd.ph ki kj s.si.l s.sj.l (fun c a b => Cx.ofR
              (gridVal K L X s w (s.grid gi) (n*SpKind.e1 kd + c) ic jc (b*ncart s.si.l+a))) i j) im) := by
          intro im
          have := HW.val (n, (im, gi, ic*di+i, jc*dj+j, 0)) ⟨hn, hk⟩
          dsimp only at this
          rw [gridAtZ_eq, ← Ptr.add_assoc, this]
          unfold gBlk gCell
          show Cell.val (part (Y n gi ((jc*dj+j)/dj*s.si.nctr + (ic*di+i)/di) ((jc*dj+j)%dj*di + (ic*di+i)%di)) im) = _
          rw [(digit k3).1, (digit k3).2, (digit k4).1, (digit k4).2]
          congr 2
          show spinor2 kd.si kd.ph ki kj s.si.l s.sj.l _ ((j*di+i) % di) ((j*di+i) / di) = _
          rw [(digit k3).1, (digit k3).2]
          unfold spinor2
          congr 1
          refine Finset.sum_congr rfl fun a ha => Finset.sum_congr rfl fun b hb => ?_
          have hx : b * ncart s.si.l + a < (s.envG X).nf := by
            rw [hnf, Nat.mul_comm (ncart s.si.l)]
            exact radix_lt (Finset.mem_range.1 hb) (Finset.mem_range.1 ha)
          refine Finset.sum_congr rfl fun p _ => Finset.sum_congr rfl fun q _ => ?_
          have e5 : ∀ c, V c gi ((jc*s.si.nctr+ic)*(s.envG X).nf + (b*ncart s.si.l+a)) =
              gridVal K L X s w (s.grid gi) c ic jc (b*ncart s.si.l+a) := by
            intro c
            show gridCtr K L X s w c gi _ = _
            unfold gridCtr
            rw [(digit hx).1, (digit hx).2, (digit k1).1, (digit k1).2]
          simp only [e5]
        exact ⟨hval false, hval true⟩
      · intro q hq hb
        rw [HW.frame q (fun x => hq x.1) ?_, eD]
        · exact hD q hq
        · rintro ⟨n, k⟩ ⟨hn, hk⟩ e
          rw [Ptr.add_assoc] at e
          exact hb _ (hin n k hn hk) e
      · intro q a b c d e
        rw [HW.int, hI2 q a b c d]
  simp only [forN, forS, wp_mbind, wp_bind, wp_pure, wp_stI, Ptr.add_zero, c0, c1, c2, c3, Nat.cast_one] at hrest
  obtain ⟨a1, a2, a3, a4, a5⟩ := hrest
  simp only [wp_mbind, wp_stI]
  refine ⟨a1, a2, a3, a4, wp_mono a5 ?_⟩
  intro nout h' H
  cases has with
  | false =>
    rw [if_neg (by decide)] at H ⊢
    rw [wp_mbind]
    exact H
  | true =>
    rw [if_pos rfl] at H ⊢
    rw [wp_mbind]
    exact H

end Verif.Lemmas
