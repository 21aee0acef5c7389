import Verif.Lemmas.GridsOut
import Verif.Lemmas.GridsLoop
import Verif.Lemmas.DrvOut
import Verif.Lemmas.SphBlock

/-! CINT1e_grids_drv: the loop followed by the output stage. -/
namespace Verif.Lemmas
open Verif Verif.Model Verif.Prog Verif.Props Verif.Spec

variable {α : Type} [Field α] [LinearOrder α]

/-- the sizes of a call on a list of points -/
def three (x y z : Nat) (t : Nat) : Nat := if t = 0 then x else if t = 1 then y else if t = 2 then z else 1

/-- The caller's output array and `dims` (which must have a fourth element, as c2s_grids_dset0 reads it). -/
structure GOutArg (h : Heap α) (nd cnt : Nat → Nat) (nComp : Nat) (out : Ptr) (dims : Option Ptr)
    (buf : Nat) (fl loc counts loc2 : Ptr) : Prop where
  h_dims : DimsArg 3 h dims counts nd cnt
  h_dims3 : ∀ d, dims = some d → ∃ x, h.I (d + 3) = .val x
  h_dbuf : ∀ d, dims = some d → d.buf ≠ buf ∧ d.buf ≠ fl.buf ∧ d.buf ≠ loc.buf ∧ d.buf ≠ loc2.buf
  fits : cnt 0 ≤ nd 0 ∧ cnt 1 ≤ nd 1 ∧ cnt 2 ≤ nd 2
  h_out : ∀ m, InGridBlock nd cnt nComp m → h.D (out + m) ≠ .oob
  h_obuf : out.buf ≠ buf
  l2 : ∀ t, t < 8 → h.I (loc2 + t) ≠ .oob
  l2c : loc2.buf ≠ counts.buf

theorem gridAt_pos4 (nd : Nat → Nat) (n g i j : Nat) :
    gridAt nd n g i j = nd 0*nd 1*nd 2*n + pos4 (nd 2) (nd 0) (nd 1) (g,i,j,0) := by
  unfold gridAt pos4; ring

set_option maxRecDepth 8000 in
theorem usedG_arith {T U E o L np P P' dI dT al NC leng LJ LI LO i3 pi pj r M : Nat} (a1 : T ≤ E + 7) (a2 : U ≤ T + (L + 104*3) + 7)
    (eI : E = o + np + P + dI + dT) (eL : L = leng + LJ + LI + LO) (d1 : dI ≤ i3) (d2 : dT ≤ np + pi + pj)
    (a0 : al ≤ 0 + 7) (hm : r + 104*10 ≤ M) (eo : o = al + NC) (eP : P = P') :
    U + (r + 728) ≤ NC + leng + LO + LI + LJ + (P' + pi + pj + np*2 + i3) + M + 32 := by
  omega

/-- the part of the cache used by the loop -/
theorem usedG_le (X : IntG α) (s : CallG α) {fpd : Nat} (hf : 0 < fpd) (sh : Nat) :
    posEnd X s fpd sh (alignA sh 0 + s.ngrids * (s.envG X).nf * s.si.nctr * s.sj.nctr * X.nComp) ≤ cacheSizeGrids X s := by
  have d1 := dblOf_le hf ((s.envG X).nf * 3)
  have d2 := dblOf_le hf s.tblLen
  have a0 := (alignA_le sh 0).2.1
  have eL : s.lenG X = s.lengG X + 104 * (s.envG X).nf * X.nComp * s.si.nctr * s.sj.nctr
      + 104 * (s.envG X).nf * X.nComp * s.si.nctr + 104 * (s.envG X).nf * X.nComp := by
    unfold CallG.lenG; ring
  have hm' : 104*((s.envG X).nrys_roots + 10) ≤ 104*max X.nComp ((s.envG X).nrys_roots + 10) :=
    Nat.mul_le_mul_left _ (le_max_right _ _)
  have a1 : ∀ o, posT X s fpd sh o ≤ _ := fun o => (alignA_le sh (posEndI X s fpd o)).2.1
  have a2 : ∀ o, posU X s fpd sh o ≤ _ := fun o => (alignA_le sh (posT X s fpd sh o + (s.lenG X + 104*3))).2.1
  have eI : ∀ o, posEndI X s fpd o = o + (s.si.nprim + s.sj.nprim) + 5 * (s.si.nprim * s.sj.nprim) +
      dblOf fpd ((s.envG X).nf * 3) + dblOf fpd s.tblLen := fun o => rfl
  unfold cacheSizeGrids posEnd
  dsimp only
  refine le_trans ?_ (Nat.add_le_add_right (le_max_left _ _) 32)
  rw [Nat.mul_add] at hm'
  exact usedG_arith (a1 _) (a2 _) (eI _) eL d1 (d2 : _ ≤ s.si.nprim + s.sj.nprim + s.si.nprim * s.si.nctr + s.sj.nprim * s.sj.nctr)
    a0 hm' rfl (Nat.mul_comm _ _)

/-- the contracted Cartesian integrals in the cache: component, point, function -/
def GHolds (X : IntG α) (s : CallG α) (h : Heap α) (g : Ptr) (V : Nat → Nat → Nat → α) : Prop :=
  ∀ c gi N, c < X.nComp → gi < s.ngrids → N < dijG X s →
    h.D (g + gpos s.ngrids (dijG X s) (104*(gi/104)) c N (gi%104)) = .val (V c gi N)

/-- shape of the blocks -/
def shapeG (X : IntG α) (s : CallG α) (di dj : Nat) : Shape :=
  { ic := s.si.nctr, jc := s.sj.nctr, di := di, dj := dj, nf := (s.envG X).nf }

/-- the contracted integrals in the order of the cache -/
def gridCtr (K : Consts α) (L : MathLib α) (X : IntG α) (s : CallG α) (w : Nat → Nat → (Nat → α) → Nat → α)
    (c gi N : Nat) : α :=
  gridVal K L X s w (s.grid gi) c (N / (s.envG X).nf % s.si.nctr) (N / (s.envG X).nf / s.si.nctr) (N % (s.envG X).nf)

/-- the zero block -/
theorem dset0G_loop {X : IntG α} {out dims counts loc2 : Ptr} {nd cnt : Nat → Nat} {h : Heap α}
    (hd : ∀ t, t < 3 → h.I (dims + t) = .val (nd t)) (hd3 : ∃ z, h.I (dims + 3) = .val z)
    (hc : ∀ t, t < 4 → h.I (counts + t) = .val (cnt t)) (hc3 : cnt 3 = 1) (hl : ∀ t, t < 8 → h.I (loc2 + t) ≠ .oob)
    (hdl : dims.buf ≠ loc2.buf) (hcl : loc2.buf ≠ counts.buf)
    (hal : ∀ m, InGridBlock nd cnt X.nComp m → h.D (out + m) ≠ .oob) :
    wp (forN X.nComp fun n => c2sGridsDset0 (out + nd 0*nd 1*nd 2*n) dims counts loc2) (fun _ h' =>
      (∀ m, InGridBlock nd cnt X.nComp m → h'.D (out + m) = .val 0) ∧
      (∀ q, (∀ m, InGridBlock nd cnt X.nComp m → q ≠ out + m) → h'.D q = h.D q) ∧
      ∀ q, q.buf ≠ loc2.buf → h'.I q = h.I q) h := by
  have hpos : ∀ n g i j, (out + gridAt nd n g i j : Ptr) = out + nd 0*nd 1*nd 2*n + pos4 (nd 2) (nd 0) (nd 1) (g,i,j,0) := by
    intro n g i j
    rw [gridAt_pos4, Ptr.add_assoc]
  have hin : ∀ n k, n < X.nComp → inBlk (cnt 2) (cnt 0) (cnt 1) (cnt 3) k →
      InGridBlock nd cnt X.nComp (gridAt nd n k.1 k.2.1 k.2.2.1) ∧
      out + nd 0*nd 1*nd 2*n + pos4 (nd 2) (nd 0) (nd 1) k = out + gridAt nd n k.1 k.2.1 k.2.2.1 := by
    rintro n ⟨g, i, j, z⟩ hn ⟨h1, h2, h3, h4⟩
    dsimp only at h4
    rw [hc3] at h4
    obtain rfl : z = 0 := by omega
    exact ⟨⟨n, g, i, j, hn, h1, h2, h3, rfl⟩, (hpos n g i j).symm⟩
  refine wp_forN (fun t h' =>
      (∀ n g i j, n < t → g < cnt 2 → i < cnt 0 → j < cnt 1 → h'.D (out + gridAt nd n g i j) = .val 0) ∧
      (∀ q, (∀ m, InGridBlock nd cnt X.nComp m → q ≠ out + m) → h'.D q = h.D q) ∧
      (∀ q, h.D q ≠ .oob → h'.D q ≠ .oob) ∧ (∀ t, t < 8 → h'.I (loc2 + t) ≠ .oob) ∧
      ∀ q, q.buf ≠ loc2.buf → h'.I q = h.I q)
    ⟨fun n g i j hn => by omega, fun _ _ => rfl, fun _ x => x, hl, fun _ _ => rfl⟩ ?_ ?_
  · rintro t ht h1 ⟨H1, H2, H3, H4, H5⟩
    refine wp_mono (c2sGridsDset0_wp (nd := nd) (cnt := cnt) (fun t ht => ?_) ?_ (fun t ht => ?_) H4 hdl ?_) ?_
    · rw [H5 (dims + t) hdl]; exact hd t ht
    · rw [H5 (dims + 3) hdl]; exact hd3
    · rw [H5 (counts + t) hcl.symm]; exact hc t ht
    · intro k hk
      obtain ⟨a, b⟩ := hin t k ht hk
      rw [b]
      exact H3 _ (hal _ a)
    · rintro _ h2 ⟨G1, G2, G3, G4, G5⟩
      refine ⟨fun n g i j hn hg hi hj => ?_, fun q hq => ?_, fun q hq => G3 q (H3 q hq), G4, fun q hq => by rw [G5 q hq, H5 q hq]⟩
      · by_cases e : n = t
        · subst e
          rw [hpos]
          exact G1 (g,i,j,0) ⟨hg, hi, hj, by show 0 < cnt 3; omega⟩
        · by_cases e2 : ∃ k, inBlk (cnt 2) (cnt 0) (cnt 1) (cnt 3) k ∧
            (out + gridAt nd n g i j : Ptr) = out + nd 0*nd 1*nd 2*t + pos4 (nd 2) (nd 0) (nd 1) k
          · obtain ⟨k, hk, e3⟩ := e2
            rw [e3]; exact G1 k hk
          · rw [G2 _ (fun k hk e3 => e2 ⟨k, hk, e3⟩)]
            exact H1 n g i j (by omega) hg hi hj
      · rw [G2 q (fun k hk e => ?_), H2 q hq]
        obtain ⟨a, b⟩ := hin t k ht hk
        rw [b] at e
        exact hq _ a e
  · rintro h' ⟨H1, H2, H3, H4, H5⟩
    refine ⟨?_, H2, H5⟩
    rintro m ⟨n, g, i, j, hn, hg, hi, hj, rfl⟩
    exact H1 n g i j hn hg hi hj

/-- The driver, for any block transformation: `Y V n gi N m` is element `m` of the transform of block `N` of
contracted functions of point `gi`, component `n`. -/
theorem drvGrids_run {R : Rys2 α} {K : Consts α} {L : MathLib α} {X : IntG α} {s : CallG α}
    {w : Nat → Nat → (Nat → α) → Nat → α} {h : Heap α} {fpd sh buf size : Nat} {fl loc counts loc2 out : Ptr}
    {dims : Option Ptr} {nd : Nat → Nat} {trans : Nat → Nat → Nat → Ptr → Prog α Ptr} {di dj : Nat}
    {Y : (Nat → Nat → Nat → α) → Nat → Nat → Nat → Nat → α} {E : Heap α → Prop} {OutP : Ptr → Prop}
    (M : CallMem h fpd buf size fl loc counts) (hsize : cacheSizeGrids X s ≤ size)
    (hdi : 0 < di) (hdj : 0 < dj)
    (O : GOutArg h nd (three (di*s.si.nctr) (dj*s.sj.nctr) s.ngrids) X.nComp out dims buf fl loc counts loc2)
    (hK : EvalG R K L X s w) (hic : 1 ≤ s.si.nctr) (hjc : 1 ≤ s.sj.nctr) (hnc : 1 ≤ X.nComp)
    (hli : s.si.l ≤ 15) (hlj : s.sj.l ≤ 15)
    (hT : ∀ V n, n < X.nComp →
      let o := alignA sh 0 + dijG X s * s.ngrids * X.nComp
      TransGOK (trans buf (fpd * o)) ((⟨buf, alignA sh 0⟩ : Ptr) + dijG X s * s.ngrids * n) (shapeG X s di dj) s.ngrids
        (Y V n) (fun q => q.buf = buf ∧ o ≤ q.off) OutP
        (fun h' => E h' ∧ GHolds X s h' ⟨buf, alignA sh 0⟩ V ∧ ∀ k, k < size → h'.D ⟨buf, k⟩ ≠ .oob))
    (hE : ∀ h', (∀ q, q.buf ≠ buf → h'.D q = h.D q) → E h')
    (hOut : ∀ m, InGridBlock nd (three (di*s.si.nctr) (dj*s.sj.nctr) s.ngrids) X.nComp m → OutP (out + m))
    (hY0 : ∀ V gi, (∀ c N, V c gi N = 0) → ∀ n N m, Y V n gi N m = 0) :
    ∃ has h', run (drvGrids X s R K L fpd sh trans (two di dj) out dims buf 0 fl loc counts loc2) h = some (has, h') ∧
      (∀ n gi ic jc i j, n < X.nComp → gi < s.ngrids → ic < s.si.nctr → jc < s.sj.nctr → i < di → j < dj →
        h'.D (out + gridAt nd n gi (ic*di+i) (jc*dj+j)) =
          .val (Y (gridCtr K L X s w) n gi (jc*s.si.nctr+ic) (j*di+i))) ∧
      (has = false → ∀ m, InGridBlock nd (three (di*s.si.nctr) (dj*s.sj.nctr) s.ngrids) X.nComp m →
        h'.D (out + m) = .val 0) ∧
      (∀ q, q.buf ≠ buf → (∀ m, InGridBlock nd (three (di*s.si.nctr) (dj*s.sj.nctr) s.ngrids) X.nComp m →
        q ≠ out + m) → h'.D q = h.D q) ∧
      (∀ q, q.buf ≠ buf → q.buf ≠ fl.buf → q.buf ≠ loc.buf → q.buf ≠ counts.buf → q.buf ≠ loc2.buf → h'.I q = h.I q) ∧
      (has = true ↔ ¬ PairEmpty L (s.pairArgsG X) ∧ gridAny L X s ∧ 0 < s.ngrids) := by
  have hf := M.fpd_pos
  obtain ⟨cnt, hcnt⟩ : ∃ c, c = three (di*s.si.nctr) (dj*s.sj.nctr) s.ngrids := ⟨_, rfl⟩
  have c0 : cnt 0 = di*s.si.nctr := by rw [hcnt]; rfl
  have c1 : cnt 1 = dj*s.sj.nctr := by rw [hcnt]; rfl
  have c2 : cnt 2 = s.ngrids := by rw [hcnt]; rfl
  have c3 : cnt 3 = 1 := by rw [hcnt]; rfl
  rw [← hcnt] at O hOut ⊢
  have hnc' : s.ngrids * (s.envG X).nf * s.si.nctr * s.sj.nctr = dijG X s * s.ngrids := by unfold dijG; ring
  obtain ⟨o, ho⟩ : ∃ o, o = alignA sh 0 + dijG X s * s.ngrids * X.nComp := ⟨_, rfl⟩
  have hroom : posEnd X s fpd sh o ≤ size := by
    have := usedG_le X s hf sh
    rw [hnc', ← ho] at this
    exact le_trans this hsize
  have LM : GLoopMem X s h fpd sh buf size (alignA sh 0) o fl loc :=
    ⟨hf, ⟨fun k hk _ => M.dbl k hk, fun m hm _ => M.int m hm⟩, hroom, by rw [ho], M.flw, M.locw, M.flbuf, M.locbuf⟩
  have key := loopGrids_wp LM hK hic hjc hnc hli hlj
  refine (wp_iff_run _ (fun has h' => _) _).1 ?_
  unfold drvGrids
  dsimp only
  rw [hnc']
  have em : mallocA fpd sh buf 0 (dijG X s * s.ngrids * X.nComp) = (⟨buf, alignA sh 0⟩, fpd*o) := by
    have := mallocA_eq0 hf sh buf 0 (dijG X s * s.ngrids * X.nComp)
    rw [Nat.mul_zero] at this
    rw [this, ho]
  rw [em]
  dsimp only
  rw [wp_mbind]
  refine wp_mono (wp_allocMono key) ?_
  rintro has h1 ⟨⟨hret, hv, hz, hD, hI⟩, hm⟩
  have hrest : wp (forN 4 fun t => stI (counts + t) (cnt t)) (fun _ h2 =>
      wp (prodDims (dims.getD counts) 3 >>= fun nout =>
        (if has = true then
          forN X.nComp fun n => c2sGrids (shapeG X s di dj) s.ngrids (trans buf (fpd*o)) (out + nout*n)
            ((⟨buf, alignA sh 0⟩ : Ptr) + dijG X s * s.ngrids * n) (dims.getD counts)
        else forN X.nComp fun n => c2sGridsDset0 (out + nout*n) (dims.getD counts) counts loc2) >>= fun _ => pure has)
        (fun has h' => (∀ n gi ic jc i j, n < X.nComp → gi < s.ngrids → ic < s.si.nctr → jc < s.sj.nctr → i < di → j < dj →
        h'.D (out + gridAt nd n gi (ic*di+i) (jc*dj+j)) =
          .val (Y (gridCtr K L X s w) n gi (jc*s.si.nctr+ic) (j*di+i))) ∧
      (has = false → ∀ m, InGridBlock nd cnt X.nComp m →
        h'.D (out + m) = .val 0) ∧
      (∀ q, q.buf ≠ buf → (∀ m, InGridBlock nd cnt X.nComp m →
        q ≠ out + m) → h'.D q = h.D q) ∧
      (∀ q, q.buf ≠ buf → q.buf ≠ fl.buf → q.buf ≠ loc.buf → q.buf ≠ counts.buf → q.buf ≠ loc2.buf → h'.I q = h.I q) ∧
      (has = true ↔ ¬ PairEmpty L (s.pairArgsG X) ∧ gridAny L X s ∧ 0 < s.ngrids)) h2) h1 := by
    refine counts_wp (fun t ht => hm.I _ (M.countsw t ht)) ?_
    intro h2 eD eC eI
    have hIc : ∀ q, q.buf ≠ counts.buf → h2.I q = h1.I q := fun q hq =>
      eI q (fun t _ e => hq (by rw [e]; rfl))
    have hdm : (∀ t, t < 3 → h2.I (dims.getD counts + t) = .val (nd t)) ∧
        (∃ z, h2.I (dims.getD counts + 3) = .val z) ∧ (dims.getD counts).buf ≠ loc2.buf := by
      cases hdim : dims with
      | none =>
        have h3 := O.h_dims
        rw [hdim] at h3
        refine ⟨fun t ht => ?_, ⟨_, eC 3 (by omega)⟩, O.l2c.symm⟩
        rw [h3 t (by omega)]
        exact eC t (by omega)
      | some d =>
        have h3 := O.h_dims
        rw [hdim] at h3
        obtain ⟨b1, b2, b3, b4⟩ := O.h_dbuf d hdim
        have hh : ∀ t : Nat, h2.I (d + t) = h.I (d + t) := fun t => by
          rw [hIc (d+t) h3.2, hI (d+t) (by rintro (x | x | x) <;> [exact b1 x; exact b2 x; exact b3 x])]
        refine ⟨fun t ht => ?_, ?_, b4⟩
        · show h2.I (d + t) = _
          rw [hh]; exact h3.1 t ht
        · obtain ⟨x, hx⟩ := O.h_dims3 d hdim
          exact ⟨x, by show h2.I (d+3) = _; rw [hh]; exact hx⟩
    obtain ⟨hd, hd3, hdl⟩ := hdm
    rw [wp_mbind]
    refine prodDims_wp hd ?_
    show wp ((if has = true then _ else _) >>= fun _ => pure has) _ h2
    have e3 : (Nat.rec 1 (fun t p => p * nd t) 3 : Nat) = nd 0*nd 1*nd 2 := by
      show 1*nd 0*nd 1*nd 2 = _
      rw [Nat.one_mul]
    rw [e3, wp_mbind]
    have hal : ∀ m, InGridBlock nd cnt X.nComp m → h2.D (out + m) ≠ .oob := fun m hm' => by
      rw [eD]; exact hm.D _ (O.h_out m hm')
    have hI2 : ∀ q, q.buf ≠ buf → q.buf ≠ fl.buf → q.buf ≠ loc.buf → q.buf ≠ counts.buf → h2.I q = h.I q := by
      intro q a b c d
      rw [hIc q d, hI q (by rintro (x | x | x) <;> [exact a x; exact b x; exact c x])]
    obtain ⟨ft0, ft1, ft2⟩ := O.fits
    cases has with
    | false =>
      rw [if_neg (by decide)]
      refine wp_mono (dset0G_loop (X := X) hd hd3 eC c3 (fun t ht => ?_) hdl O.l2c hal) ?_
      · rw [hIc (loc2 + t) O.l2c]; exact hm.I _ (O.l2 t ht)
      rintro _ h3 ⟨G1, G2, G3⟩
      rw [wp_pure]
      refine ⟨?_, fun _ => G1, ?_, ?_, hret⟩
      · intro n gi ic jc i j hn hg k3 h4 h5 h6
        rw [hY0 (gridCtr K L X s w) gi (fun c N => hz rfl _ _ _ _ gi hg)]
        exact G1 _ ⟨n, gi, _, _, hn, by omega, by rw [c0]; exact digit_lt h5 k3, by rw [c1]; exact digit_lt h6 h4, rfl⟩
      · intro q hq hb
        rw [G2 q hb, eD]
        exact hD q hq
      · intro q a b c d e
        rw [G3 q e, hI2 q a b c d]
    | true =>
      rw [if_pos rfl]
      let V := gridCtr K L X s w
      let S := shapeG X s di dj
      have hH : GHolds X s h2 ⟨buf, alignA sh 0⟩ V := by
        intro c gi N hc hg hN
        rw [eD]
        have hnf : 0 < (s.envG X).nf := by
          rcases Nat.eq_zero_or_pos (s.envG X).nf with e | e
          · exfalso; unfold dijG at hN; rw [e, Nat.zero_mul] at hN; omega
          · exact e
        have hNb : N / (s.envG X).nf < s.si.nctr * s.sj.nctr := Nat.div_lt_of_lt_mul hN
        have := hv rfl c (N / (s.envG X).nf % s.si.nctr) (N / (s.envG X).nf / s.si.nctr) (N % (s.envG X).nf) gi hc
          (Nat.mod_lt _ (by omega)) (Nat.div_lt_of_lt_mul hNb) (Nat.mod_lt _ hnf) hg
        refine Eq.trans ?_ this
        congr 3
        rw [Nat.mul_comm _ s.si.nctr, Nat.div_add_mod, Nat.mul_comm, Nat.div_add_mod]
      let ok : Heap α → Prop := fun h' => (E h' ∧ GHolds X s h' ⟨buf, alignA sh 0⟩ V ∧ ∀ k, k < size → h'.D ⟨buf, k⟩ ≠ .oob) ∧
        h'.I = h2.I ∧ ∀ m, InGridBlock nd cnt X.nComp m → h'.D (out + m) ≠ .oob
      have hok : ok h2 := ⟨⟨hE h2 (fun q hq => by rw [eD]; exact hD q hq), hH, fun k hk => by rw [eD]; exact hm.D _ (M.dbl k hk)⟩,
        rfl, hal⟩
      have hin : ∀ n k, n < X.nComp → inGrid S s.ngrids k → InGridBlock nd cnt X.nComp (nd 0*nd 1*nd 2*n + pos4 (nd 2) (nd 0) (nd 1) k) := by
        rintro n ⟨g, i, j, z⟩ hn ⟨a1, a2, a3, a4⟩
        dsimp only at a4
        obtain rfl : z = 0 := by omega
        exact ⟨n, g, i, j, hn, by rw [c2]; exact a1, by rw [c0]; exact a2, by rw [c1]; exact a3, (gridAt_pos4 nd n g i j).symm⟩
      have hset : ∀ n, n < X.nComp → SetupG S s.ngrids (trans buf (fpd*o)) ((⟨buf, alignA sh 0⟩ : Ptr) + dijG X s * s.ngrids * n)
          (out + nd 0*nd 1*nd 2*n) (Y V n) (fun q => q.buf = buf ∧ o ≤ q.off) ok (nd 2) (nd 0) (nd 1) := by
        intro n hn
        have T := hT V n hn
        rw [← ho] at T
        have hsub : ∀ q, (∃ k, inGrid S s.ngrids k ∧ q = out + nd 0*nd 1*nd 2*n + pos4 (nd 2) (nd 0) (nd 1) k) → OutP q := by
          rintro q ⟨k, hk, rfl⟩
          rw [Ptr.add_assoc]
          exact hOut _ (hin n k hn hk)
        refine ⟨hdi, hdj, by omega, c0 ▸ ft0, c1 ▸ ft1, ⟨?_, ?_, ?_⟩, ?_⟩
        · intro t N ht hN h' hok'
          refine wp_mono (T.step t N ht hN h' hok'.1) ?_
          rintro tmp h3 ⟨a, b⟩
          exact ⟨fun k hk => ⟨(a k hk).1, fun hx => (a k hk).2 (hsub _ hx)⟩, b⟩
        · intro h' h3 hok' hA hM hI'
          exact ⟨T.keep h' h3 hok'.1 (hA.mono (fun q hq => hq.imp id (hsub q))) hM hI', by rw [hI', hok'.2.1],
            fun m hm' => hM _ (hok'.2.2 m hm')⟩
        · intro q hw hq
          exact T.sep q hw (hsub q hq)
        · intro h' hok' k hk
          rw [Ptr.add_assoc]
          exact hok'.2.2 _ (hin n k hn hk)
      have hW := comp_writes (nComp := X.nComp) (nout := nd 0*nd 1*nd 2) (out := out) (P := inGrid S s.ngrids)
        (ad := pos4 (nd 2) (nd 0) (nd 1)) (v := fun n k => Y V n k.1 (gBlk S k) (gCell S k))
        (W := fun q => q.buf = buf ∧ o ≤ q.off) (ok := ok)
        (f := fun n => c2sGrids S s.ngrids (trans buf (fpd*o)) (out + nd 0*nd 1*nd 2*n)
          ((⟨buf, alignA sh 0⟩ : Ptr) + dijG X s * s.ngrids * n) (dims.getD counts))
        (fun n k hn hk hw => O.h_obuf hw.1)
        (by
          rintro ⟨g, i, j, z⟩ ⟨a1, a2, a3, a4⟩
          dsimp only at a1 a2 a3 a4
          have := pos4_lt (ni := nd 2) (nj := nd 0) (nk := nd 1) (nl := 1) (k := (g,i,j,z)) (by omega)
            (by show i < nd 0; exact lt_of_lt_of_le a2 (c0 ▸ ft0)) (by show j < nd 1; exact lt_of_lt_of_le a3 (c1 ▸ ft1)) a4
          refine lt_of_lt_of_le this (le_of_eq (by ring)))
        (by
          rintro ⟨g, i, j, z⟩ ⟨g', i', j', z'⟩ ⟨a1, a2, a3, a4⟩ ⟨b1, b2, b3, b4⟩ e
          have e0 : S.di*S.ic = cnt 0 := c0.symm
          have e1 : S.dj*S.jc = cnt 1 := c1.symm
          rw [e0] at a2 b2
          rw [e1] at a3 b3
          exact pos4_inj (by omega) (by omega) (by omega) (by omega) (by omega) (by omega) e)
        (fun n hn => (hset n hn).stable (fun k hk => hk) _)
        (fun n hn => c2sGrids_writes (hset n hn) (fun h' hok' => by
          rw [hok'.2.1]
          refine ⟨?_, hd 1 (by omega), hd 2 (by omega)⟩
          have := hd 0 (by omega)
          rw [Ptr.add_zero] at this
          exact this)) h2 hok
      refine wp_mono hW ?_
      rintro _ h3 ⟨_, HW⟩
      rw [wp_pure]
      refine ⟨?_, fun x => Bool.noConfusion x, ?_, ?_, hret⟩
      · intro n gi ic jc i j hn hg k1 k2 k3 k4
        have hk : inGrid S s.ngrids (gi, ic*di+i, jc*dj+j, 0) := ⟨hg, digit_lt k3 k1, digit_lt k4 k2, Nat.zero_lt_one⟩
        have := HW.val (n, (gi, ic*di+i, jc*dj+j, 0)) ⟨hn, hk⟩
        dsimp only at this
        rw [gridAt_pos4, ← Ptr.add_assoc, this]
        unfold gBlk gCell
        show Cell.val (Y V n gi ((jc*dj+j)/dj*s.si.nctr + (ic*di+i)/di) ((jc*dj+j)%dj*di + (ic*di+i)%di)) = _
        rw [(digit k3).1, (digit k3).2, (digit k4).1, (digit k4).2]
      · intro q hq hb
        rw [HW.frame q (fun x => hq x.1) ?_, eD]
        · exact hD q hq
        · rintro ⟨n, k⟩ ⟨hn, hk⟩ e
          rw [Ptr.add_assoc] at e
          exact hb _ (hin n k hn hk) e
      · intro q a b c d e
        rw [HW.int, hI2 q a b c d]
  simp only [forN, forS, wp_mbind, wp_bind, wp_pure, wp_stI, Ptr.add_zero, c0, c1, c2, c3, Nat.cast_one] at hrest
  obtain ⟨a1, a2, a3, a4, a5⟩ := hrest
  simp only [wp_mbind, wp_stI]
  refine ⟨a1, a2, a3, a4, wp_mono a5 ?_⟩
  intro nout h' H
  cases has with
  | false =>
    rw [if_neg (by decide)] at H ⊢
    rw [wp_mbind]
    exact H
  | true =>
    rw [if_pos rfl] at H ⊢
    rw [wp_mbind]
    exact H

end Verif.Lemmas
