import Verif.Lemmas.OutStage
import Verif.Spec.Out
import Verif.Lemmas.Demo

/-!
C17 — `dims` controls where the integrals go and nothing else is touched.
C18 — a return value of 0 means a zero block; otherwise the block is completely overwritten.
-/
namespace Verif.Props
open Verif Verif.Model Verif.Prog Verif.Lemmas Verif.Spec

variable {α : Type} [Zero α]

/-- The caller's `dims` argument (`none` = NULL) of an `r`-index integral stands for the leading
dimensions `nd`; for NULL they are the shell sizes `cnt`. -/
def DimsArg (r : Nat) (h : Heap α) (dims : Option Ptr) (counts : Ptr) (nd cnt : Nat → Nat) : Prop :=
  match dims with
  | none => ∀ t, t < 4 → nd t = cnt t
  | some d => (∀ t, t < r → h.I (d + t) = .val (nd t)) ∧ d.buf ≠ counts.buf

/-- Sizes: `nf t` functions of shell `t` per contraction, `nctr t` contractions; the indices `t ≥ r`
of an `r`-index integral are trivial. -/
structure Sizes (r : Nat) (nf nctr nd : Nat → Nat) : Prop where
  rank : r = 2 ∨ r = 3 ∨ r = 4
  nf_pos : ∀ t, t < 4 → 0 < nf t
  nctr_pos : ∀ t, t < 4 → 0 < nctr t
  trivial : ∀ t, r ≤ t → t < 4 → nf t = 1 ∧ nctr t = 1 ∧ nd t = 1
  fits : ∀ t, t < 4 → nf t * nctr t ≤ nd t

/-- the shape of the block -/
def shapeOf (nf nctr : Nat → Nat) (nfc : Nat) : Shape :=
  { ic := nctr 0, jc := nctr 1, kc := nctr 2, lc := nctr 3,
    di := nf 0, dj := nf 1, dk := nf 2, dl := nf 3, nf := nfc }

theorem Sizes.shapeR {r : Nat} {nf nctr nd : Nat → Nat} (H : Sizes r nf nctr nd) (nfc : Nat) :
    ShapeR r (shapeOf nf nctr nfc) nd where
  r2 := by have := H.rank; omega
  r4 := by have := H.rank; omega
  pos := ⟨H.nf_pos 0 (by omega), H.nf_pos 1 (by omega), H.nf_pos 2 (by omega), H.nf_pos 3 (by omega)⟩
  k := fun h => by obtain ⟨a, b, c⟩ := H.trivial 2 (by omega) (by omega); exact ⟨b, a, c⟩
  l := fun h => by obtain ⟨a, b, c⟩ := H.trivial 3 (by omega) (by omega); exact ⟨b, a, c⟩
  hni := H.fits 0 (by omega)
  hnj := H.fits 1 (by omega)
  hnk := H.fits 2 (by omega)
  hnl := H.fits 3 (by omega)

theorem outAt_eq (nd : Nat → Nat) (n : Nat) (k : Ix4) :
    outAt nd n k.1 k.2.1 k.2.2.1 k.2.2.2 = nd 0 * nd 1 * nd 2 * nd 3 * n + pos4 (nd 0) (nd 1) (nd 2) k := by
  unfold outAt pos4; ring

theorem inBlock_iff {nd cnt : Nat → Nat} {ncomp m : Nat} : InBlock nd cnt ncomp m ↔
    ∃ n k, n < ncomp ∧ inBlk (cnt 0) (cnt 1) (cnt 2) (cnt 3) k ∧
      m = nd 0 * nd 1 * nd 2 * nd 3 * n + pos4 (nd 0) (nd 1) (nd 2) k := by
  constructor
  · rintro ⟨n, I, J, K, L, hn, h0, h1, h2, h3, rfl⟩
    exact ⟨n, (I,J,K,L), hn, ⟨h0, h1, h2, h3⟩, outAt_eq nd n (I,J,K,L)⟩
  · rintro ⟨n, k, hn, ⟨h0, h1, h2, h3⟩, rfl⟩
    exact ⟨n, _, _, _, _, hn, h0, h1, h2, h3, (outAt_eq nd n k).symm⟩

theorem dims_in_effect {r : Nat} {h h1 : Heap α} {dims : Option Ptr} {counts : Ptr} {nd cnt : Nat → Nat}
    (hr : r ≤ 4) (hd : DimsArg r h dims counts nd cnt) (c1 : ∀ t, t < 4 → h1.I (counts + t) = .val (cnt t))
    (f1 : ∀ q, (∀ t, t < 4 → q ≠ counts + t) → h1.I q = h.I q) :
    ∀ t, t < r → h1.I (dims.getD counts + t) = .val (nd t) := by
  intro t ht
  cases dims with
  | none => exact (c1 t (by omega)).trans (by rw [hd t (by omega)])
  | some d =>
    rw [Option.getD_some, f1 (d + t) (fun s _ e => hd.2 (Ptr.ext_iff'.1 e).1), hd.1 t ht]

/-- General form, for any block transformation `trans` (Cartesian output: none; spherical output:
the Cartesian to spherical transformation).  `Y n b` are the transformed values of contraction block
`b` of component `n`. -/
theorem outStage_value {r : Nat} {nf nctr nd : Nat → Nat} (hs : Sizes r nf nctr nd) (nfc : Nat)
    {trans : Ptr → Prog α Ptr} {out gctr : Ptr} {dims : Option Ptr} {counts : Ptr} {nComp nc : Nat}
    {Y : Nat → Nat → Nat → α} {W : Ptr → Prop} {ok : Heap α → Prop} {h : Heap α}
    (hd : DimsArg r h dims counts nd (fun t => nf t * nctr t))
    (hcnt : ∀ t, t < 4 → h.I (counts + t) ≠ .oob)
    (hok : ∀ h', h'.D = h.D → (∀ q, (∀ t, t < 4 → q ≠ counts + t) → h'.I q = h.I q) → ok h')
    (T : ∀ n, n < nComp → TransOK trans (gctr + nc*n) nfc (nctr 3*nctr 2*nctr 1*nctr 0)
      (nf 0*nf 1*nf 2*nf 3) (Y n) W
      (fun q => ∃ m, InBlock nd (fun t => nf t * nctr t) nComp m ∧ q = out + m) ok)
    (hal : ∀ m, InBlock nd (fun t => nf t * nctr t) nComp m → h.D (out + m) ≠ .oob) :
    ∃ h', run (outStage r true nComp nc (c2sFun r (shapeOf nf nctr nfc) trans) out gctr dims counts
        (fun t => nf t * nctr t)) h = some ((), h') ∧
      (∀ n I J K L, n < nComp → I < nf 0*nctr 0 → J < nf 1*nctr 1 → K < nf 2*nctr 2 → L < nf 3*nctr 3 →
        h'.D (out + outAt nd n I J K L) =
          .val (Y n (blkNo (shapeOf nf nctr nfc) (I,J,K,L)) (cellNo (shapeOf nf nctr nfc) (I,J,K,L)))) ∧
      (∀ q, ¬ W q → (∀ m, InBlock nd (fun t => nf t * nctr t) nComp m → q ≠ out + m) → h'.D q = h.D q) ∧
      (∀ q, (∀ t, t < 4 → q ≠ counts + t) → h'.I q = h.I q) := by
  have hS := hs.shapeR nfc
  have hr4 : r ≤ 4 := hS.r4
  refine (wp_iff_run _ (fun _ h' => _) _).1 ?_ |>.elim (fun _ hx => hx.elim fun h' hh => ⟨h', hh⟩)
  unfold outStage
  rw [wp_mbind]
  refine counts_wp hcnt ?_
  intro h1 e1 c1 f1
  have hdm := dims_in_effect hr4 hd c1 f1
  rw [wp_mbind]
  refine prodDims_wp hdm ?_
  rw [prod_nd hS]
  have hInB : ∀ n k, n < nComp → inOut (shapeOf nf nctr nfc) k →
      InBlock nd (fun t => nf t * nctr t) nComp (nd 0 * nd 1 * nd 2 * nd 3 * n + pos4 (nd 0) (nd 1) (nd 2) k) :=
    fun n k hn hk => inBlock_iff.2 ⟨n, k, hn, hk, rfl⟩
  let ok' : Heap α → Prop := fun h' => ok h' ∧ (∀ t, t < r → h'.I (dims.getD counts + t) = .val (nd t)) ∧
    (∀ m, InBlock nd (fun t => nf t * nctr t) nComp m → h'.D (out + m) ≠ .oob)
  have T' : ∀ n, n < nComp → TransOK trans (gctr + nc*n) nfc (nctr 3*nctr 2*nctr 1*nctr 0)
      (nf 0*nf 1*nf 2*nf 3) (Y n) W
      (fun q => ∃ k, inOut (shapeOf nf nctr nfc) k ∧
        q = out + nd 0 * nd 1 * nd 2 * nd 3 * n + pos4 (nd 0) (nd 1) (nd 2) k) ok' := by
    intro n hn
    have hsub : ∀ q, (∃ k, inOut (shapeOf nf nctr nfc) k ∧
        q = out + nd 0 * nd 1 * nd 2 * nd 3 * n + pos4 (nd 0) (nd 1) (nd 2) k) →
        ∃ m, InBlock nd (fun t => nf t * nctr t) nComp m ∧ q = out + m := by
      rintro q ⟨k, hk, rfl⟩
      exact ⟨_, hInB n k hn hk, by rw [Ptr.add_assoc]⟩
    refine ⟨fun b hb h' hok' => ?_, fun h2 h3 hok2 hA hM hI => ?_, fun q hw ho => (T n hn).sep q hw (hsub q ho)⟩
    · refine wp_mono ((T n hn).step b hb h' hok'.1) ?_
      rintro tmp h2 ⟨a, b, c, d⟩
      exact ⟨a, b, c, fun m hm hx => d m hm (hsub _ hx)⟩
    · refine ⟨(T n hn).keep h2 h3 hok2.1 (hA.mono (fun q hq => hq.imp id (hsub q))) hM hI, fun t ht => ?_,
        fun m hm => hM _ (hok2.2.2 m hm)⟩
      rw [hI]; exact hok2.2.1 t ht
  have hok1 : ok' h1 := ⟨hok h1 e1 f1, hdm, fun m hm => by rw [e1]; exact hal m hm⟩
  rw [if_pos rfl]
  have hpos : 0 < nctr 0 ∧ 0 < nctr 1 ∧ 0 < nctr 2 :=
    ⟨hs.nctr_pos 0 (by omega), hs.nctr_pos 1 (by omega), hs.nctr_pos 2 (by omega)⟩
  have fits := hs.fits
  have f0 := fits 0 (by omega)
  have f1' := fits 1 (by omega)
  have f2 := fits 2 (by omega)
  have f3 := fits 3 (by omega)
  refine wp_mono (comp_writes (P := inOut (shapeOf nf nctr nfc)) (ok := ok') (W := W)
    (out := out) (nout := nd 0 * nd 1 * nd 2 * nd 3) (ad := fun k => pos4 (nd 0) (nd 1) (nd 2) k)
    (v := fun n k => Y n (blkNo (shapeOf nf nctr nfc) k) (cellNo (shapeOf nf nctr nfc) k))
    ?_ ?_ ?_ ?_ ?_ h1 hok1) ?_
  · intro n k hn hk hw
    exact (T' n hn).sep _ hw ⟨k, hk, rfl⟩
  · rintro k ⟨a, b, c, d⟩
    exact pos4_lt (lt_of_lt_of_le a f0) (lt_of_lt_of_le b f1') (lt_of_lt_of_le c f2) (lt_of_lt_of_le d f3)
  · rintro k k' ⟨a, b, c, d⟩ ⟨a', b', c', d'⟩ e
    exact pos4_inj (lt_of_lt_of_le a f0) (lt_of_lt_of_le b f1') (lt_of_lt_of_le c f2)
      (lt_of_lt_of_le a' f0) (lt_of_lt_of_le b' f1') (lt_of_lt_of_le c' f2) e
  · intro n hn h2 h3 P' hP' hok2 HW
    exact (T' n hn).keep h2 h3 hok2 (HW.agree.mono (fun q hq => by
      rcases hq with hq | ⟨k, hk, e⟩
      · exact Or.inl hq
      · exact Or.inr ⟨k, hP' k hk, e⟩)) HW.alloc HW.int
  · intro n hn
    refine c2sFun_writes hS hpos (T' n hn) (fun h2 hok2 k hk => ?_) (fun h2 hok2 => hok2.2.1)
    rw [Ptr.add_assoc]
    exact hok2.2.2 _ (hInB n k hn hk)
  · rintro _ h2 ⟨_, HW⟩
    refine ⟨?_, ?_, ?_⟩
    · intro n I J K L hn hI hJ hK hL
      have := HW.val (n, (I,J,K,L)) ⟨hn, hI, hJ, hK, hL⟩
      rw [Ptr.add_assoc] at this
      rw [← this]
      congr 2
      exact outAt_eq nd n (I,J,K,L)
    · intro q hw hq
      rw [HW.frame q hw ?_, e1]
      rintro ⟨n, k⟩ ⟨hn, hk⟩ e
      exact hq _ (hInB n k hn hk) (by rw [e, Ptr.add_assoc])
    · intro q hq
      rw [HW.int]; exact f1 q hq

/-! ### Cartesian output -/

/-- The state the drivers reach before the output stage: `gctr` holds the contracted integrals `X`,
`counts` is a local array, the cells of the block in the caller's array are writable, and the
caller's array does not overlap `gctr`. -/
structure Stage (r : Nat) (nf nctr nd : Nat → Nat) (nComp : Nat) (out : Ptr) (dims : Option Ptr) (gctr counts : Ptr)
    (X : Nat → α) (h : Heap α) : Prop where
  h_sizes : Sizes r nf nctr nd
  h_dims : DimsArg r h dims counts nd (fun t => nf t * nctr t)
  h_counts : ∀ t, t < 4 → h.I (counts + t) ≠ .oob
  h_gctr : HoldsD h gctr (nComp * (nf 0*nf 1*nf 2*nf 3 * (nctr 0*nctr 1*nctr 2*nctr 3))) X
  h_out : ∀ m, InBlock nd (fun t => nf t * nctr t) nComp m → h.D (out + m) ≠ .oob
  h_disj : ∀ i m, i < nComp * (nf 0*nf 1*nf 2*nf 3 * (nctr 0*nctr 1*nctr 2*nctr 3)) →
    InBlock nd (fun t => nf t * nctr t) nComp m → gctr + i ≠ out + m

/-- the output stage of the Cartesian integrals -/
def cartStage (r : Nat) (hasValue : Bool) (nf nctr : Nat → Nat) (nComp : Nat) (out : Ptr) (dims : Option Ptr)
    (gctr counts : Ptr) : Prog α Unit :=
  outStage r hasValue nComp (nf 0*nf 1*nf 2*nf 3 * (nctr 0*nctr 1*nctr 2*nctr 3))
    (c2sFun r (shapeOf nf nctr (nf 0*nf 1*nf 2*nf 3)) pure) out gctr dims counts (fun t => nf t * nctr t)

theorem ctr_pos {nf nctr : Nat → Nat} {n ic jc kc lc i j k l : Nat}
    (hi : i < nf 0) (hj : j < nf 1) (hk : k < nf 2) (hl : l < nf 3) :
    ctrAt nctr nf n ic jc kc lc i j k l =
      nf 0*nf 1*nf 2*nf 3 * (nctr 0*nctr 1*nctr 2*nctr 3) * n +
      blkNo (shapeOf nf nctr (nf 0*nf 1*nf 2*nf 3)) (ic*nf 0+i, jc*nf 1+j, kc*nf 2+k, lc*nf 3+l) *
        (nf 0*nf 1*nf 2*nf 3) +
      cellNo (shapeOf nf nctr (nf 0*nf 1*nf 2*nf 3)) (ic*nf 0+i, jc*nf 1+j, kc*nf 2+k, lc*nf 3+l) := by
  unfold ctrAt blkNo cellNo posIklj shapeOf
  simp only [(digit hi).1, (digit hi).2, (digit hj).1, (digit hj).2, (digit hk).1, (digit hk).2,
    (digit hl).1, (digit hl).2]
  ring

theorem cart_transOK {r : Nat} {nf nctr nd : Nat → Nat} {nComp : Nat} {out : Ptr} {dims : Option Ptr} {gctr counts : Ptr}
    {X : Nat → α} {h : Heap α} (H : Stage r nf nctr nd nComp out dims gctr counts X h) (n : Nat) (hn : n < nComp) :
    TransOK (α := α) pure (gctr + (nf 0*nf 1*nf 2*nf 3 * (nctr 0*nctr 1*nctr 2*nctr 3))*n) (nf 0*nf 1*nf 2*nf 3)
      (nctr 3*nctr 2*nctr 1*nctr 0) (nf 0*nf 1*nf 2*nf 3)
      (fun b m => X (nf 0*nf 1*nf 2*nf 3 * (nctr 0*nctr 1*nctr 2*nctr 3) * n + b*(nf 0*nf 1*nf 2*nf 3) + m))
      (fun _ => False) (fun q => ∃ m, InBlock nd (fun t => nf t * nctr t) nComp m ∧ q = out + m)
      (fun h' => HoldsD h' gctr (nComp * (nf 0*nf 1*nf 2*nf 3 * (nctr 0*nctr 1*nctr 2*nctr 3))) X) := by
  have hb : ∀ b m, b < nctr 3*nctr 2*nctr 1*nctr 0 → m < nf 0*nf 1*nf 2*nf 3 →
      nf 0*nf 1*nf 2*nf 3 * (nctr 0*nctr 1*nctr 2*nctr 3) * n + b*(nf 0*nf 1*nf 2*nf 3) + m <
        nComp * (nf 0*nf 1*nf 2*nf 3 * (nctr 0*nctr 1*nctr 2*nctr 3)) := by
    intro b m hb hm
    have e : nf 0*nf 1*nf 2*nf 3 * (nctr 0*nctr 1*nctr 2*nctr 3) =
      nctr 3*nctr 2*nctr 1*nctr 0*(nf 0*nf 1*nf 2*nf 3) := by ring
    rw [e, Nat.mul_comm _ n, Nat.add_assoc]
    exact radix_lt hn (radix_lt hb hm)
  refine ⟨fun b hb' h' hh => ?_, fun h1 h2 hok hA _ _ => ?_, fun _ hw => hw.elim⟩
  · rw [wp_pure]
    refine ⟨fun m hm => ?_, AgreeD.refl _ _, rfl, fun m hm => ?_⟩
    · rw [← hh _ (hb b m hb' hm)]
      simp only [Ptr.add_assoc, Nat.add_assoc]
    · rintro ⟨m', hm', e⟩
      rw [Ptr.add_assoc, Ptr.add_assoc, ← Nat.add_assoc] at e
      exact H.h_disj _ m' (hb b m hb' hm) hm' e
  · refine hok.agree hA (fun i hi => ?_)
    rintro (hw | ⟨m, hm, e⟩)
    · exact hw
    · exact H.h_disj i m hi hm e

/-- C17 (Cartesian output of two-, three- and four-index integrals).  Component `n` of the integral
over functions `ic*nf 0 + i`, `jc*nf 1 + j`, ... is stored at the position given by `dims`; every
array element that does not belong to the block (in particular the padding when `dims` exceeds the
shell sizes) and every other double in memory keeps its value. -/
theorem C17_cartesian_placement {r : Nat} {nf nctr nd : Nat → Nat} {nComp : Nat} {out : Ptr} {dims : Option Ptr}
    {gctr counts : Ptr} {X : Nat → α} {h : Heap α} (H : Stage r nf nctr nd nComp out dims gctr counts X h) :
    ∃ h', run (cartStage r true nf nctr nComp out dims gctr counts) h = some ((), h') ∧
      (∀ n ic jc kc lc i j k l, n < nComp → ic < nctr 0 → jc < nctr 1 → kc < nctr 2 → lc < nctr 3 →
        i < nf 0 → j < nf 1 → k < nf 2 → l < nf 3 →
        h'.D (out + outAt nd n (ic*nf 0+i) (jc*nf 1+j) (kc*nf 2+k) (lc*nf 3+l)) =
          .val (X (ctrAt nctr nf n ic jc kc lc i j k l))) ∧
      (∀ q, (∀ m, InBlock nd (fun t => nf t * nctr t) nComp m → q ≠ out + m) → h'.D q = h.D q) ∧
      (∀ q, (∀ t, t < 4 → q ≠ counts + t) → h'.I q = h.I q) := by
  obtain ⟨h', hrun, hv, hf, hI⟩ := outStage_value H.h_sizes _ H.h_dims H.h_counts
    (fun h' e _ i hi => by rw [e]; exact H.h_gctr i hi) (cart_transOK H) H.h_out
  refine ⟨h', hrun, ?_, fun q hq => hf q (fun x => x) hq, hI⟩
  intro n ic jc kc lc i j k l hn hic hjc hkc hlc hi hj hk hl
  rw [hv n _ _ _ _ hn (digit_lt hi hic) (digit_lt hj hjc) (digit_lt hk hkc) (digit_lt hl hlc),
    ctr_pos hi hj hk hl]

/-- every element of the block is `(ic*nf 0+i, ...)` for some contraction and function -/
theorem inBlock_digits {nf nctr nd : Nat → Nat} (hp : ∀ t, t < 4 → 0 < nf t) {nComp m : Nat}
    (hm : InBlock nd (fun t => nf t * nctr t) nComp m) :
    ∃ n ic jc kc lc i j k l, n < nComp ∧ ic < nctr 0 ∧ jc < nctr 1 ∧ kc < nctr 2 ∧ lc < nctr 3 ∧
      i < nf 0 ∧ j < nf 1 ∧ k < nf 2 ∧ l < nf 3 ∧
      m = outAt nd n (ic*nf 0+i) (jc*nf 1+j) (kc*nf 2+k) (lc*nf 3+l) := by
  obtain ⟨n, I, J, K, L, hn, hI, hJ, hK, hL, rfl⟩ := hm
  have ex : ∀ {d x : Nat}, 0 < d → ∃ q r, r < d ∧ x = q*d + r := fun {d x} hd =>
    ⟨x/d, digit_exists hd rfl⟩
  obtain ⟨ic, i, hi, rfl⟩ := ex (x := I) (hp 0 (by omega))
  obtain ⟨jc, j, hj, rfl⟩ := ex (x := J) (hp 1 (by omega))
  obtain ⟨kc, k, hk, rfl⟩ := ex (x := K) (hp 2 (by omega))
  obtain ⟨lc, l, hl, rfl⟩ := ex (x := L) (hp 3 (by omega))
  have aux : ∀ {q r d c : Nat}, r < d → q*d + r < d*c → q < c := by
    intro q r d c _ h
    by_contra hc
    have h1 : d*c ≤ d*q := Nat.mul_le_mul_left d (by omega)
    have h2 : d*q = q*d := Nat.mul_comm d q
    omega
  exact ⟨n, _, _, _, _, i, j, k, l, hn, aux hi hI, aux hj hJ, aux hk hK, aux hl hL, hi, hj, hk, hl, rfl⟩

/-- C17: `dims == NULL` and an array `dims` that spells out the shell sizes leave the same doubles in
memory. -/
theorem C17_null_dims {r : Nat} {nf nctr nd : Nat → Nat} {nComp : Nat} {out : Ptr} {d : Ptr}
    {gctr counts : Ptr} {X : Nat → α} {h : Heap α} (Hn : Stage r nf nctr nd nComp out none gctr counts X h)
    (Hd : Stage r nf nctr nd nComp out (some d) gctr counts X h) :
    ∃ h1 h2, run (cartStage r true nf nctr nComp out none gctr counts) h = some ((), h1) ∧
      run (cartStage r true nf nctr nComp out (some d) gctr counts) h = some ((), h2) ∧ h1.D = h2.D := by
  obtain ⟨h1, r1, v1, f1, _⟩ := C17_cartesian_placement Hn
  obtain ⟨h2, r2, v2, f2, _⟩ := C17_cartesian_placement Hd
  refine ⟨h1, h2, r1, r2, funext fun q => ?_⟩
  by_cases hq : ∃ m, InBlock nd (fun t => nf t * nctr t) nComp m ∧ q = out + m
  · obtain ⟨m, hm, rfl⟩ := hq
    obtain ⟨n, ic, jc, kc, lc, i, j, k, l, a1, a2, a3, a4, a5, a6, a7, a8, a9, rfl⟩ :=
      inBlock_digits Hn.h_sizes.nf_pos hm
    rw [v1 n ic jc kc lc i j k l a1 a2 a3 a4 a5 a6 a7 a8 a9, v2 n ic jc kc lc i j k l a1 a2 a3 a4 a5 a6 a7 a8 a9]
  · rw [f1 q (fun m hm e => hq ⟨m, hm, e⟩), f2 q (fun m hm e => hq ⟨m, hm, e⟩)]

/-- C18, non-zero return: the block is completely overwritten — whatever the array contained
before, afterwards every element of the block is initialised and determined by the integrals. -/
theorem C18_overwritten {r : Nat} {nf nctr nd : Nat → Nat} {nComp : Nat} {out : Ptr} {dims : Option Ptr}
    {gctr counts : Ptr} {X : Nat → α} {h g : Heap α} (H : Stage r nf nctr nd nComp out dims gctr counts X h)
    (G : Stage r nf nctr nd nComp out dims gctr counts X g) :
    ∃ h' g', run (cartStage r true nf nctr nComp out dims gctr counts) h = some ((), h') ∧
      run (cartStage r true nf nctr nComp out dims gctr counts) g = some ((), g') ∧
      ∀ m, InBlock nd (fun t => nf t * nctr t) nComp m →
        ∃ x, h'.D (out + m) = .val x ∧ g'.D (out + m) = .val x := by
  obtain ⟨h1, r1, v1, f1, _⟩ := C17_cartesian_placement H
  obtain ⟨h2, r2, v2, f2, _⟩ := C17_cartesian_placement G
  refine ⟨h1, h2, r1, r2, fun m hm => ?_⟩
  obtain ⟨n, ic, jc, kc, lc, i, j, k, l, a1, a2, a3, a4, a5, a6, a7, a8, a9, rfl⟩ :=
    inBlock_digits H.h_sizes.nf_pos hm
  exact ⟨_, v1 n ic jc kc lc i j k l a1 a2 a3 a4 a5 a6 a7 a8 a9, v2 n ic jc kc lc i j k l a1 a2 a3 a4 a5 a6 a7 a8 a9⟩

/-! ### Return value 0 (Cartesian and spherical output) -/

/-- C18, return value 0: every element of the block is 0 and every other double is unchanged.
For two-index integrals with explicit `dims` this needs a readable third element of `dims`, see
`C18_two_index_dims_over_read`. `c2s` (the transformation) is not called. -/
theorem C18_zero_block {r : Nat} {nf nctr nd : Nat → Nat} {nComp nc : Nat} {out : Ptr} {dims : Option Ptr}
    {gctr counts : Ptr} {c2s : Ptr → Ptr → Ptr → Prog α Unit} {h : Heap α} (hs : Sizes r nf nctr nd)
    (hd : DimsArg r h dims counts nd (fun t => nf t * nctr t))
    (hd2 : ∀ d, dims = some d → r = 2 → ∃ x, h.I (d + 2) = .val x)
    (hcnt : ∀ t, t < 4 → h.I (counts + t) ≠ .oob)
    (hal : ∀ m, InBlock nd (fun t => nf t * nctr t) nComp m → h.D (out + m) ≠ .oob) :
    ∃ h', run (outStage r false nComp nc c2s out gctr dims counts (fun t => nf t * nctr t)) h = some ((), h') ∧
      (∀ m, InBlock nd (fun t => nf t * nctr t) nComp m → h'.D (out + m) = .val 0) ∧
      (∀ q, (∀ m, InBlock nd (fun t => nf t * nctr t) nComp m → q ≠ out + m) → h'.D q = h.D q) ∧
      (∀ q, (∀ t, t < 4 → q ≠ counts + t) → h'.I q = h.I q) := by
  have hS := hs.shapeR 0
  have hr4 : r ≤ 4 := hS.r4
  refine (wp_iff_run _ (fun _ h' => _) _).1 ?_ |>.elim (fun _ hx => hx.elim fun h' hh => ⟨h', hh⟩)
  unfold outStage
  rw [wp_mbind]
  refine counts_wp hcnt ?_
  intro h1 e1 c1 f1
  have hdm := dims_in_effect hr4 hd c1 f1
  rw [wp_mbind]
  refine prodDims_wp hdm ?_
  rw [prod_nd hS]
  rw [if_neg (by simp)]
  -- the value read for the third dimension
  obtain ⟨z2, hz2, ht2⟩ : ∃ z2 : Int, h1.I (dims.getD counts + 2) = .val z2 ∧ (r ≠ 2 → z2.toNat = nd 2) := by
    by_cases hr : r = 2
    · cases dims with
      | none => exact ⟨_, c1 2 (by omega), fun x => absurd hr x⟩
      | some d =>
        obtain ⟨x, hx⟩ := hd2 d rfl hr
        refine ⟨x, ?_, fun x => absurd hr x⟩
        rw [Option.getD_some, f1 (d + 2) (fun s _ e => hd.2 (Ptr.ext_iff'.1 e).1), hx]
    · have := hs.rank
      exact ⟨_, hdm 2 (by omega), fun _ => by simp⟩
  let nd' : Nat → Nat := fun t => if t = 2 then z2.toNat else nd t
  have hpos : ∀ k, inOut (shapeOf nf nctr 0) k →
      pos4 (nd' 0) (nd' 1) (nd' 2) k = pos4 (nd 0) (nd 1) (nd 2) k := by
    intro k hk
    by_cases hr : r = 2
    · have h1 := hk.2.2.2
      have hl := hS.l (by omega)
      rw [hl.1, hl.2.1] at h1
      have h0 : k.2.2.2 = 0 := by omega
      unfold pos4
      rw [h0]
      simp [nd']
    · have : nd' 2 = nd 2 := by simp only [nd', if_true]; exact ht2 hr
      rw [this]; simp [nd']
  have hInB : ∀ n k, n < nComp → inOut (shapeOf nf nctr 0) k →
      InBlock nd (fun t => nf t * nctr t) nComp (nd 0 * nd 1 * nd 2 * nd 3 * n + pos4 (nd 0) (nd 1) (nd 2) k) :=
    fun n k hn hk => inBlock_iff.2 ⟨n, k, hn, hk, rfl⟩
  have f0 := hs.fits 0 (by omega)
  have f1' := hs.fits 1 (by omega)
  have f2 := hs.fits 2 (by omega)
  have f3 := hs.fits 3 (by omega)
  let ok' : Heap α → Prop := fun h' => ∀ n, n < nComp →
    Dset0Ok (dims.getD counts) counts (out + nd 0 * nd 1 * nd 2 * nd 3 * n) nd' (fun t => nf t * nctr t) h'
  have hok1 : ok' h1 := by
    intro n hn
    refine ⟨fun t ht => ?_, c1, fun k hk => ?_⟩
    · by_cases h2 : t = 2
      · subst h2; exact ⟨z2, hz2, by simp [nd']⟩
      · refine ⟨nd t, hdm t (by have := hs.rank; omega), ?_⟩
        simp [nd', h2]
    · rw [hpos k hk, e1, Ptr.add_assoc]
      exact hal _ (hInB n k hn hk)
  refine wp_mono (comp_writes (P := inOut (shapeOf nf nctr 0)) (ok := ok') (W := fun _ => False)
    (out := out) (nout := nd 0 * nd 1 * nd 2 * nd 3) (ad := fun k => pos4 (nd 0) (nd 1) (nd 2) k)
    (v := fun _ _ => 0) ?_ ?_ ?_ ?_ ?_ h1 hok1) ?_
  · intro n k hn hk hw
    exact hw
  · rintro k ⟨a, b, c, d⟩
    exact pos4_lt (lt_of_lt_of_le a f0) (lt_of_lt_of_le b f1') (lt_of_lt_of_le c f2) (lt_of_lt_of_le d f3)
  · rintro k k' ⟨a, b, c, d⟩ ⟨a', b', c', d'⟩ e
    exact pos4_inj (lt_of_lt_of_le a f0) (lt_of_lt_of_le b f1') (lt_of_lt_of_le c f2)
      (lt_of_lt_of_le a' f0) (lt_of_lt_of_le b' f1') (lt_of_lt_of_le c' f2) e
  · intro n hn h2 h3 P' hP' hok2 HW n' hn'
    refine ⟨fun t ht => ?_, fun t ht => ?_, fun k hk => HW.alloc _ ((hok2 n' hn').al k hk)⟩
    · rw [HW.int]; exact (hok2 n' hn').d t ht
    · rw [HW.int]; exact (hok2 n' hn').c t ht
  · intro n hn h2 hok2
    refine wp_mono (c2sDset0_writes h2 (hok2 n hn)) ?_
    rintro _ h3 ⟨_, HW⟩
    refine ⟨True.intro, HW.reindex (fun k hk => ⟨k, hk, by rw [hpos k hk], rfl⟩)
      (fun k hk => ⟨k, hk, by rw [hpos k hk]⟩)⟩
  · rintro _ h2 ⟨_, HW⟩
    refine ⟨?_, ?_, ?_⟩
    · intro m hm
      obtain ⟨n, k, hn, hk, rfl⟩ := inBlock_iff.1 hm
      rw [← Ptr.add_assoc]
      exact HW.val (n, k) ⟨hn, hk⟩
    · intro q hq
      rw [HW.frame q (fun x => x) ?_, e1]
      rintro ⟨n, k⟩ ⟨hn, hk⟩ e
      exact hq _ (hInB n k hn hk) (by rw [e, Ptr.add_assoc])
    · intro q hq
      rw [HW.int]; exact f1 q hq

/-- For two-index integrals a caller passes `dims` with two elements.  If the integrals are all
screened out, the library reads a third one: with an exactly two-element array this is undefined
behaviour. -/
theorem C18_two_index_dims_over_read {nComp nc : Nat} {out d gctr counts : Ptr} {cnt : Nat → Nat}
    {c2s : Ptr → Ptr → Ptr → Prog α Unit} {h : Heap α} {n0 n1 : Nat} (hn : 0 < nComp)
    (h0 : h.I d = .val n0) (h1 : h.I (d + 1) = .val n1) (h2 : h.I (d + 2) = .oob)
    (hb : d.buf ≠ counts.buf) (hcnt : ∀ t, t < 4 → h.I (counts + t) ≠ .oob) :
    run (outStage 2 false nComp nc c2s out gctr (some d) counts cnt) h = none := by
  obtain ⟨_, g, hg, gI⟩ := (wp_iff_run _ (fun _ h' => h'.I d = h.I d ∧ h'.I (d+1) = h.I (d+1) ∧ h'.I (d+2) = h.I (d+2)) _).1
    (counts_wp (cnt := cnt) hcnt (fun h' _ _ f => ⟨f d (fun s _ e => hb (Ptr.ext_iff'.1 e).1),
      f (d+1) (fun s _ e => hb (Ptr.ext_iff'.1 e).1), f (d+2) (fun s _ e => hb (Ptr.ext_iff'.1 e).1)⟩))
  have g0 : g.I d = .val n0 := gI.1.trans h0
  have g1 : g.I (d+1) = .val n1 := gI.2.1.trans h1
  have g2 : g.I (d+2) = .oob := gI.2.2.trans h2
  unfold outStage
  rw [run_bind, hg]
  simp only [Option.bind_some, Option.getD_some]
  rw [run_bind]
  obtain ⟨p, g', hp, rfl⟩ := (wp_iff_run _ (fun _ h' => h' = g) _).1
    (prodDims_wp (dims := d) (nd := fun t => if t = 0 then n0 else n1) (r := 2) (h := g)
      (fun t ht => by
        obtain rfl | rfl : t = 0 ∨ t = 1 := by omega
        · exact g0
        · exact g1) (Q := fun _ h' => h' = g) rfl)
  rw [hp]
  simp only [Option.bind_some]
  rw [if_neg (by simp)]
  refine run_forS_none hn ?_
  unfold c2sDset0
  simp only [run_bind, ldI, run, g0, g1, g2, Option.bind_some, Option.bind_none]

/-! ### The hypotheses can be met -/

namespace OutDemo
def nf (t : Nat) : Nat := [3, 1, 6, 1].getD t 1
def nctr (t : Nat) : Nat := [2, 1, 1, 3].getD t 1
def nd (t : Nat) : Nat := nf t * nctr t + t
def heap : Heap Int :=
  { D := fun q => if q.buf = 0 then .val q.off else .undef
    I := fun q => if q.buf = 3 then .val (nd q.off) else .undef }

theorem stage : Stage 4 nf nctr nd 2 ⟨1, 5⟩ (some ⟨3, 0⟩) ⟨0, 0⟩ ⟨4, 0⟩ (fun i => (i : Int)) heap where
  h_sizes := ⟨Or.inr (Or.inr rfl), by decide, by decide, fun t a b => by omega, by decide⟩
  h_dims := ⟨fun t ht => by simp [heap], by decide⟩
  h_counts := fun t ht => by simp [heap]
  h_gctr := fun i hi => by simp [heap]
  h_out := fun m hm => by simp [heap]
  h_disj := fun i m _ _ => by simp [Ptr.ext_iff']

/-- a padded four-index block with two components, 2, 1, 1, 3 contractions of p, s, d, s shells -/
example : ∃ h', run (cartStage 4 true nf nctr 2 ⟨1, 5⟩ (some ⟨3, 0⟩) ⟨0, 0⟩ ⟨4, 0⟩) heap = some ((), h') ∧
    h'.D ((⟨1, 5⟩ : Ptr) + outAt nd 1 (1*3+2) 0 4 2) = .val (ctrAt nctr nf 1 1 0 0 2 2 0 4 0 : Int) := by
  obtain ⟨h', h1, h2, _⟩ := C17_cartesian_placement stage
  exact ⟨h', h1, h2 1 1 0 0 2 2 0 4 0 (by decide) (by decide) (by decide) (by decide) (by decide) (by decide)
    (by decide) (by decide) (by decide)⟩

/-- the same shells, `dims == NULL` -/
theorem stageNull : Stage 4 nf nctr (fun t => nf t * nctr t) 2 ⟨1, 5⟩ none ⟨0, 0⟩ ⟨4, 0⟩ (fun i => (i : Int)) heap where
  h_sizes := ⟨Or.inr (Or.inr rfl), by decide, by decide, fun t a b => by omega, by decide⟩
  h_dims := fun t ht => rfl
  h_counts := fun t ht => by simp [heap]
  h_gctr := fun i hi => by simp [heap]
  h_out := fun m hm => by simp [heap]
  h_disj := fun i m _ _ => by simp [Ptr.ext_iff']

/-- memory with a two-element `dims` and nothing behind it -/
def heap2 : Heap Int :=
  { D := fun _ => .undef
    I := fun q => if q.buf = 3 then (if q.off < 2 then .val 7 else .oob) else .undef }

example : run (cartStage 2 false (fun t => if t < 2 then 3 else 1) (fun _ => 1) 1 ⟨1, 0⟩ (some ⟨3, 0⟩) ⟨0, 0⟩ ⟨4, 0⟩)
    heap2 = none :=
  C18_two_index_dims_over_read (n0 := 7) (n1 := 7) (by decide) rfl rfl rfl (by decide) (fun t _ => by simp [heap2])
end OutDemo

end Verif.Props
