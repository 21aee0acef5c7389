import Verif.Lemmas.DrvSp1e
import Verif.Lemmas.OutGen
import Verif.Lemmas.Drv3c

/-! The spinor drivers for integrals with any number of shells: the part before and the part after the output functions. -/
namespace Verif.Lemmas
open Verif Verif.Model Verif.Prog Verif.Props Verif.Spec

variable {α : Type} [Field α] [LinearOrder α]

/-- What a loop function does, for any number of shells; see `Looped`. -/
def PostG (V : Nat → Nat → Nat → Nat → Nat → Nat → α) (ret : Bool → Prop) (ls nctrs : Nat → Nat) (nComp buf : Nat)
    (empty fl loc : Ptr) (h : Heap α) (res : Bool) (h' : Heap α) : Prop :=
  h'.I empty = .val (if res then 0 else 1) ∧
  (res = true → HoldsD h' ⟨buf, 0⟩ (blkLen ls * nctrOf nctrs * nComp) (ctrOf V ls nctrs)) ∧
  (res = false → ∀ m, ctrOf V ls nctrs m = 0) ∧
  AgreeD h h' (fun q => q.buf = buf) ∧
  AgreeI h h' (fun q => q.buf = buf ∨ q.buf = empty.buf ∨ q.buf = fl.buf ∨ q.buf = loc.buf) ∧
  ret res

theorem front_wp {V : Nat → Nat → Nat → Nat → Nat → Nat → α} {ret : Bool → Prop} {ls nctrs : Nat → Nat} {nComp buf : Nat}
    {empty fl loc : Ptr} {h : Heap α} {loop : Prog α Bool} {st : Bool → Prog α Unit} {Q : Bool → Heap α → Prop}
    (hem : h.I empty ≠ .oob)
    (hL : wp loop (PostG V ret ls nctrs nComp buf empty fl loc (h.setI empty 1)) (h.setI empty 1))
    (hQ : ∀ has h1, Looped h h1 V ls nctrs nComp buf empty fl loc has → ret has → wp (st has) (fun _ h2 => Q has h2) h1) :
    wp (do
      stI empty 1
      let _ ← loop
      let e ← ldI empty
      st (decide (e = 0))
      pure (decide (e = 0))) Q h := by
  rw [wp_mbind]
  refine (wp_stI _ _ _ _).2 ⟨hem, ?_⟩
  have hI0 : ∀ q, q ≠ empty → (h.setI empty 1).I q = h.I q := fun q hq => Heap.setI_I_ne _ _ hq
  have am0 := allocMono_setI (h := h) (q := empty) (x := 1)
  rw [wp_mbind]
  refine wp_mono (wp_allocMono hL) ?_
  rintro res h1 ⟨⟨hfl, hv, hz, hD, hI, hret⟩, hm⟩
  rw [wp_mbind]
  refine (wp_ldI _ _ _).2 ⟨_, hfl, ?_⟩
  have hres : decide ((if res then (0:Int) else 1) = 0) = res := by cases res <;> rfl
  rw [hres]
  have hIh : AgreeI h h1 (fun q => q.buf = buf ∨ q.buf = empty.buf ∨ q.buf = fl.buf ∨ q.buf = loc.buf) := by
    intro q hq
    rw [hI q hq, hI0 q (fun e => hq (by rw [e]; exact Or.inr (Or.inl rfl)))]
  rw [wp_mbind]
  refine wp_mono (hQ res h1 ⟨hv, hz, hD, hIh, am0.trans hm⟩ hret) ?_
  intro _ h2 hq
  rw [wp_pure]
  exact hq

/-- the caller's output array of complex numbers; see `OutArg2` -/
structure OutArgZ2 (r : Nat) (h : Heap α) (nd cnt : Nat → Nat) (nT : Nat) (out : Ptr) (dims : Option Ptr)
    (buf : Nat) (empty fl loc counts : Ptr) : Prop where
  h_dims : DimsArg r h dims counts nd cnt
  h_dims2 : ∀ d, dims = some d → r = 2 → ∃ x, h.I (d + 2) = .val x
  h_dbuf : ∀ d, dims = some d → d.buf ≠ buf ∧ d.buf ≠ empty.buf ∧ d.buf ≠ fl.buf ∧ d.buf ≠ loc.buf
  h_out : ∀ m, InBlock nd cnt nT (m/2) → h.D (out + m) ≠ .oob
  h_obuf : out.buf ≠ buf

/-- what the driver changes -/
def FrameZ (h h' : Heap α) (nd cnt : Nat → Nat) (nT buf : Nat) (out empty fl loc counts : Ptr) : Prop :=
  (∀ q, q.buf ≠ buf → (∀ m, InBlock nd cnt nT (m/2) → q ≠ out + m) → h'.D q = h.D q) ∧
  (∀ q, q.buf ≠ buf → q.buf ≠ empty.buf → q.buf ≠ fl.buf → q.buf ≠ loc.buf → q.buf ≠ counts.buf → h'.I q = h.I q)

/-- the cells written by the output functions -/
def OutP (nd cnt : Nat → Nat) (nT : Nat) (out : Ptr) (q : Ptr) : Prop := ∃ m, InBlock nd cnt nT (m/2) ∧ q = out + m

/-- the part of the cache that the output functions may change -/
def WBuf (buf tot : Nat) (q : Ptr) : Prop := q.buf = buf ∧ tot ≤ q.off

/-- the facts available to the output functions -/
structure ZOk (TAB : Heap α → Prop) (r : Nat) (nd cnt : Nat → Nat) (nT : Nat) (out : Ptr) (dims : Ptr) (buf size tot : Nat)
    (v : Nat → α) (h : Heap α) : Prop where
  tab : TAB h
  gctr : HoldsD h ⟨buf, 0⟩ tot v
  cache : ∀ k, k < size → h.D ⟨buf, k⟩ ≠ .oob
  dim : ∀ t, t < r → h.I (dims + t) = .val (nd t)
  out : ∀ m, InBlock nd cnt nT (m/2) → h.D (out + m) ≠ .oob

theorem ZOk.keep {TAB : Heap α → Prop} {r : Nat} {nd cnt : Nat → Nat} {nT : Nat} {out : Ptr} {dims : Ptr} {buf size tot : Nat}
    {v : Nat → α} {h h' : Heap α} (H : ZOk TAB r nd cnt nT out dims buf size tot v h)
    (hT : ∀ h h', TAB h → AgreeD h h' (fun q => q.buf = buf ∨ q.buf = out.buf) → TAB h') (hob : out.buf ≠ buf)
    {tot' : Nat} (htot : tot ≤ tot')
    (hA : AgreeD h h' (fun q => WBuf buf tot' q ∨ OutP nd cnt nT out q)) (hM : ∀ q, h.D q ≠ .oob → h'.D q ≠ .oob)
    (hI : h'.I = h.I) : ZOk TAB r nd cnt nT out dims buf size tot v h' := by
  refine ⟨hT h h' H.tab (hA.mono ?_), H.gctr.agree hA (fun i hi => ?_), fun k hk => hM _ (H.cache k hk),
    fun t ht => by rw [hI]; exact H.dim t ht, fun m hm => hM _ (H.out m hm)⟩
  · rintro q (⟨hq, _⟩ | ⟨m, _, rfl⟩)
    · exact Or.inl hq
    · exact Or.inr rfl
  · rintro (⟨_, hq⟩ | ⟨m, _, e⟩)
    · have : tot' ≤ 0 + i := hq
      omega
    · exact hob (congrArg Ptr.buf e :).symm

/-- the output stage -/
theorem zOut {r : Nat} {h h1 : Heap α} {V : Nat → Nat → Nat → Nat → Nat → Nat → α} {ls nctrs nd nfo : Nat → Nat}
    {nComp buf nT size : Nat} {empty fl loc counts out : Ptr} {dims : Option Ptr} {has : Bool}
    {TAB : Heap α → Prop} {Z : Nat → Ix4 → Cx α} {f : Nat → Ptr → Ptr → Prog α Unit}
    (D : Looped h h1 V ls nctrs nComp buf empty fl loc has)
    (hs : Sizes r nfo nctrs nd) (nfc : Nat)
    (O : OutArgZ2 r h nd (fun t => nfo t * nctrs t) nT out dims buf empty fl loc counts)
    (hcnt : ∀ t, t < 4 → h.I (counts + t) ≠ .oob) (hcache : ∀ k, k < size → h.D ⟨buf, k⟩ ≠ .oob)
    (hT : TAB h) (hTk : ∀ h h', TAB h → AgreeD h h' (fun q => q.buf = buf ∨ q.buf = out.buf) → TAB h')
    (hZ : has = false → ∀ n k, Z n k = 0)
    (F : ∀ n, n < nT → Writes (WBuf buf (blkLen ls * nctrOf nctrs * nComp))
      (ZOk TAB r nd (fun t => nfo t * nctrs t) nT out (dims.getD counts) buf size (blkLen ls * nctrOf nctrs * nComp) (ctrOf V ls nctrs))
      (f n (out + 2*(nd 0*nd 1*nd 2*nd 3)*n) (dims.getD counts)) (fun _ => True)
      (fun k : Zx => inOut (shapeOf nfo nctrs nfc) k.2)
      (fun k => out + 2*(nd 0*nd 1*nd 2*nd 3)*n + posZ (nd 0) (nd 1) (nd 2) k) (fun k => part (Z n k.2) k.1)) :
    wp (zOutStage r has nT f out dims counts (fun t => nfo t * nctrs t)) (fun _ h' =>
      (∀ n I J K L, n < nT → I < nfo 0*nctrs 0 → J < nfo 1*nctrs 1 → K < nfo 2*nctrs 2 → L < nfo 3*nctrs 3 →
        HoldsC h' out (outAt nd n I J K L) (Z n (I,J,K,L))) ∧
      (has = false → ∀ m, InBlock nd (fun t => nfo t * nctrs t) nT (m/2) → h'.D (out + m) = .val 0) ∧
      FrameZ h h' nd (fun t => nfo t * nctrs t) nT buf out empty fl loc counts) h1 := by
  have hbufs : ∀ d : Ptr, dims = some d → ∀ t : Nat, ¬ ((d + t).buf = buf ∨ (d + t).buf = empty.buf ∨ (d + t).buf = fl.buf ∨ (d + t).buf = loc.buf) := by
    intro d hdim t
    have := O.h_dbuf d hdim
    rintro (hb | hb | hb | hb)
    · exact this.1 hb
    · exact this.2.1 hb
    · exact this.2.2.1 hb
    · exact this.2.2.2 hb
  have hd1 : DimsArg r h1 dims counts nd (fun t => nfo t * nctrs t) := by
    cases hdim : dims with
    | none => have := O.h_dims; rw [hdim] at this; exact this
    | some d =>
      have h2 := O.h_dims; rw [hdim] at h2
      refine ⟨fun t ht => ?_, h2.2⟩
      rw [D.agI _ (hbufs d hdim t)]
      exact h2.1 t ht
  have hd2 : ∀ d, dims = some d → r = 2 → ∃ x, h1.I (d + 2) = .val x := by
    intro d hdim hr
    obtain ⟨x, hx⟩ := O.h_dims2 d hdim hr
    exact ⟨x, by rw [D.agI _ (hbufs d hdim 2), hx]⟩
  have hcn : ∀ t, t < 4 → h1.I (counts + t) ≠ .oob := fun t ht => D.mono.I _ (hcnt t ht)
  have hal : ∀ m, InBlock nd (fun t => nfo t * nctrs t) nT (m/2) → h1.D (out + m) ≠ .oob := fun m hm' => D.mono.D _ (O.h_out m hm')
  cases has with
  | true =>
    have hT1 : TAB h1 := hTk h h1 hT (D.agD.mono (fun _ => Or.inl))
    obtain ⟨h2, r2, v2, f2, i2⟩ := zOutStage_value (nT := nT) (out := out)
      (W := WBuf buf (blkLen ls * nctrOf nctrs * nComp))
      (ok := ZOk TAB r nd (fun t => nfo t * nctrs t) nT out (dims.getD counts) buf size (blkLen ls * nctrOf nctrs * nComp) (ctrOf V ls nctrs))
      (f := f) (V := Z) hs nfc hd1 hcn
      (fun h' e _ hd => ⟨hTk h1 h' hT1 (fun q _ => by rw [e]), fun i hi => by rw [e]; exact D.val rfl i hi,
        fun k hk => by rw [e]; exact D.mono.D _ (hcache k hk), hd, fun m hm' => by rw [e]; exact hal m hm'⟩)
      (fun h2 h3 hok hA hM hI => hok.keep hTk O.h_obuf (Nat.le_refl _) hA hM hI)
      (fun q hw ⟨m, _, e⟩ => O.h_obuf (by rw [← hw.1, e]; rfl)) F
    refine (wp_iff_run _ _ _).2 ⟨(), h2, r2, ?_, fun x => Bool.noConfusion x, ?_, ?_⟩
    · intro n I J K L hn p1 p2 p3 p4
      exact ⟨v2 false n I J K L hn p1 p2 p3 p4, v2 true n I J K L hn p1 p2 p3 p4⟩
    · intro q hq hb
      rw [f2 q (fun x => hq x.1) hb]
      exact D.agD q hq
    · exact outAgreeI D.agI i2
  | false =>
    obtain ⟨h2, r2, v2, f2, i2⟩ := zOutStage_zero (nT := nT) (out := out) (f := f) hs hd1 hd2 hcn hal
    refine (wp_iff_run _ _ _).2 ⟨(), h2, r2, ?_, fun _ => v2, ?_, ?_⟩
    · intro n I J K L hn p1 p2 p3 p4
      rw [hZ rfl]
      have hin : ∀ e, e < 2 → InBlock nd (fun t => nfo t * nctrs t) nT ((2*outAt nd n I J K L + e)/2) :=
        fun e he => ⟨n, I, J, K, L, hn, p1, p2, p3, p4, by omega⟩
      exact ⟨v2 _ (hin 0 (by omega)), v2 _ (hin 1 (by omega))⟩
    · intro q hq hb
      rw [f2 q hb]
      exact D.agD q hq
    · exact outAgreeI D.agI i2

/-- the values of the array of contracted integrals by component, block and position in the block -/
theorem ctrOf_at (V : Nat → Nat → Nat → Nat → Nat → Nat → α) {ls nctrs : Nat → Nat} {n ic jc kc lc x : Nat}
    (q1 : ic < nctrs 0) (q2 : jc < nctrs 1) (q3 : kc < nctrs 2) (q4 : lc < nctrs 3) (hx : x < blkLen ls) :
    ctrOf V ls nctrs (blkLen ls * nctrOf nctrs * n + (((lc*nctrs 2+kc)*nctrs 1+jc)*nctrs 0+ic)*blkLen ls + x) =
      V n ic jc kc lc x := by
  let B := ((lc*nctrs 2+kc)*nctrs 1+jc)*nctrs 0+ic
  have b1 : lc*nctrs 2+kc < nctrs 3 * nctrs 2 := radix_lt q4 q3
  have b2 : (lc*nctrs 2+kc)*nctrs 1+jc < nctrs 3 * nctrs 2 * nctrs 1 := radix_lt b1 q2
  have b3 : B < nctrs 3 * nctrs 2 * nctrs 1 * nctrs 0 := radix_lt b2 q1
  have b4 : B*blkLen ls + x < nctrs 3 * nctrs 2 * nctrs 1 * nctrs 0 * blkLen ls := radix_lt b3 hx
  have e0 : blkLen ls * (nctrs 0 * nctrs 1 * nctrs 2 * nctrs 3) = nctrs 3 * nctrs 2 * nctrs 1 * nctrs 0 * blkLen ls := by ring
  have e1 : blkLen ls * nctrOf nctrs * n + B*blkLen ls + x =
      n*(nctrs 3 * nctrs 2 * nctrs 1 * nctrs 0 * blkLen ls) + (B*blkLen ls + x) := by
    unfold nctrOf; ring
  show ctrOf V ls nctrs (blkLen ls * nctrOf nctrs * n + B*blkLen ls + x) = _
  unfold ctrOf ctrVal
  dsimp only
  rw [e0, e1, (digit b4).1, (digit b4).2, (digit hx).1, (digit q1).1, (digit q1).2, (digit q2).1, (digit q2).2,
    (digit q3).1, (digit q3).2]
  congr 1
  rw [show n*(nctrs 3 * nctrs 2 * nctrs 1 * nctrs 0 * blkLen ls) + (B*blkLen ls + x) =
    (n*(nctrs 3 * nctrs 2 * nctrs 1 * nctrs 0) + B)*blkLen ls + x by ring]
  exact (digit hx).2

/-- such a position lies in the array -/
theorem ctr_lt {ls nctrs : Nat → Nat} {nComp n b x : Nat} (hn : n < nComp)
    (hb : b < nctrs 3 * nctrs 2 * nctrs 1 * nctrs 0) (hx : x < blkLen ls) :
    blkLen ls * nctrOf nctrs * n + b*blkLen ls + x < blkLen ls * nctrOf nctrs * nComp := by
  have h6 := radix_lt hn (radix_lt hb hx)
  calc blkLen ls * nctrOf nctrs * n + b*blkLen ls + x = n*(nctrs 3 * nctrs 2 * nctrs 1 * nctrs 0*blkLen ls) + (b*blkLen ls + x) := by
        unfold nctrOf; ring
    _ < _ := h6
    _ = _ := by unfold nctrOf; ring

/-- a transformation of blocks that uses the free part of the cache -/
theorem zTrans {TAB : Heap α → Prop} {r : Nat} {nd nfo nctrs : Nat → Nat} {nT nfc n N nblk nf : Nat} {out dims gctr : Ptr}
    {buf size tot : Nat} {v : Nat → α} {trans : Ptr → Prog α (Ptr × Ptr)} {Y : Nat → Nat → Cx α}
    (hTk : ∀ h h', TAB h → AgreeD h h' (fun q => q.buf = buf ∨ q.buf = out.buf) → TAB h') (hob : out.buf ≠ buf) (hn : n < nT)
    {top : Nat} (htop : tot ≤ top) {ok' : Heap α → Prop}
    (hok' : ∀ h h', ok' h → AgreeD h h' (fun q => WBuf buf top q ∨ OutP nd (fun t => nfo t * nctrs t) nT out q) → ok' h')
    (step : ∀ b, b < nblk → ∀ h, ZOk TAB r nd (fun t => nfo t * nctrs t) nT out dims buf size tot v h → ok' h →
      wp (trans (gctr + b*nf)) (fun t h' =>
        (∀ im m, m < N → h'.D (side t im + m) = .val (part (Y b m) im)) ∧ From h (WBuf buf top) h' ∧
          ∀ im, (side t im).buf = buf) h) :
    TransZ trans gctr nf nblk N Y (WBuf buf top)
      (fun q => ∃ k : Zx, inOut (shapeOf nfo nctrs nfc) k.2 ∧ q = out + 2*(nd 0*nd 1*nd 2*nd 3)*n + posZ (nd 0) (nd 1) (nd 2) k)
      (fun h => ZOk TAB r nd (fun t => nfo t * nctrs t) nT out dims buf size tot v h ∧ ok' h) := by
  have hsub : ∀ q, (∃ k : Zx, inOut (shapeOf nfo nctrs nfc) k.2 ∧
      q = out + 2*(nd 0*nd 1*nd 2*nd 3)*n + posZ (nd 0) (nd 1) (nd 2) k) → OutP nd (fun t => nfo t * nctrs t) nT out q := by
    rintro q ⟨k, hk, rfl⟩
    exact ⟨_, inBlockZ_iff.2 ⟨n, k, hn, hk, rfl⟩, by rw [Ptr.add_assoc]⟩
  have hobuf : ∀ q, OutP nd (fun t => nfo t * nctrs t) nT out q → q.buf = out.buf := by rintro q ⟨m, _, rfl⟩; rfl
  refine ⟨fun b hb h hok => wp_mono (step b hb h hok.1 hok.2) ?_, fun h h' hok hA hM hI => ?_, fun q hw ho => ?_⟩
  · rintro t h' ⟨q1, q2, q3⟩
    exact ⟨q1, q2.D, q2.I, fun im m _ ho => hob (by rw [← hobuf _ (hsub _ ho)]; exact q3 im)⟩
  · have hA' := hA.mono (W := fun q => WBuf buf top q ∨ OutP nd (fun t => nfo t * nctrs t) nT out q) (fun q hq => hq.imp id (hsub q))
    exact ⟨hok.1.keep hTk hob htop hA' hM hI, hok' h h' hok.2 hA'⟩
  · exact hob (by rw [← hobuf _ (hsub _ ho)]; exact hw.1)

/-- the contracted integrals of the block that contains an element of the output -/
theorem ctrOf_blk (V : Nat → Nat → Nat → Nat → Nat → Nat → α) {ls nctrs nfo : Nat → Nat} {nfc n x : Nat} {k : Ix4}
    (hk : inOut (shapeOf nfo nctrs nfc) k) (hx : x < blkLen ls) :
    ctrOf V ls nctrs (blkLen ls * nctrOf nctrs * n + blkNo (shapeOf nfo nctrs nfc) k*blkLen ls + x) =
      V n (k.1/nfo 0) (k.2.1/nfo 1) (k.2.2.1/nfo 2) (k.2.2.2/nfo 3) x :=
  ctrOf_at V (Nat.div_lt_of_lt_mul hk.1) (Nat.div_lt_of_lt_mul hk.2.1) (Nat.div_lt_of_lt_mul hk.2.2.1)
    (Nat.div_lt_of_lt_mul hk.2.2.2) hx

end Verif.Lemmas
