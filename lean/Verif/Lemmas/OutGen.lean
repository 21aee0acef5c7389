import Verif.Lemmas.DrvOut2

/-! The output stage of the drivers, for any number of shells and any loop function before it. -/
namespace Verif.Lemmas
open Verif Verif.Model Verif.Prog Verif.Props Verif.Spec

variable {α : Type} [Field α] [LinearOrder α]

/-- the values in the array of contracted integrals -/
def ctrOf (V : Nat → Nat → Nat → Nat → Nat → Nat → α) (ls nctrs : Nat → Nat) : Nat → α :=
  ctrVal V (blkLen ls) (nctrs 0) (nctrs 1) (nctrs 2) (nctrs 3)

/-- number of contractions -/
def nctrOf (nctrs : Nat → Nat) : Nat := nctrs 0 * nctrs 1 * nctrs 2 * nctrs 3

/-- the transformed integral -/
def sphGen (ls : Nat → Nat) (V : Nat → Nat → Nat → Nat → Nat → Nat → α) (n ic jc kc lc i j k l : Nat) : α :=
  ∑ a ∈ Finset.range (ncart (ls 0)), ∑ b ∈ Finset.range (ncart (ls 1)), ∑ c ∈ Finset.range (ncart (ls 2)),
    ∑ d ∈ Finset.range (ncart (ls 3)),
    c2sCoef (ls 0) i a * c2sCoef (ls 1) j b * c2sCoef (ls 2) k c * c2sCoef (ls 3) l d *
      V n ic jc kc lc (pos4c (ncar ls) a b c d)

/-- The state after the loop function: `has` says whether there are values, the array of contracted integrals
is at the start of the cache. -/
structure Looped (h h1 : Heap α) (V : Nat → Nat → Nat → Nat → Nat → Nat → α) (ls nctrs : Nat → Nat) (nComp buf : Nat)
    (empty fl loc : Ptr) (has : Bool) : Prop where
  val : has = true → HoldsD h1 ⟨buf, 0⟩ (blkLen ls * nctrOf nctrs * nComp) (ctrOf V ls nctrs)
  zero : has = false → ∀ m, ctrOf V ls nctrs m = 0
  agD : AgreeD h h1 (fun q => q.buf = buf)
  agI : AgreeI h h1 (fun q => q.buf = buf ∨ q.buf = empty.buf ∨ q.buf = fl.buf ∨ q.buf = loc.buf)
  mono : AllocMono h h1

theorem outAgreeI {h h1 h2 : Heap α} {buf : Nat} {empty fl loc counts : Ptr}
    (hI : AgreeI h h1 (fun q => q.buf = buf ∨ q.buf = empty.buf ∨ q.buf = fl.buf ∨ q.buf = loc.buf))
    (i2 : ∀ q, (∀ t, t < 4 → q ≠ counts + t) → h2.I q = h1.I q) (q : Ptr)
    (p1 : q.buf ≠ buf) (p2 : q.buf ≠ empty.buf) (p3 : q.buf ≠ fl.buf) (p4 : q.buf ≠ loc.buf)
    (p5 : q.buf ≠ counts.buf) : h2.I q = h.I q := by
  rw [i2 q (fun t _ e => p5 (by rw [e]; rfl))]
  exact hI q (by rintro (x | x | x | x) <;> [exact p1 x; exact p2 x; exact p3 x; exact p4 x])

theorem cartOut {r : Nat} {h h1 : Heap α} {V : Nat → Nat → Nat → Nat → Nat → Nat → α} {ls nctrs nd : Nat → Nat}
    {nComp buf : Nat} {empty fl loc counts out : Ptr} {dims : Option Ptr} {has : Bool}
    (D : Looped h h1 V ls nctrs nComp buf empty fl loc has)
    (hs : Sizes r (ncar ls) nctrs nd)
    (O : OutArg2 r h nd (fun t => ncar ls t * nctrs t) nComp out dims buf empty fl loc counts)
    (hd2 : ∀ d, dims = some d → r = 2 → ∃ x, h.I (d + 2) = .val x)
    (hcnt : ∀ t, t < 4 → h.I (counts + t) ≠ .oob) :
    wp (outStage r has nComp (blkLen ls * nctrOf nctrs) (c2sFun r (shapeOf (ncar ls) nctrs (blkLen ls)) pure) out
        ⟨buf, 0⟩ dims counts (fun t => ncar ls t * nctrs t))
      (fun _ h' =>
        (∀ n ic jc kc lc i j k l, n < nComp → ic < nctrs 0 → jc < nctrs 1 → kc < nctrs 2 → lc < nctrs 3 →
          i < ncar ls 0 → j < ncar ls 1 → k < ncar ls 2 → l < ncar ls 3 →
          h'.D (out + outAt nd n (ic*ncar ls 0+i) (jc*ncar ls 1+j) (kc*ncar ls 2+k) (lc*ncar ls 3+l)) =
            .val (V n ic jc kc lc (pos4c (ncar ls) i j k l))) ∧
        (has = false → ∀ m, InBlock nd (fun t => ncar ls t * nctrs t) nComp m → h'.D (out + m) = .val 0) ∧
        Frame2 h h' nd (fun t => ncar ls t * nctrs t) nComp buf out empty fl loc counts) h1 := by
  have hd1 := dims_kept O D.agI
  have hcn : ∀ t, t < 4 → h1.I (counts + t) ≠ .oob := fun t ht => D.mono.I _ (hcnt t ht)
  have hal : ∀ m, InBlock nd (fun t => ncar ls t * nctrs t) nComp m → h1.D (out + m) ≠ .oob :=
    fun m hm' => D.mono.D _ (O.h_out m hm')
  have elen : blkLen ls * nctrOf nctrs * nComp = nComp * (ncar ls 0 * ncar ls 1 * ncar ls 2 * ncar ls 3 *
      (nctrs 0 * nctrs 1 * nctrs 2 * nctrs 3)) := by
    unfold nctrOf blkLen; ring
  cases has with
  | true =>
    have hh := D.val rfl
    rw [elen] at hh
    have St : Stage r (ncar ls) nctrs nd nComp out dims ⟨buf, 0⟩ counts (ctrOf V ls nctrs) h1 :=
      { h_sizes := hs, h_dims := hd1, h_counts := hcn, h_gctr := hh, h_out := hal
        h_disj := fun i m _ _ e => O.h_obuf (congrArg Ptr.buf e :).symm }
    obtain ⟨h2, r2, v2, f2, i2⟩ := C17_cartesian_placement St
    refine (wp_iff_run _ _ _).2 ⟨(), h2, r2, ?_, fun x => Bool.noConfusion x, ?_, ?_⟩
    · intro n ic jc kc lc i j k l hn q1 q2 q3 q4 p1 p2 p3 p4
      exact (v2 n ic jc kc lc i j k l hn q1 q2 q3 q4 p1 p2 p3 p4).trans
        (congrArg Cell.val (ctrVal_at (nctr := nctrs) _ q1 q2 q3 q4 p1 p2 p3 p4))
    · intro q hq hb
      rw [f2 q hb]
      exact D.agD q hq
    · exact outAgreeI D.agI i2
  | false =>
    have hd3 : ∀ d, dims = some d → r = 2 → ∃ x, h1.I (d + 2) = .val x := by
      intro d hd hr
      obtain ⟨x, hx⟩ := hd2 d hd hr
      refine ⟨x, ?_⟩
      rw [D.agI, hx]
      have := O.h_dbuf d hd
      rintro (hb | hb | hb | hb)
      · exact this.1 hb
      · exact this.2.1 hb
      · exact this.2.2.1 hb
      · exact this.2.2.2 hb
    obtain ⟨h2, r2, v2, f2, i2⟩ := C18_zero_block (nComp := nComp) (nc := blkLen ls * nctrOf nctrs) (out := out) (gctr := ⟨buf, 0⟩)
      (c2s := c2sFun r (shapeOf (ncar ls) nctrs (blkLen ls)) pure) hs hd1 hd3 hcn hal
    refine (wp_iff_run _ _ _).2 ⟨(), h2, r2, ?_, fun _ => v2, ?_, ?_⟩
    · intro n ic jc kc lc i j k l hn q1 q2 q3 q4 p1 p2 p3 p4
      have hz' := D.zero rfl (ctrAt nctrs (ncar ls) n ic jc kc lc i j k l)
      have hc := ctrVal_at (nctr := nctrs) (nf := ncar ls) (n := n) V q1 q2 q3 q4 p1 p2 p3 p4
      rw [← hc]
      refine Eq.trans ?_ (congrArg Cell.val hz').symm
      exact v2 _ ⟨n, _, _, _, _, hn, digit_lt p1 q1, digit_lt p2 q2, digit_lt p3 q3, digit_lt p4 q4, rfl⟩
    · intro q hq hb
      rw [f2 q hb]
      exact D.agD q hq
    · exact outAgreeI D.agI i2

theorem sphGen_eq (V : Nat → Nat → Nat → Nat → Nat → Nat → α) {ls nctrs : Nat → Nat} {n ic jc kc lc i j k l : Nat}
    (q1 : ic < nctrs 0) (q2 : jc < nctrs 1) (q3 : kc < nctrs 2) (q4 : lc < nctrs 3) :
    sphOf ls nctrs (ctrOf V ls nctrs) n ic jc kc lc i j k l = sphGen ls V n ic jc kc lc i j k l := by
  unfold sphOf sphGen
  refine Finset.sum_congr rfl fun a ha => Finset.sum_congr rfl fun b hb => Finset.sum_congr rfl fun c hc =>
    Finset.sum_congr rfl fun d hd => ?_
  refine congrArg (c2sCoef (ls 0) i a * c2sCoef (ls 1) j b * c2sCoef (ls 2) k c * c2sCoef (ls 3) l d * ·) ?_
  exact ctrVal_at (nctr := nctrs) (nf := ncar ls) V q1 q2 q3 q4 (Finset.mem_range.1 ha) (Finset.mem_range.1 hb)
    (Finset.mem_range.1 hc) (Finset.mem_range.1 hd)

theorem sphOut {r : Nat} {h h1 : Heap α} {V : Nat → Nat → Nat → Nat → Nat → Nat → α} {ls nctrs nd : Nat → Nat}
    {nComp buf fpd o size : Nat} {empty fl loc counts out tab : Ptr} {dims : Option Ptr} {has : Bool}
    (D : Looped h h1 V ls nctrs nComp buf empty fl loc has)
    (hs : Sizes r (nsph ls) nctrs nd)
    (O : OutArg2 r h nd (fun t => nsph ls t * nctrs t) nComp out dims buf empty fl loc counts)
    (hd2 : ∀ d, dims = some d → r = 2 → ∃ x, h.I (d + 2) = .val x)
    (hcnt : ∀ t, t < 4 → h.I (counts + t) ≠ .oob)
    (hf : 0 < fpd) (hl : ∀ t, t < 4 → ls t ≤ 15) (hl0 : ∀ t, r ≤ t → t < 4 → ls t = 0)
    (hT : HoldsTab h tab) (htb : tab.buf ≠ buf) (hto : out.buf ≠ tab.buf)
    (hused : blkLen ls * nctrOf nctrs * nComp ≤ o) (hfree : o + blkLen ls * r ≤ size)
    (hcache : ∀ k, k < size → h.D ⟨buf, k⟩ ≠ .oob) :
    wp (outStage r has nComp (blkLen ls * nctrOf nctrs) (c2sFun r (shapeOf (nsph ls) nctrs (blkLen ls))
        (sphTransR r tab fpd ls buf (fpd*o))) out ⟨buf, 0⟩ dims counts (fun t => nsph ls t * nctrs t))
      (fun _ h' =>
        (∀ n ic jc kc lc i j k l, n < nComp → ic < nctrs 0 → jc < nctrs 1 → kc < nctrs 2 → lc < nctrs 3 →
          i < nsph ls 0 → j < nsph ls 1 → k < nsph ls 2 → l < nsph ls 3 →
          h'.D (out + outAt nd n (ic*nsph ls 0+i) (jc*nsph ls 1+j) (kc*nsph ls 2+k) (lc*nsph ls 3+l)) =
            .val (sphGen ls V n ic jc kc lc i j k l)) ∧
        (has = false → ∀ m, InBlock nd (fun t => nsph ls t * nctrs t) nComp m → h'.D (out + m) = .val 0) ∧
        Frame2 h h' nd (fun t => nsph ls t * nctrs t) nComp buf out empty fl loc counts) h1 := by
  have hd1 := dims_kept O D.agI
  have hcn : ∀ t, t < 4 → h1.I (counts + t) ≠ .oob := fun t ht => D.mono.I _ (hcnt t ht)
  have hal : ∀ m, InBlock nd (fun t => nsph ls t * nctrs t) nComp m → h1.D (out + m) ≠ .oob :=
    fun m hm' => D.mono.D _ (O.h_out m hm')
  have elen : blkLen ls * nctrOf nctrs * nComp = nComp * (blkLen ls * (nctrs 0 * nctrs 1 * nctrs 2 * nctrs 3)) := by
    unfold nctrOf; ring
  have htab : HoldsTab h1 tab := holdsTab_agree hT D.agD (fun q hq => by rw [hq]; exact htb.symm)
  cases has with
  | true =>
    have hh := D.val rfl
    rw [elen] at hh
    have St : SphStage r ls nctrs nd nComp out dims ⟨buf, 0⟩ counts tab fpd buf o size (ctrOf V ls nctrs) h1 :=
      { h_fpd := hf, h_l := hl, h_l0 := hl0, h_sizes := hs, h_dims := hd1
        h_counts := hcn, h_tab := htab, h_gctr := hh, h_gbuf := rfl
        h_used := by rw [← elen]; exact le_trans (le_of_eq (Nat.zero_add _)) hused
        h_free := hfree, h_cache := fun k hk => D.mono.D _ (hcache k hk), h_out := hal, h_tbuf := htb
        h_obuf := ⟨O.h_obuf, hto⟩ }
    obtain ⟨h2, r2, v2, f2, i2⟩ := C19_spherical_block St
    refine (wp_iff_run _ _ _).2 ⟨(), h2, r2, ?_, fun x => Bool.noConfusion x, ?_, ?_⟩
    · intro n ic jc kc lc i j k l hn q1 q2 q3 q4 p1 p2 p3 p4
      exact (v2 n ic jc kc lc i j k l hn q1 q2 q3 q4 p1 p2 p3 p4).trans
        (congrArg Cell.val (sphGen_eq V q1 q2 q3 q4))
    · intro q hq hb
      rw [f2 q (fun x => hq x.1) hb]
      exact D.agD q hq
    · exact outAgreeI D.agI i2
  | false =>
    have hd3 : ∀ d, dims = some d → r = 2 → ∃ x, h1.I (d + 2) = .val x := by
      intro d hd hr
      obtain ⟨x, hx⟩ := hd2 d hd hr
      refine ⟨x, ?_⟩
      rw [D.agI, hx]
      have := O.h_dbuf d hd
      rintro (hb | hb | hb | hb)
      · exact this.1 hb
      · exact this.2.1 hb
      · exact this.2.2.1 hb
      · exact this.2.2.2 hb
    obtain ⟨h2, r2, v2, f2, i2⟩ := C18_zero_block (nComp := nComp) (nc := blkLen ls * nctrOf nctrs) (out := out) (gctr := ⟨buf, 0⟩)
      (c2s := c2sFun r (shapeOf (nsph ls) nctrs (blkLen ls)) (sphTransR r tab fpd ls buf (fpd*o))) hs hd1 hd3 hcn hal
    refine (wp_iff_run _ _ _).2 ⟨(), h2, r2, ?_, fun _ => v2, ?_, ?_⟩
    · intro n ic jc kc lc i j k l hn q1 q2 q3 q4 p1 p2 p3 p4
      have hz0 : sphGen ls V n ic jc kc lc i j k l = 0 := by
        rw [← sphGen_eq V q1 q2 q3 q4]
        unfold sphOf
        refine Finset.sum_eq_zero fun a _ => Finset.sum_eq_zero fun b _ => Finset.sum_eq_zero fun c _ =>
          Finset.sum_eq_zero fun d _ => ?_
        rw [D.zero rfl, mul_zero]
      rw [hz0]
      exact v2 _ ⟨n, _, _, _, _, hn, digit_lt p1 q1, digit_lt p2 q2, digit_lt p3 q3, digit_lt p4 q4, rfl⟩
    · intro q hq hb
      rw [f2 q hb]
      exact D.agD q hq
    · exact outAgreeI D.agI i2

end Verif.Lemmas
