import Verif.Lemmas.PolyFits
import Mathlib.Algebra.Order.Field.Basic
import Mathlib.Tactic.NormNum
import Mathlib.Tactic.IntervalCases
import Mathlib.Tactic.Linarith
import Mathlib.Tactic.FieldSimp
import Mathlib.Tactic.Positivity
import Mathlib.Data.Rat.Lemmas

/-!
C62: roots and weights of short-range Rys polynomials from the tables of Chebyshev coefficients (CINTsr_rys_polyfits): for every value of
`x` and `lower` the caller may pass, which of four things happens: zeros, the value of the tabulated bivariate Chebyshev series of the
interval that contains (`lower`, `x`), a refusal that leaves the memory alone, or undefined behaviour.
-/
namespace Verif.Props
open Verif Prog Verif.Model Verif.Model.PolyFits Verif.Lemmas.PolyFits

namespace PolyFit
variable {α : Type} [Field α]

/-- the bivariate Chebyshev series with 14 by 14 coefficients `c k j` (those with an index 0 are halved) at `(u, t)`: specification -/
noncomputable def series (c : Nat → Nat → α) (u t : α) : α :=
  ∑ j ∈ Finset.range 14, ∑ k ∈ Finset.range 14, (if j = 0 then 1/2 else 1) * (if k = 0 then 1/2 else 1) * c k j *
    (Polynomial.Chebyshev.T α k).eval u * (Polynomial.Chebyshev.T α j).eval t

/-- `a` as a fraction of the interval from `lo` to `hi`, mapped to the interval from -1 to 1 -/
def scaled (a lo hi : α) : α := (2*a - lo - hi) / (hi - lo)

/-- `c` is stored at `p`, `len` numbers -/
def Stored (h : Heap α) (p : Ptr) (c : Nat → α) (len : Nat) : Prop := ∀ i, i < len → h.D (p + i) = .val (c i)

/-- position in a table of the coefficients of root `i` of `n`: for 1, 2, …, `n-1` roots there are `nu*nt` blocks of as many 14 by 14 squares
each, then for `n` roots the block of the interval `il` of `lower` and the interval `ix` of `x` -/
def square (n nu nt il ix i : Nat) : Nat := ((n-1)*n/2*nu*nt + n*(il*nt+ix) + i) * 196

/-- the two tables of a region and the limits of its intervals -/
structure Region (α : Type) where
  /-- limits of the intervals of `lower` -/
  ub : List α
  /-- limits of the intervals of `x` -/
  tb : List α
  nu : Nat
  nt : Nat
  px : Ptr
  pw : Ptr
  cx : Nat → α
  cw : Nat → α

/-- the arrays of the caller and the tables: 15 = 1+2+3+4+5 squares for each pair of intervals -/
structure FitMem (h : Heap α) (n : Nat) (u w im : Ptr) (R : Region α) : Prop where
  n5 : n ≤ 5
  ou : ∀ i, i < n → h.D (u + i) ≠ .oob
  ow : ∀ i, i < n → h.D (w + i) ≠ .oob
  oim : ∀ i, i < 84 → h.D (im + i) ≠ .oob
  uw : ∀ i j, i < n → j < n → u + i ≠ w + j
  uim : u.buf ≠ im.buf
  wim : w.buf ≠ im.buf
  xs : Stored h R.px R.cx (15*R.nu*R.nt*196)
  ws : Stored h R.pw R.cw (15*R.nu*R.nt*196)
  ux : u.buf ≠ R.px.buf ∧ u.buf ≠ R.pw.buf
  wx : w.buf ≠ R.px.buf ∧ w.buf ≠ R.pw.buf
  ix : im.buf ≠ R.px.buf ∧ im.buf ≠ R.pw.buf

/-- after the call with result `r`: the pair of intervals that contains `(lower, x)` exists, the roots and weights are the values of its
series, whose arguments lie in [-1, 1), and nothing but the `n` roots, the `n` weights and the local array has changed -/
def Fitted [LinearOrder α] (R : Region α) (n : Nat) (x lower : α) (u w im : Ptr) (h : Heap α) (r : Option (Nat × Heap α)) : Prop :=
  ∃ h' il ix u0 u1 t0 t1, r = some (0, h') ∧ il < R.nu ∧ ix < R.nt ∧
    R.ub[il]? = some u0 ∧ R.ub[il+1]? = some u1 ∧ u0 ≤ lower ∧ lower < u1 ∧
    R.tb[ix]? = some t0 ∧ R.tb[ix+1]? = some t1 ∧ t0 ≤ x ∧ x < t1 ∧
    (-1 ≤ scaled lower u0 u1 ∧ scaled lower u0 u1 < 1) ∧ (-1 ≤ scaled x t0 t1 ∧ scaled x t0 t1 < 1) ∧
    (∀ i, i < n → h'.D (u + i) = .val (series (fun k j => R.cx (square n R.nu R.nt il ix i + 14*k + j)) (scaled lower u0 u1) (scaled x t0 t1))) ∧
    (∀ i, i < n → h'.D (w + i) = .val (series (fun k j => R.cw (square n R.nu R.nt il ix i + 14*k + j)) (scaled lower u0 u1) (scaled x t0 t1))) ∧
    (∀ q, (∀ i, i < n → q ≠ u + i) → (∀ i, i < n → q ≠ w + i) → q.buf ≠ im.buf → h'.D q = h.D q) ∧ h'.I = h.I

theorem cheb_cheb (c : Nat → Nat → α) (u t : α) : cheb (fun j => cheb (fun k => c k j) u) t = series c u t := by
  unfold series
  rw [cheb]
  refine Finset.sum_congr rfl (fun j _ => ?_)
  rw [cheb, Finset.mul_sum, Finset.sum_mul]
  exact Finset.sum_congr rfl (fun k _ => by ring)

theorem square_lt {n nu nt il ix i k j : Nat} (hn : n ≤ 5) (hl : il < nu) (hx : ix < nt) (hi : i < n) (hk : k < 14) (hj : j < 14) :
    square n nu nt il ix i + 14*k + j < 15*nu*nt*196 := by
  have hN : il*nt+ix + 1 ≤ nu*nt := by
    calc il*nt+ix + 1 ≤ il*nt + nt := by omega
      _ = (il+1)*nt := by ring
      _ ≤ nu*nt := Nat.mul_le_mul_right _ hl
  unfold square
  rw [Nat.mul_assoc 15, Nat.mul_assoc ((n-1)*n/2)]
  generalize il*nt+ix = N at *
  generalize nu*nt = M at *
  interval_cases n <;> simp only [Nat.reduceMul, Nat.reduceSub, Nat.reduceDiv] <;> omega

theorem scaled_eq [LinearOrder α] [IsStrictOrderedRing α] {a lo hi : α} (h1 : lo ≤ a) (h2 : a < hi) :
    (a - lo) * 2 / (hi - lo) - 1 = scaled a lo hi ∧ -1 ≤ scaled a lo hi ∧ scaled a lo hi < 1 := by
  have : 0 < hi - lo := by linarith
  refine ⟨?_, ?_, ?_⟩
  · unfold scaled; field_simp; ring
  · unfold scaled; rw [le_div_iff₀ this]; linarith
  · unfold scaled; rw [div_lt_one this]; linarith

variable {h : Heap α} {n : Nat} {u w im : Ptr} {R : Region α}

/-- what one pass over a table leaves in `im` and then in `o` -/
theorem wp_pass (h : Heap α) (o im p : Ptr) (uu tt : α) (n : Nat) (hn : n ≤ 5) (c : Nat → Nat → Nat → α)
    (oo : ∀ i, i < n → h.D (o + i) ≠ .oob) (oim : ∀ i, i < 84 → h.D (im + i) ≠ .oob) (hoi : o.buf ≠ im.buf) (hpi : im.buf ≠ p.buf)
    (hc : ∀ i k j, i < n → k < 14 → j < 14 → h.D (p + (196*i + 14*k + j)) = .val (c i k j)) :
    wp (clenshawDc im p uu n) (fun _ h1 => wp (clenshawD1 o im tt n) (fun _ h' =>
      (∀ i, i < n → h'.D (o + i) = .val (series (c i) uu tt)) ∧
      (∀ q, (∀ i, i < n → q ≠ o + i) → q.buf ≠ im.buf → h'.D q = h.D q) ∧ (∀ q, h.D q ≠ .oob → h'.D q ≠ .oob) ∧ h'.I = h.I) h1) h := by
  refine wp_mono (wp_clenshawDc im p uu n c h (fun i j hi hj => oim _ (by omega)) (fun e => hpi e.symm) hc) ?_
  intro _ h1 H1
  have ne : ∀ (i m : Nat), im + i ≠ o + m := fun i m e => hoi (by simpa only [Ptr.add_buf] using (congrArg Ptr.buf e).symm)
  refine wp_mono (wp_clenshawD1 o im tt n (fun i j => cheb (fun k => c i k j) uu) h1 (fun i hi => H1.ne_oob (oo i hi)) (fun i j k _ _ _ => ne _ _)
    (fun i k hi hk => ?_)) ?_
  · have := H1.val (i, k) ⟨hi, hk⟩
    rw [Nat.add_comm (14*i) k]; exact this
  · intro _ h2 H2
    refine ⟨fun i hi => ?_, fun q hq hb => ?_, fun q hq => H2.ne_oob (H1.ne_oob hq), H2.int.trans H1.int⟩
    · rw [H2.val i hi, cheb_cheb]
    · rw [H2.frame q (fun i hi => hq i hi), H1.frame q (fun k _ e => hb (by rw [e]; rfl))]

variable [LinearOrder α] [IsStrictOrderedRing α]

theorem wp_branch (M : FitMem h n u w im R) {x lower u0 u1 : α} {il : Nat} (hil : il < R.nu) (hu0 : R.ub[il]? = some u0) (hu1 : R.ub[il+1]? = some u1)
    (hl0 : u0 ≤ lower) (hl1 : lower < u1) (hlen : R.tb.length = R.nt + 1) {f l : α} (hnt : 1 ≤ R.nt)
    (hf : R.tb[0]? = some f) (hfx : f ≤ x) (hl : R.tb[R.nt]? = some l) (hxl : x < l) :
    wp (branch n x lower R.nu il u0 u1 R.tb R.nt R.px R.pw u w im) (fun a h' => Fitted R n x lower u w im h (some (a, h'))) h := by
  unfold branch
  rw [wp_mbind]
  refine wp_mono (wp_search R.tb x (R.nt+1) h hlen (by omega) hf hfx hl hxl) ?_
  rintro ix h0 ⟨rfl, hix, t0, t1, ht0, ht1, hx0, hx1⟩
  have hix' : ix < R.nt := by omega
  simp only [wp_mbind]
  rw [wp_at _ ht0, wp_at _ ht1]
  unfold evalFit
  obtain ⟨e1, b1⟩ := scaled_eq hl0 hl1
  obtain ⟨e2, b2⟩ := scaled_eq hx0 hx1
  simp only [wp_mbind, e1, e2]
  have adr : ∀ (p : Ptr) i k j, p + ((n-1)*n/2*R.nu*R.nt + n*(il*R.nt+ix)) * 196 + (196*i + 14*k + j) = p + (square n R.nu R.nt il ix i + 14*k + j) := by
    intro p i k j
    rw [Ptr.add_assoc]; congr 1; unfold square; ring
  have X : ∀ i k j, i < n → k < 14 → j < 14 → h0.D (R.px + ((n-1)*n/2*R.nu*R.nt + n*(il*R.nt+ix)) * 196 + (196*i + 14*k + j)) =
      .val (R.cx (square n R.nu R.nt il ix i + 14*k + j)) := fun i k j hi hk hj => by
    rw [adr]; exact M.xs _ (square_lt M.n5 hil hix' hi hk hj)
  refine wp_mono (wp_pass h0 u im _ _ (scaled x t0 t1) n M.n5 _ M.ou M.oim M.uim (by simpa only [Ptr.add_buf] using M.ix.1) X) ?_
  intro _ h1 H1
  refine wp_mono H1 ?_
  rintro _ h2 ⟨A1, A2, A3, A4⟩
  have W : ∀ i k j, i < n → k < 14 → j < 14 → h2.D (R.pw + ((n-1)*n/2*R.nu*R.nt + n*(il*R.nt+ix)) * 196 + (196*i + 14*k + j)) =
      .val (R.cw (square n R.nu R.nt il ix i + 14*k + j)) := fun i k j hi hk hj => by
    rw [adr, A2 _ (fun m _ e => M.ux.2 (by simpa only [Ptr.add_buf] using (congrArg Ptr.buf e).symm)) (fun e => M.ix.2 (by simpa only [Ptr.add_buf] using e.symm))]
    exact M.ws _ (square_lt M.n5 hil hix' hi hk hj)
  refine wp_mono (wp_pass h2 w im _ _ (scaled x t0 t1) n M.n5 _ (fun i hi => A3 _ (M.ow i hi)) (fun i hi => A3 _ (M.oim i hi)) M.wim
    (by simpa only [Ptr.add_buf] using M.ix.2) W) ?_
  intro _ h3 H3
  refine wp_mono H3 ?_
  rintro _ h4 ⟨B1, B2, B3, B4⟩
  rw [wp_pure]
  refine ⟨h4, il, ix, u0, u1, t0, t1, rfl, hil, hix', hu0, hu1, hl0, hl1, ht0, ht1, hx0, hx1, b1, b2, fun i hi => ?_, B1, fun q h1 h2 h3 => ?_, B4.trans A4⟩
  · rw [B2 _ (fun j hj => M.uw i j hi hj) (by simpa only [Ptr.add_buf] using M.uim)]; exact A1 i hi
  · rw [B2 q h2 h3, A2 q h1 h3]

/-- the regions of the three pairs of tables in use; `cx`, `cw` are the coefficients -/
def region0 (T : Tables α) (cx cw : Nat → α) : Region α := ⟨u0base, t0base, 4, 3, T.x0, T.w0, cx, cw⟩
def region1 (T : Tables α) (cx cw : Nat → α) : Region α := ⟨u0base, T.t1, 4, 19, T.x1, T.w1, cx, cw⟩
def region2 (T : Tables α) (cx cw : Nat → α) : Region α := ⟨u2base, t2base, 5, 10, T.x2, T.w2, cx, cw⟩

end PolyFit

open PolyFit

variable {α : Type} [Field α] [LinearOrder α] [IsStrictOrderedRing α] (L : MathLib α) (T : Tables α)

/-- C62, `lower` < 0.1 and `x` < 12. -/
theorem C62_small {h : Heap α} {n : Nat} {u w im : Ptr} {cx cw : Nat → α} (M : FitMem h n u w im (region0 T cx cw)) {x lower : α}
    (hx : 0 ≤ x) (hl : 0 ≤ lower) (hl1 : lower < 1/10) (hx1 : x < 12) :
    Fitted (region0 T cx cw) n x lower u w im h (run (srPolyfits L T n x lower u w im) h) := by
  have hfar : ¬ x * lower * lower ≥ 3844/100 := by
    have : x * lower * lower ≤ 12 * (1/10) * (1/10) := by gcongr
    norm_num at this ⊢; linarith
  suffices H : wp (srPolyfits L T n x lower u w im) (fun a h' => Fitted (region0 T cx cw) n x lower u w im h (some (a, h'))) h by
    obtain ⟨a, h', e, H⟩ := (wp_iff_run _ _ _).1 H; rw [e]; exact H
  unfold srPolyfits
  simp only []
  rw [if_neg hfar, if_pos hl1, wp_mbind]
  refine wp_mono (wp_search u0base lower 5 h rfl (by omega) (f := 0) rfl hl (l := 1/10) rfl hl1) ?_
  rintro il h0 ⟨rfl, hil, u0, u1, e0, e1, b0, b1⟩
  rw [wp_mbind, wp_at _ e0, wp_mbind, wp_at _ e1, if_pos hx1]
  exact wp_branch M (by show il < 4; omega) e0 e1 b0 b1 rfl (by show 1 ≤ 3; omega) (f := 0) rfl hx (l := 12) rfl hx1

/-- C62, `lower` < 0.1 and `x` from 12 to the last limit of the second table. -/
theorem C62_large {h : Heap α} {n : Nat} {u w im : Ptr} {cx cw : Nat → α} (M : FitMem h n u w im (region1 T cx cw)) {x lower last : α}
    (ht : T.t1.length = 20) (h0 : T.t1[0]? = some 12) (h19 : T.t1[19]? = some last)
    (hl : 0 ≤ lower) (hl1 : lower < 1/10) (hx : 12 ≤ x) (hx1 : x < last) (hfar : x * lower * lower < 3844/100) :
    Fitted (region1 T cx cw) n x lower u w im h (run (srPolyfits L T n x lower u w im) h) := by
  suffices H : wp (srPolyfits L T n x lower u w im) (fun a h' => Fitted (region1 T cx cw) n x lower u w im h (some (a, h'))) h by
    obtain ⟨a, h', e, H⟩ := (wp_iff_run _ _ _).1 H; rw [e]; exact H
  unfold srPolyfits
  simp only []
  rw [if_neg (not_le.2 hfar), if_pos hl1, wp_mbind]
  refine wp_mono (wp_search u0base lower 5 h rfl (by omega) (f := 0) rfl hl (l := 1/10) rfl hl1) ?_
  rintro il h0' ⟨rfl, hil, u0, u1, e0, e1, b0, b1⟩
  rw [wp_mbind, wp_at _ e0, wp_mbind, wp_at _ e1, if_neg (not_lt.2 hx), wp_mbind, wp_at _ h19, if_pos hx1.le]
  exact wp_branch M (by show il < 4; omega) e0 e1 b0 b1 ht (by show 1 ≤ 19; omega) h0 hx h19 hx1

/-- C62, `lower` from 0.1 to 0.6 and `x` < 196. -/
theorem C62_middle {h : Heap α} {n : Nat} {u w im : Ptr} {cx cw : Nat → α} (M : FitMem h n u w im (region2 T cx cw)) {x lower : α}
    (hx : 0 ≤ x) (hl : 1/10 ≤ lower) (hl1 : lower < 6/10) (hx1 : x < 196) (hfar : x * lower * lower < 3844/100) :
    Fitted (region2 T cx cw) n x lower u w im h (run (srPolyfits L T n x lower u w im) h) := by
  suffices H : wp (srPolyfits L T n x lower u w im) (fun a h' => Fitted (region2 T cx cw) n x lower u w im h (some (a, h'))) h by
    obtain ⟨a, h', e, H⟩ := (wp_iff_run _ _ _).1 H; rw [e]; exact H
  unfold srPolyfits
  simp only []
  rw [if_neg (not_le.2 hfar), if_neg (not_lt.2 hl), if_pos hl1, wp_mbind]
  refine wp_mono (wp_search u2base lower 6 h rfl (by omega) (f := 1/10) rfl hl (l := 6/10) rfl hl1) ?_
  rintro il h0' ⟨rfl, hil, u0, u1, e0, e1, b0, b1⟩
  rw [wp_mbind, wp_at _ e0, wp_mbind, wp_at _ e1, if_pos hx1]
  exact wp_branch M (by show il < 5; omega) e0 e1 b0 b1 rfl (by show 1 ≤ 10; omega) (f := 0) rfl hx (l := 205) rfl (by linarith)

/-- C62, `x * lower²` at least 38.44: roots and weights are zero. -/
theorem C62_far {h : Heap α} {n : Nat} {u w im : Ptr} {x lower : α} (ou : ∀ i, i < n → h.D (u + i) ≠ .oob) (ow : ∀ i, i < n → h.D (w + i) ≠ .oob)
    (hfar : 3844/100 ≤ x * lower * lower) : ∃ h', run (srPolyfits L T n x lower u w im) h = some (0, h') ∧
      (∀ i, i < n → h'.D (u + i) = .val 0 ∧ h'.D (w + i) = .val 0) ∧
      (∀ q, (∀ i, i < n → q ≠ u + i ∧ q ≠ w + i) → h'.D q = h.D q) ∧ h'.I = h.I := by
  suffices H : wp (srPolyfits L T n x lower u w im) (fun a h' => a = 0 ∧ (∀ i, i < n → h'.D (u + i) = .val 0 ∧ h'.D (w + i) = .val 0) ∧
      (∀ q, (∀ i, i < n → q ≠ u + i ∧ q ≠ w + i) → h'.D q = h.D q) ∧ h'.I = h.I) h by
    obtain ⟨a, h', e, rfl, H⟩ := (wp_iff_run _ _ _).1 H; exact ⟨h', e, H⟩
  unfold srPolyfits
  simp only []
  rw [if_pos hfar, wp_mbind]
  refine wp_forN (fun m h' => (∀ i, i < m → h'.D (u + i) = .val 0 ∧ h'.D (w + i) = .val 0) ∧
      (∀ q, (∀ i, i < n → q ≠ u + i ∧ q ≠ w + i) → h'.D q = h.D q) ∧ (∀ q, h.D q ≠ .oob → h'.D q ≠ .oob) ∧ h'.I = h.I)
    ⟨fun i hi => by omega, fun _ _ => rfl, fun _ x => x, rfl⟩ ?_ ?_
  · rintro i hi h1 ⟨A, B, C, D⟩
    rw [wp_mbind, wp_st]
    refine ⟨C _ (ou i hi), ?_⟩
    rw [wp_st]
    have key : ∀ q, ((h1.setD (u + i) 0).setD (w + i) 0).D q = if q = w + i then .val 0 else if q = u + i then .val 0 else h1.D q := by
      intro q; rw [Heap.setD_D, Heap.setD_D]
    refine ⟨?_, fun j hj => ?_, fun q hq => ?_, fun q hq => ?_, by simpa using D⟩
    · rw [Heap.setD_D]; split
      · simp
      · exact C _ (ow i hi)
    · rw [key, key]
      rcases Nat.lt_succ_iff_lt_or_eq.1 hj with h2 | h2
      · rw [(A j h2).1, (A j h2).2]; simp
      · subst h2; simp
    · rw [key, if_neg (hq i hi).2, if_neg (hq i hi).1]; exact B q hq
    · rw [key]; split
      · simp
      · split
        · simp
        · exact C q hq
  · rintro h1 ⟨A, B, C, D⟩
    exact ⟨rfl, A, B, D⟩

/-- C62, refusal: the return value is 1 and the memory is unchanged. -/
theorem C62_refused {h : Heap α} {n : Nat} {u w im : Ptr} {x lower last : α} (h19 : T.t1[19]? = some last) (hlast : 12 ≤ last)
    (hl : 0 ≤ lower) (hfar : x * lower * lower < 3844/100)
    (hr : (lower < 1/10 ∧ last < x) ∨ (1/10 ≤ lower ∧ lower < 6/10 ∧ 196 ≤ x) ∨ 6/10 ≤ lower) :
    run (srPolyfits L T n x lower u w im) h = some (1, h) := by
  suffices H : wp (srPolyfits L T n x lower u w im) (fun a h' => a = 1 ∧ h' = h) h by
    obtain ⟨a, h', e, rfl, rfl⟩ := (wp_iff_run _ _ _).1 H; exact e
  unfold srPolyfits
  simp only []
  rw [if_neg (not_le.2 hfar)]
  rcases hr with ⟨hl1, hx⟩ | ⟨hl0, hl1, hx⟩ | hl1
  · rw [if_pos hl1, wp_mbind]
    refine wp_mono (wp_search u0base lower 5 h rfl (by omega) (f := 0) rfl hl (l := 1/10) rfl hl1) ?_
    rintro il h0' ⟨rfl, hil, u0, u1, e0, e1, b0, b1⟩
    rw [wp_mbind, wp_at _ e0, wp_mbind, wp_at _ e1, if_neg (not_lt.2 (by linarith)), wp_mbind, wp_at _ h19, if_neg (not_le.2 hx)]
    exact ⟨rfl, rfl⟩
  · rw [if_neg (not_lt.2 hl0), if_pos hl1, wp_mbind]
    refine wp_mono (wp_search u2base lower 6 h rfl (by omega) (f := 1/10) rfl hl0 (l := 6/10) rfl hl1) ?_
    rintro il h0' ⟨rfl, hil, u0, u1, e0, e1, b0, b1⟩
    rw [wp_mbind, wp_at _ e0, wp_mbind, wp_at _ e1, if_neg (not_lt.2 hx), wp_mbind, wp_at (y := (62/10 : α)) _ rfl,
      if_neg (not_le.2 (by norm_num; linarith))]
    exact ⟨rfl, rfl⟩
  · rw [if_neg (not_lt.2 (by norm_num at hl1 ⊢; linarith)), if_neg (not_lt.2 hl1)]
    exact ⟨rfl, rfl⟩

/-- C62, the defect at the end of the second table: when `x` equals its last limit, the limit after the last one is read. -/
theorem C62_end_undefined {h : Heap α} {n : Nat} {u w im : Ptr} {x lower : α} (ht : T.t1.length = 20)
    (hinc : ∀ (j : Nat) (y : α), T.t1[j]? = some y → y ≤ x) (h19 : T.t1[19]? = some x) (hx : 12 ≤ x)
    (hl : 0 ≤ lower) (hl1 : lower < 1/10) (hfar : x * lower * lower < 3844/100) :
    run (srPolyfits L T n x lower u w im) h = none := by
  have A := (wp_iff_run _ _ _).1 (wp_search u0base lower 5 h rfl (by omega) (f := 0) rfl hl (l := 1/10) rfl hl1)
  obtain ⟨il, h', e, rfl, hil, u0, u1, e0, e1, -, -⟩ := A
  obtain ⟨_, h', f, rfl, rfl⟩ := (wp_iff_run _ _ _).1 (wp_search_last T.t1 x 20 h' ht (by omega) hinc)
  have at0 : ∀ {a : List α} {i : Nat} {y : α}, a[i]? = some y → run (at_ a i) h' = some (y, h') := fun hy => by unfold at_; rw [hy]; rfl
  unfold srPolyfits
  simp only []
  rw [if_neg (not_le.2 hfar), if_pos hl1]
  simp only [run_bind, e, Option.bind_some, at0 e0, at0 e1, if_neg (not_lt.2 hx), at0 h19, le_refl, if_true, branch, f,
    run_at_none h' (show T.t1.length ≤ 20 - 1 + 1 by omega), Option.bind_none]

/-! A case that meets the hypotheses: three roots, tables in memory. -/
namespace PolyFit
def demoTables : Tables ℚ := ⟨⟨2, 0⟩, ⟨3, 0⟩, ⟨4, 0⟩, ⟨5, 0⟩, ⟨6, 0⟩, ⟨7, 0⟩, ⟨8, 0⟩, ⟨9, 0⟩,
  [12, 13, 14, 15, 16, 17, 18, 19, 20, 22, 24, 26, 28, 30, 35, 40, 50, 60, 70, 80]⟩
def demoHeap : Heap ℚ where
  D q := if q.buf = 0 ∨ q.buf = 1 then .undef else .val (q.off * q.buf)
  I _ := .oob
def demoLib : MathLib ℚ := ⟨id, id, id⟩

theorem demoMem (R : Region ℚ) (hx : 2 ≤ R.px.buf) (hw : 2 ≤ R.pw.buf) (h0 : R.px.off = 0) (h0' : R.pw.off = 0)
    (hcx : R.cx = fun i : ℕ => (i * R.px.buf : ℚ)) (hcw : R.cw = fun i : ℕ => (i * R.pw.buf : ℚ)) : FitMem demoHeap 3 ⟨0, 0⟩ ⟨0, 3⟩ ⟨1, 0⟩ R where
  n5 := by omega
  ou i _ := by simp [demoHeap]
  ow i _ := by simp [demoHeap]
  oim i _ := by simp [demoHeap]
  uw i j hi hj := by
    simp only [Ptr.add_def, ne_eq, Ptr.mk.injEq]; omega
  uim := by simp
  wim := by simp
  xs i _ := by
    simp only [demoHeap, Ptr.add_buf, Ptr.add_off, h0, hcx, Nat.zero_add]
    rw [if_neg (by omega)]
  ws i _ := by
    simp only [demoHeap, Ptr.add_buf, Ptr.add_off, h0', hcw, Nat.zero_add]
    rw [if_neg (by omega)]
  ux := by constructor <;> simp only [ne_eq] <;> omega
  wx := by constructor <;> simp only [ne_eq] <;> omega
  ix := by constructor <;> simp only [ne_eq] <;> omega

example : Fitted (region0 demoTables (fun i : ℕ => (i * 3 : ℚ)) (fun i : ℕ => (i * 2 : ℚ))) 3 5 (1/30) ⟨0, 0⟩ ⟨0, 3⟩ ⟨1, 0⟩ demoHeap
    (run (srPolyfits demoLib demoTables 3 5 (1/30) ⟨0, 0⟩ ⟨0, 3⟩ ⟨1, 0⟩) demoHeap) :=
  C62_small _ _ (demoMem _ (by decide) (by decide) rfl rfl (by simp [region0, demoTables]) (by simp [region0, demoTables])) (by norm_num) (by norm_num) (by norm_num) (by norm_num)

example : Fitted (region1 demoTables (fun i : ℕ => (i * 5 : ℚ)) (fun i : ℕ => (i * 4 : ℚ))) 3 (71/2) (1/30) ⟨0, 0⟩ ⟨0, 3⟩ ⟨1, 0⟩ demoHeap
    (run (srPolyfits demoLib demoTables 3 (71/2) (1/30) ⟨0, 0⟩ ⟨0, 3⟩ ⟨1, 0⟩) demoHeap) :=
  C62_large _ _ (demoMem _ (by decide) (by decide) rfl rfl (by simp [region1, demoTables]) (by simp [region1, demoTables])) (last := 80) rfl rfl rfl
    (by norm_num) (by norm_num) (by norm_num) (by norm_num) (by norm_num)

example : Fitted (region2 demoTables (fun i : ℕ => (i * 7 : ℚ)) (fun i : ℕ => (i * 6 : ℚ))) 3 100 (1/3) ⟨0, 0⟩ ⟨0, 3⟩ ⟨1, 0⟩ demoHeap
    (run (srPolyfits demoLib demoTables 3 100 (1/3) ⟨0, 0⟩ ⟨0, 3⟩ ⟨1, 0⟩) demoHeap) :=
  C62_middle _ _ (demoMem _ (by decide) (by decide) rfl rfl (by simp [region2, demoTables]) (by simp [region2, demoTables]))
    (by norm_num) (by norm_num) (by norm_num) (by norm_num) (by norm_num)

example : ∃ h', run (srPolyfits demoLib demoTables 3 400 (1/2) ⟨0, 0⟩ ⟨0, 3⟩ ⟨1, 0⟩) demoHeap = some (0, h') ∧ h'.D ⟨0, 4⟩ = .val 0 := by
  obtain ⟨h', e, a, _⟩ := C62_far demoLib demoTables (h := demoHeap) (n := 3) (u := ⟨0, 0⟩) (w := ⟨0, 3⟩) (im := ⟨1, 0⟩) (x := 400) (lower := 1/2)
    (fun i _ => by simp [demoHeap]) (fun i _ => by simp [demoHeap]) (by norm_num)
  exact ⟨h', e, (a 1 (by omega)).2⟩

/-- `x` = 300 and `lower` = 0.2, for which the last table was made, are refused -/
example : run (srPolyfits demoLib demoTables 3 300 (1/5) ⟨0, 0⟩ ⟨0, 3⟩ ⟨1, 0⟩) demoHeap = some (1, demoHeap) :=
  C62_refused _ _ (last := 80) rfl (by norm_num) (by norm_num) (by norm_num) (Or.inr (Or.inl ⟨by norm_num, by norm_num, by norm_num⟩))

example : run (srPolyfits demoLib demoTables 3 80 (1/30) ⟨0, 0⟩ ⟨0, 3⟩ ⟨1, 0⟩) demoHeap = none := by
  refine C62_end_undefined _ _ rfl ?_ rfl (by norm_num) (by norm_num) (by norm_num) (by norm_num)
  intro j y hy
  have hm := List.mem_of_getElem? hy
  simp only [demoTables, List.mem_cons, List.not_mem_nil, or_false] at hm
  rcases hm with e | e | e | e | e | e | e | e | e | e | e | e | e | e | e | e | e | e | e | e <;> rw [e] <;> norm_num
end PolyFit

end Verif.Props
