import Verif.Lemmas.SphBlock
import Verif.Lemmas.Ket1
import Verif.Props.Out
import Verif.Lemmas.Harmonic
import Verif.Model.Drv1e
import Mathlib.Tactic.IntervalCases

/-!
C19 — Cartesian to spherical transformation.
C17, C18 — placement, padding, history independence for spherical output.
-/
namespace Verif.Props
open Verif Verif.Model Verif.Prog Verif.Lemmas Verif.Spec

variable {α : Type} [Field α]

/-- C19, one index, bra side: whichever kernel is selected for `l` (identity for s and p, hand-written
for d, f, g, matrix product above), the result is the table's matrix applied to the first index of
every column. -/
theorem C19_bra {l : Nat} (hl : l ≤ 15) {tab gsph gcart : Ptr} {nket : Nat} {h : Heap α} {X : Nat → α}
    (hT : HoldsTab h tab) (hX : HoldsD h gcart (ncart l * nket) X) (hS : AllocD h gsph ((l*2+1)*nket))
    (ht : tab.buf ≠ gsph.buf) (hd : Disj gcart (ncart l * nket) gsph ((l*2+1)*nket)) :
    ∃ r h', run (braSph tab l gsph nket gcart) h = some (r, h') ∧
      (∀ j m, j < nket → m < l*2+1 → h'.D (r + (j*(l*2+1) + m)) =
        .val (∑ k ∈ Finset.range (ncart l), c2sCoef l m k * X (j*ncart l + k))) ∧
      (∀ q, (∀ x, x < (l*2+1)*nket → q ≠ gsph + x) → h'.D q = h.D q) ∧ h'.I = h.I := by
  obtain ⟨r, h', hr, K⟩ := (wp_iff_run _ _ _).1 (braSph_wp (by omega) hT hX hS ht hd)
  refine ⟨r, h', hr, fun j m hj hm => ?_, fun q hq => K.agree q (fun ⟨x, hx, e⟩ => hq x hx e), K.int⟩
  rw [K.val _ (digit_lt hm hj)]
  unfold braV sphV
  rw [(digit hm).1, (digit hm).2]

/-- C19, one index, ket side -/
theorem C19_ket {l : Nat} (hl : l ≤ 15) {tab gsph gcart : Ptr} {nbra : Nat} {h : Heap α} {X : Nat → α}
    (hT : HoldsTab h tab) (hX : HoldsD h gcart (nbra * ncart l) X) (hS : AllocD h gsph (nbra*(l*2+1)))
    (ht : tab.buf ≠ gsph.buf) (hd : Disj gcart (nbra * ncart l) gsph (nbra*(l*2+1))) :
    ∃ r h', run (ketSph tab l gsph gcart nbra nbra) h = some (r, h') ∧
      (∀ i m, i < nbra → m < l*2+1 → h'.D (r + (m*nbra + i)) =
        .val (∑ k ∈ Finset.range (ncart l), c2sCoef l m k * X (k*nbra + i))) ∧
      (∀ q, (∀ x, x < nbra*(l*2+1) → q ≠ gsph + x) → h'.D q = h.D q) ∧ h'.I = h.I := by
  obtain ⟨r, h', hr, K⟩ := (wp_iff_run _ _ _).1 (ketSph_wp (by omega) hT hX hS ht hd)
  refine ⟨r, h', hr, fun i m hi hm => ?_, fun q hq => K.agree q (fun ⟨x, hx, e⟩ => hq x hx e), K.int⟩
  rw [K.val _ (digit_lt hi hm)]
  unfold ketV sphV
  rw [(digit hi).1, (digit hi).2]

/-- C19, one index, ket side, into an array of `lds` rows (the exported CINTc2s_ket_sph1): also for `l ≤ 1` the
result is in the output array, only the elements of the block change, and the rows between `nbra` and `lds` keep
their value -/
theorem C19_ket1 {l : Nat} (hl : l ≤ 15) {tab gsph gcart : Ptr} {lds nbra : Nat} {h : Heap α} {X : Nat → α}
    (hT : HoldsTab h tab) (hld : nbra ≤ lds) (hX : HoldsD h gcart (nbra * ncart l) X)
    (hS : ∀ i m, i < nbra → m < l*2+1 → h.D (gsph + (m*lds+i)) ≠ .oob) (ht : tab.buf ≠ gsph.buf)
    (hd : ∀ x i m, x < nbra * ncart l → i < nbra → m < l*2+1 → gcart + x ≠ gsph + (m*lds+i)) :
    ∃ h', run (ketSph1 tab l gsph gcart lds nbra) h = some (gsph, h') ∧
      (∀ i m, i < nbra → m < l*2+1 → h'.D (gsph + (m*lds + i)) =
        .val (∑ k ∈ Finset.range (ncart l), c2sCoef l m k * X (k*nbra + i))) ∧
      (∀ q, (∀ i m, i < nbra → m < l*2+1 → q ≠ gsph + (m*lds+i)) → h'.D q = h.D q) ∧ h'.I = h.I := by
  obtain ⟨r, h', hr, rfl, K⟩ := (wp_iff_run _ _ _).1 (ketSph1_wp (by omega) hT hld hX hS ht hd)
  exact ⟨h', hr, fun i m hi hm => K.val (i, m) ⟨hi, hm⟩, fun q hq => K.frame q fun p hp e => hq p.1 p.2 hp.1 hp.2 e, K.int⟩

/-- C19: the matrix is the right one. For every angular momentum up to 15 and every function of the shell,
the row of the table, times the normalisation factor that the drivers apply to s and p shells, consists of
the coefficients of the normalised real solid harmonic of order -l, …, l (x, y, z for p shells) in the
monomials of the documented component order, to a relative error of 10⁻¹⁵ in each coefficient. -/
theorem C19_harmonics (l i : Nat) (hl : l ≤ 15) (hi : i < l*2+1) : ∃ T : Nat → ℝ,
    (∀ x y z, solid l (mAt l i) x y z =
      ∑ k ∈ Finset.range (ncart l), T k * (x^(px l k) * y^(py l k) * z^(pz l k))) ∧
    ∀ k, k < ncart l → |commonFacSp l * c2sCoef l i k - T k| ≤ 1/10^15 * |T k| := by
  refine ⟨fun k => sphNorm l (mAt l i).natAbs * ((polyC l (mAt l i) (py l k) (pz l k) : ℝ) / 2^l),
    solid_sum (mAt_le hi), fun k hk => ?_⟩
  have hr := row_spec k
  have hrl : row k < l + 1 := by
    by_contra hc
    have := tri_mono (show l + 1 ≤ row k by omega)
    rw [ncart_eq_tri] at hk
    omega
  have hc : col k < row k + 1 := by
    have := tri_succ (row k)
    unfold col
    omega
  have := rows_check l (by omega) i hi (row k) hrl (col k) hc
  unfold cellOK at this
  rw [tri_row_col] at this
  have h2 := close_spec this
  refine le_of_eq_of_le ?_ h2
  unfold py pz
  congr 2
  unfold c2sCoef
  rw [rowDec_eq]
  unfold decVal commonFacSp facDec
  by_cases h0 : l = 0
  · subst h0; simp; ring
  · by_cases h1 : l = 1
    · subst h1; simp; ring
    · simp [h0, h1]

/-! ### Whole blocks -/

/-- the block transformation of `c2s_sph_1e`, `c2s_sph_3c2e1`, `c2s_sph_2e1` -/
def sphTransR (r : Nat) (tab : Ptr) (fpd : Nat) (l : Nat → Nat) (buf c : Nat) : Ptr → Prog α Ptr :=
  if r = 2 then sphTrans1e tab fpd (l 0) (l 1) buf c
  else if r = 3 then sphTrans3c tab fpd (l 0) (l 1) (l 2) buf c
  else sphTrans2e tab fpd (l 0) (l 1) (l 2) (l 3) buf c

/-- functions per shell -/
def nsph (l : Nat → Nat) (t : Nat) : Nat := l t * 2 + 1
/-- Cartesian functions per shell -/
def ncar (l : Nat → Nat) (t : Nat) : Nat := ncart (l t)
/-- length of a Cartesian block -/
def blkLen (l : Nat → Nat) : Nat := ncar l 0 * ncar l 1 * ncar l 2 * ncar l 3

theorem sph3_eq (l1 l2 l3 : Nat) (X : Nat → α) (i j k : Nat) : sph3 l1 l2 l3 X i j k = sph4 l1 l2 l3 0 X i j k 0 := by
  unfold sph3 sph4
  refine Finset.sum_congr rfl fun a _ => Finset.sum_congr rfl fun b _ => Finset.sum_congr rfl fun c _ => ?_
  rw [show ncart 0 = 1 from rfl, Finset.sum_range_one, coef_id (l := 0) (m := 0) (by omega) (by omega)]
  simp

theorem sph2_eq (l1 l2 : Nat) (X : Nat → α) (i j : Nat) : sph2 l1 l2 X i j = sph4 l1 l2 0 0 X i j 0 0 := by
  rw [← sph3_eq]
  unfold sph2 sph3
  refine Finset.sum_congr rfl fun a _ => Finset.sum_congr rfl fun b _ => ?_
  rw [show ncart 0 = 1 from rfl, Finset.sum_range_one, coef_id (l := 0) (m := 0) (by omega) (by omega)]
  simp

theorem sphTransR_wp {r : Nat} {l : Nat → Nat} (hr : r = 2 ∨ r = 3 ∨ r = 4) (hl0 : ∀ t, r ≤ t → t < 4 → l t = 0)
    (hl : ∀ t, t < 4 → l t ≤ 15) {h : Heap α} {tab gctr : Ptr} {buf o size fpd : Nat} {X : Nat → α} (hf : 0 < fpd)
    (hb : tab.buf ≠ buf) (S : Stg h tab buf o size h gctr (blkLen l) X o) (hs : o + blkLen l * r ≤ size) :
    wp (sphTransR r tab fpd l buf (fpd*o) gctr) (fun rp h' =>
      Stg h tab buf o size h' rp (nsph l 0 * nsph l 1 * nsph l 2 * nsph l 3) (fun x => sph4 (l 0) (l 1) (l 2) (l 3) X
        (x % nsph l 0) (x / nsph l 0 / nsph l 2 / nsph l 3) (x / nsph l 0 % nsph l 2)
        (x / nsph l 0 / nsph l 2 % nsph l 3)) size) h := by
  have b0 := hl 0 (by omega)
  have b1 := hl 1 (by omega)
  have b2 := hl 2 (by omega)
  have b3 := hl 3 (by omega)
  have hj := nd_le_ncart (l 1)
  unfold sphTransR nsph
  unfold blkLen ncar at S hs
  obtain rfl | rfl | rfl := hr
  · rw [if_pos rfl]
    have z2 := hl0 2 (by omega) (by omega)
    have z3 := hl0 3 (by omega) (by omega)
    rw [z2, z3] at S hs
    rw [z2, z3]
    rw [show ncart 0 = 1 from rfl] at S hs
    have e : ncart (l 0) * ncart (l 1) * 1 * 1 = ncart (l 0) * ncart (l 1) := by ring
    have h1 : ncart (l 0) * (l 1 * 2 + 1) ≤ ncart (l 0) * ncart (l 1) := Nat.mul_le_mul_left _ hj
    refine wp_mono (sphTrans1e_wp hf (by omega) (by omega) hb (S.cast e) (by omega)) ?_
    intro rp h' S'
    refine { S'.cast (by ring) with val := fun x hx => ?_ }
    rw [S'.val x (by rw [show (0*2+1) = 1 from rfl] at hx; omega)]
    simp only [sph2_eq, Nat.zero_mul, Nat.zero_add, Nat.div_one, Nat.mod_one]
  · rw [if_neg (by omega), if_pos rfl]
    have z3 := hl0 3 (by omega) (by omega)
    rw [z3] at S hs
    rw [z3]
    rw [show ncart 0 = 1 from rfl] at S hs
    have e : ncart (l 0) * ncart (l 1) * ncart (l 2) * 1 = ncart (l 0) * ncart (l 2) * ncart (l 1) := by ring
    have h1 : ncart (l 0) * ncart (l 2) * (l 1 * 2 + 1) ≤ ncart (l 0) * ncart (l 2) * ncart (l 1) := Nat.mul_le_mul_left _ hj
    refine wp_mono (sphTrans3c_wp hf (by omega) (by omega) (by omega) hb (S.cast e) (by omega)) ?_
    intro rp h' S'
    have e2 : (l 0 * 2 + 1) * ((l 2 * 2 + 1) * (l 1 * 2 + 1)) = (l 0 * 2 + 1) * (l 1 * 2 + 1) * (l 2 * 2 + 1) * (0 * 2 + 1) := by ring
    refine { S'.cast e2 with val := fun x hx => ?_ }
    rw [S'.val x (by rw [e2]; exact hx)]
    simp only [sph3_eq, Nat.zero_mul, Nat.zero_add, Nat.div_one, Nat.mod_one]
  · rw [if_neg (by omega), if_neg (by omega)]
    have e : ncart (l 0) * ncart (l 1) * ncart (l 2) * ncart (l 3) = ncart (l 0) * ncart (l 2) * ncart (l 3) * ncart (l 1) := by ring
    have h1 : ncart (l 0) * ncart (l 2) * ncart (l 3) * (l 1 * 2 + 1) ≤ ncart (l 0) * ncart (l 2) * ncart (l 3) * ncart (l 1) :=
      Nat.mul_le_mul_left _ hj
    refine wp_mono (sphTrans2e_wp hf (by omega) (by omega) (by omega) (by omega) hb (S.cast e) (by omega)) ?_
    intro rp h' S'
    have e2 : (l 0 * 2 + 1) * ((l 2 * 2 + 1) * ((l 3 * 2 + 1) * (l 1 * 2 + 1))) =
      (l 0 * 2 + 1) * (l 1 * 2 + 1) * (l 2 * 2 + 1) * (l 3 * 2 + 1) := by ring
    refine { S'.cast e2 with val := fun x hx => ?_ }
    rw [S'.val x (by rw [e2]; exact hx)]

/-- the output stage of the drivers with spherical output; `o` is the number of doubles of the cache
in use before it -/
def sphStage (r : Nat) (hasValue : Bool) (l nctr : Nat → Nat) (nComp : Nat) (out : Ptr) (dims : Option Ptr)
    (gctr counts tab : Ptr) (fpd buf o : Nat) : Prog α Unit :=
  outStage r hasValue nComp (blkLen l * (nctr 0*nctr 1*nctr 2*nctr 3))
    (c2sFun r (shapeOf (nsph l) nctr (blkLen l)) (sphTransR r tab fpd l buf (fpd*o))) out gctr dims counts
    (fun t => nsph l t * nctr t)

/-- What the spherical output stage needs. -/
structure SphStage (r : Nat) (l nctr nd : Nat → Nat) (nComp : Nat) (out : Ptr) (dims : Option Ptr)
    (gctr counts tab : Ptr) (fpd buf o size : Nat) (X : Nat → α) (h : Heap α) : Prop where
  h_fpd : 0 < fpd
  h_l : ∀ t, t < 4 → l t ≤ 15
  h_l0 : ∀ t, r ≤ t → t < 4 → l t = 0
  h_sizes : Sizes r (nsph l) nctr nd
  h_dims : DimsArg r h dims counts nd (fun t => nsph l t * nctr t)
  h_counts : ∀ t, t < 4 → h.I (counts + t) ≠ .oob
  /-- the table -/
  h_tab : HoldsTab h tab
  /-- the contracted Cartesian integrals, in the used part of the cache -/
  h_gctr : HoldsD h gctr (nComp * (blkLen l * (nctr 0*nctr 1*nctr 2*nctr 3))) X
  h_gbuf : gctr.buf = buf
  h_used : gctr.off + nComp * (blkLen l * (nctr 0*nctr 1*nctr 2*nctr 3)) ≤ o
  /-- the free part of the cache -/
  h_free : o + blkLen l * r ≤ size
  h_cache : ∀ k, k < size → h.D ⟨buf, k⟩ ≠ .oob
  h_out : ∀ m, InBlock nd (fun t => nsph l t * nctr t) nComp m → h.D (out + m) ≠ .oob
  h_tbuf : tab.buf ≠ buf
  h_obuf : out.buf ≠ buf ∧ out.buf ≠ tab.buf

open Finset in
/-- The transformed integral: function `i` of contraction `ic` of the first shell and so on. -/
def sphOf (l nctr : Nat → Nat) (X : Nat → α) (n ic jc kc lc i j k m : Nat) : α :=
  ∑ a ∈ range (ncart (l 0)), ∑ b ∈ range (ncart (l 1)), ∑ c ∈ range (ncart (l 2)), ∑ d ∈ range (ncart (l 3)),
    c2sCoef (l 0) i a * c2sCoef (l 1) j b * c2sCoef (l 2) k c * c2sCoef (l 3) m d *
      X (ctrAt nctr (ncar l) n ic jc kc lc a b c d)

theorem sph_transOK {r : Nat} {l nctr nd : Nat → Nat} {nComp : Nat} {out : Ptr} {dims : Option Ptr}
    {gctr counts tab : Ptr} {fpd buf o size : Nat} {X : Nat → α} {h : Heap α}
    (H : SphStage r l nctr nd nComp out dims gctr counts tab fpd buf o size X h) (n : Nat) (hn : n < nComp) :
    TransOK (sphTransR r tab fpd l buf (fpd*o)) (gctr + (blkLen l * (nctr 0*nctr 1*nctr 2*nctr 3))*n) (blkLen l)
      (nctr 3*nctr 2*nctr 1*nctr 0) (nsph l 0*nsph l 1*nsph l 2*nsph l 3)
      (fun b x => sph4 (l 0) (l 1) (l 2) (l 3) (fun y => X (blkLen l * (nctr 0*nctr 1*nctr 2*nctr 3) * n + b*blkLen l + y))
        (x % nsph l 0) (x / nsph l 0 / nsph l 2 / nsph l 3) (x / nsph l 0 % nsph l 2)
        (x / nsph l 0 / nsph l 2 % nsph l 3))
      (fun q => q.buf = buf ∧ o ≤ q.off)
      (fun q => ∃ m, InBlock nd (fun t => nsph l t * nctr t) nComp m ∧ q = out + m)
      (fun h' => HoldsTab h' tab ∧ HoldsD h' gctr (nComp * (blkLen l * (nctr 0*nctr 1*nctr 2*nctr 3))) X ∧
        ∀ k, k < size → h'.D ⟨buf, k⟩ ≠ .oob) := by
  have hb : ∀ b m, b < nctr 3*nctr 2*nctr 1*nctr 0 → m < blkLen l →
      blkLen l * (nctr 0*nctr 1*nctr 2*nctr 3) * n + b*blkLen l + m <
        nComp * (blkLen l * (nctr 0*nctr 1*nctr 2*nctr 3)) := by
    intro b m hb hm
    have e : blkLen l * (nctr 0*nctr 1*nctr 2*nctr 3) = nctr 3*nctr 2*nctr 1*nctr 0*blkLen l := by ring
    rw [e, Nat.mul_comm _ n, Nat.add_assoc]
    exact radix_lt hn (radix_lt hb hm)
  have hblk : ∀ b, b < nctr 3*nctr 2*nctr 1*nctr 0 →
      blkLen l * (nctr 0*nctr 1*nctr 2*nctr 3) * n + b*blkLen l + blkLen l ≤
        nComp * (blkLen l * (nctr 0*nctr 1*nctr 2*nctr 3)) := by
    intro b hb'
    have hp : 0 < blkLen l := by
      unfold blkLen ncar
      exact Nat.mul_pos (Nat.mul_pos (Nat.mul_pos (ncart_pos _) (ncart_pos _)) (ncart_pos _)) (ncart_pos _)
    have := hb b (blkLen l - 1) hb' (by omega)
    omega
  refine ⟨fun b hb' h' hok => ?_, fun h1 h2 hok hA hM _ => ?_, fun q hw ho => ?_⟩
  · have S : Stg h' tab buf o size h' (gctr + blkLen l * (nctr 0*nctr 1*nctr 2*nctr 3) * n + b*blkLen l) (blkLen l)
        (fun y => X (blkLen l * (nctr 0*nctr 1*nctr 2*nctr 3) * n + b*blkLen l + y)) o := by
      refine ⟨hok.1, fun m hm => ?_, H.h_gbuf, ?_, AgreeD.refl _ _, rfl, hok.2.2⟩
      · rw [← hok.2.1 _ (hb b m hb' hm)]
        simp only [Ptr.add_assoc, Nat.add_assoc]
      · have h1 := hblk b hb'
        have h2 := H.h_used
        show gctr.off + blkLen l * (nctr 0*nctr 1*nctr 2*nctr 3) * n + b*blkLen l + blkLen l ≤ o
        omega
    refine wp_mono (sphTransR_wp H.h_sizes.rank H.h_l0 H.h_l H.h_fpd H.h_tbuf S H.h_free) ?_
    intro tmp h2 S2
    refine ⟨S2.val, S2.agree, S2.int, ?_⟩
    rintro m _ ⟨m', _, e⟩
    have e1 : tmp.buf = out.buf := (congrArg Ptr.buf e :)
    exact H.h_obuf.1 (by rw [← e1, S2.rbuf])
  · refine ⟨holdsTab_agree hok.1 hA ?_, ?_, fun k hk => hM _ (hok.2.2 k hk)⟩
    · rintro q (⟨hw, _⟩ | ⟨m, _, rfl⟩)
      · rw [hw]; exact H.h_tbuf.symm
      · exact H.h_obuf.2
    · refine hok.2.1.agree hA (fun i hi => ?_)
      rintro (⟨_, hw⟩ | ⟨m, hm, e⟩)
      · have : o ≤ gctr.off + i := hw
        have := H.h_used
        omega
      · have e1 : gctr.buf = out.buf := (congrArg Ptr.buf e :)
        exact H.h_obuf.1 (by rw [← e1, H.h_gbuf])
  · obtain ⟨m, _, rfl⟩ := ho
    exact H.h_obuf.1 hw.1

/-- C19 and C17 for spherical output of two-, three- and four-index integrals: component `n` over functions
`ic*(2l+1) + i`, … is the Cartesian block with the table's matrix applied to each index, stored at the
position given by `dims`; outside the block (in particular in the padding) and outside the free part of
the cache no double changes. -/
theorem C19_spherical_block {r : Nat} {l nctr nd : Nat → Nat} {nComp : Nat} {out : Ptr} {dims : Option Ptr}
    {gctr counts tab : Ptr} {fpd buf o size : Nat} {X : Nat → α} {h : Heap α}
    (H : SphStage r l nctr nd nComp out dims gctr counts tab fpd buf o size X h) :
    ∃ h', run (sphStage r true l nctr nComp out dims gctr counts tab fpd buf o) h = some ((), h') ∧
      (∀ n ic jc kc lc i j k m, n < nComp → ic < nctr 0 → jc < nctr 1 → kc < nctr 2 → lc < nctr 3 →
        i < nsph l 0 → j < nsph l 1 → k < nsph l 2 → m < nsph l 3 →
        h'.D (out + outAt nd n (ic*nsph l 0+i) (jc*nsph l 1+j) (kc*nsph l 2+k) (lc*nsph l 3+m)) =
          .val (sphOf l nctr X n ic jc kc lc i j k m)) ∧
      (∀ q, ¬ (q.buf = buf ∧ o ≤ q.off) → (∀ m, InBlock nd (fun t => nsph l t * nctr t) nComp m → q ≠ out + m) →
        h'.D q = h.D q) ∧
      (∀ q, (∀ t, t < 4 → q ≠ counts + t) → h'.I q = h.I q) := by
  obtain ⟨h', hrun, hv, hf, hI⟩ := outStage_value H.h_sizes _ H.h_dims H.h_counts
    (ok := fun h' => HoldsTab h' tab ∧ HoldsD h' gctr (nComp * (blkLen l * (nctr 0*nctr 1*nctr 2*nctr 3))) X ∧
        ∀ k, k < size → h'.D ⟨buf, k⟩ ≠ .oob)
    (fun h' e _ => ⟨fun l hl x hx => by rw [e]; exact H.h_tab l hl x hx, fun i hi => by rw [e]; exact H.h_gctr i hi,
      fun k hk => by rw [e]; exact H.h_cache k hk⟩) (sph_transOK H) H.h_out
  refine ⟨h', hrun, ?_, hf, hI⟩
  intro n ic jc kc lc i j k m hn hic hjc hkc hlc hi hj hk hm
  rw [hv n _ _ _ _ hn (digit_lt hi hic) (digit_lt hj hjc) (digit_lt hk hkc) (digit_lt hm hlc)]
  unfold sph4 sphOf cellNo posIklj shapeOf blkNo
  simp only [(digit hi).1, (digit hi).2, (digit hj).1, (digit hj).2, (digit hk).1, (digit hk).2,
    (digit hm).1, (digit hm).2]
  congr 1
  refine Finset.sum_congr rfl fun a _ => Finset.sum_congr rfl fun b _ => Finset.sum_congr rfl fun c _ =>
    Finset.sum_congr rfl fun d _ => ?_
  congr 2
  unfold ctrAt blkLen ncar
  ring

/-- C17, spherical output: NULL for `dims` gives the same array as the shell sizes. -/
theorem C17_spherical_null_dims {r : Nat} {l nctr nd : Nat → Nat} {nComp : Nat} {out d : Ptr}
    {gctr counts tab : Ptr} {fpd buf o size : Nat} {X : Nat → α} {h : Heap α}
    (Hn : SphStage r l nctr nd nComp out none gctr counts tab fpd buf o size X h)
    (Hd : SphStage r l nctr nd nComp out (some d) gctr counts tab fpd buf o size X h) :
    ∃ h1 h2, run (sphStage r true l nctr nComp out none gctr counts tab fpd buf o) h = some ((), h1) ∧
      run (sphStage r true l nctr nComp out (some d) gctr counts tab fpd buf o) h = some ((), h2) ∧
      ∀ q, q.buf ≠ buf → h1.D q = h2.D q := by
  obtain ⟨h1, r1, v1, f1, _⟩ := C19_spherical_block Hn
  obtain ⟨h2, r2, v2, f2, _⟩ := C19_spherical_block Hd
  refine ⟨h1, h2, r1, r2, fun q hb => ?_⟩
  by_cases hq : ∃ m, InBlock nd (fun t => nsph l t * nctr t) nComp m ∧ q = out + m
  · obtain ⟨m, hm, rfl⟩ := hq
    obtain ⟨n, ic, jc, kc, lc, i, j, k, x, a1, a2, a3, a4, a5, a6, a7, a8, a9, rfl⟩ :=
      inBlock_digits Hn.h_sizes.nf_pos hm
    rw [v1 n ic jc kc lc i j k x a1 a2 a3 a4 a5 a6 a7 a8 a9, v2 n ic jc kc lc i j k x a1 a2 a3 a4 a5 a6 a7 a8 a9]
  · rw [f1 q (fun x => hb x.1) (fun m hm e => hq ⟨m, hm, e⟩), f2 q (fun x => hb x.1) (fun m hm e => hq ⟨m, hm, e⟩)]

/-- C18, spherical output: the whole block is overwritten, with values that do not depend on what the
output array and the free part of the cache contained. -/
theorem C18_spherical_overwritten {r : Nat} {l nctr nd : Nat → Nat} {nComp : Nat} {out : Ptr} {dims : Option Ptr}
    {gctr counts tab : Ptr} {fpd buf o size : Nat} {X : Nat → α} {h g : Heap α}
    (H : SphStage r l nctr nd nComp out dims gctr counts tab fpd buf o size X h)
    (G : SphStage r l nctr nd nComp out dims gctr counts tab fpd buf o size X g) :
    ∃ h' g', run (sphStage r true l nctr nComp out dims gctr counts tab fpd buf o) h = some ((), h') ∧
      run (sphStage r true l nctr nComp out dims gctr counts tab fpd buf o) g = some ((), g') ∧
      ∀ m, InBlock nd (fun t => nsph l t * nctr t) nComp m →
        ∃ x, h'.D (out + m) = .val x ∧ g'.D (out + m) = .val x := by
  obtain ⟨h1, r1, v1, f1, _⟩ := C19_spherical_block H
  obtain ⟨h2, r2, v2, f2, _⟩ := C19_spherical_block G
  refine ⟨h1, h2, r1, r2, fun m hm => ?_⟩
  obtain ⟨n, ic, jc, kc, lc, i, j, k, x, a1, a2, a3, a4, a5, a6, a7, a8, a9, rfl⟩ :=
    inBlock_digits H.h_sizes.nf_pos hm
  exact ⟨_, v1 n ic jc kc lc i j k x a1 a2 a3 a4 a5 a6 a7 a8 a9, v2 n ic jc kc lc i j k x a1 a2 a3 a4 a5 a6 a7 a8 a9⟩

/-! ### The hypotheses can be met -/

namespace SphDemo

/-- the part of the table that position `x` belongs to, among the first `n + 1` -/
def level (x : Nat) : Nat → Nat
  | 0 => 0
  | n+1 => if c2sOff.getD (n+1) 0 ≤ x then n+1 else level x n
/-- g_trans_cart2sph as a flat array -/
def flat (x : Nat) : ℚ :=
  c2sCoef (level x 15) ((x - c2sOff.getD (level x 15) 0) / ncart (level x 15))
    ((x - c2sOff.getD (level x 15) 0) % ncart (level x 15))

theorem off_mono : ∀ n < 16, ∀ l < n, c2sOff.getD l 0 + ncart l * (l*2+1) ≤ c2sOff.getD n 0 := by decide +kernel

theorem level_eq {l x : Nat} (hx : x < ncart l * (l*2+1)) :
    ∀ n, l ≤ n → n < 16 → level (c2sOff.getD l 0 + x) n = l := by
  intro n
  induction n with
  | zero => intro hl _; unfold level; omega
  | succ n ih =>
    intro hl hn
    unfold level
    by_cases e : l = n+1
    · subst e; rw [if_pos (by omega)]
    · have := off_mono (n+1) hn l (by omega)
      rw [if_neg (by omega)]
      exact ih (by omega) (by omega)

/-- two shells: a d shell with two contractions and an f shell; table in buffer 3, cache in buffer 1 -/
def ls (t : Nat) : Nat := if t = 0 then 2 else if t = 1 then 3 else 0
def nct (t : Nat) : Nat := if t = 0 then 2 else 1
/-- the output array is one row longer than the block -/
def nd (t : Nat) : Nat := if t = 0 then 11 else if t = 1 then 7 else 1

/-- 60·2 contracted integrals, 120 free doubles -/
def mem : Heap ℚ where
  D q := if q.buf = 3 then .val (flat q.off)
    else if q.buf = 1 then (if q.off < 120 then .val (q.off : ℚ) else if q.off < 240 then .undef else .oob)
    else if q.buf = 2 then (if q.off < 77 then .val 99 else .oob) else .oob
  I q := if q.buf = 0 then (if q.off < 2 then .val ([11, 7].getD q.off 0) else .oob) else .undef

theorem tabOk : HoldsTab mem ⟨3, 0⟩ := by
  intro l hl x hx
  show mem.D ⟨3, 0 + c2sOff.getD l 0 + x⟩ = _
  have e := level_eq hx 15 (by omega) (by omega)
  rw [Nat.zero_add]
  show Cell.val (flat (c2sOff.getD l 0 + x)) = _
  unfold flat
  rw [e, Nat.add_sub_cancel_left]

theorem stage : SphStage 2 ls nct nd 1 ⟨2, 0⟩ (some ⟨0, 0⟩) ⟨1, 0⟩ ⟨4, 0⟩ ⟨3, 0⟩ 1 1 120 240 (fun i => (i : ℚ)) mem where
  h_fpd := by decide
  h_l := by decide
  h_l0 := fun t a b => by unfold ls; rw [if_neg (by omega), if_neg (by omega)]
  h_sizes := ⟨Or.inl rfl, by decide, by decide, fun t a b => by
    unfold nsph ls nct nd; simp [show t ≠ 0 by omega, show t ≠ 1 by omega], by decide⟩
  h_dims := ⟨fun t ht => by
    obtain rfl | rfl : t = 0 ∨ t = 1 := by omega
    all_goals rfl, by decide⟩
  h_counts := fun t ht => by simp [mem]
  h_tab := tabOk
  h_gctr := fun i hi => by
    have hi : i < 120 := hi
    show mem.D ⟨1, 0 + i⟩ = _
    simp [mem, hi]
  h_gbuf := rfl
  h_used := by decide
  h_free := by decide
  h_cache := fun k hk => by
    simp only [mem]
    rw [if_neg (by decide), if_pos trivial]
    split <;> simp_all
  h_out := fun m hm => by
    obtain ⟨n, i, j, k, x, a1, a2, a3, a4, a5, rfl⟩ := hm
    simp only [nsph, ls, nct] at a2 a3 a4 a5
    show mem.D ⟨2, _⟩ ≠ _
    simp only [mem, outAt, nd]
    simp at a1 a2 a3 a4 a5 ⊢
    subst a1 a4 a5
    omega
  h_tbuf := by decide
  h_obuf := by decide

/-- the second function of the second contraction of the d shell, the third of the f shell -/
example : ∃ h', run (sphStage 2 true ls nct 1 ⟨2, 0⟩ (some ⟨0, 0⟩) ⟨1, 0⟩ ⟨4, 0⟩ ⟨3, 0⟩ 1 1 120) mem = some ((), h') ∧
    h'.D ((⟨2, 0⟩ : Ptr) + outAt nd 0 (1*nsph ls 0+1) (0*nsph ls 1+2) (0*nsph ls 2+0) (0*nsph ls 3+0)) =
      .val (sphOf ls nct (fun i => (i : ℚ)) 0 1 0 0 0 1 2 0 0) := by
  obtain ⟨h', h1, h2, _⟩ := C19_spherical_block stage
  exact ⟨h', h1, h2 0 1 0 0 0 1 2 0 0 (by decide) (by decide) (by decide) (by decide) (by decide) (by decide)
    (by decide) (by decide) (by decide)⟩

/-- four rows of a d shell into an array of six rows: the last two rows of a column keep their value -/
example : ∃ h', run (ketSph1 ⟨3, 0⟩ 2 ⟨2, 0⟩ ⟨1, 0⟩ 6 4) mem = some (⟨2, 0⟩, h') ∧
    h'.D ((⟨2, 0⟩ : Ptr) + (4*6+3)) = .val (∑ k ∈ Finset.range 6, c2sCoef 2 4 k * ((k*4+3 : ℕ) : ℚ)) ∧
    h'.D ⟨2, 4⟩ = .val 99 := by
  obtain ⟨h', h1, h2, h3, _⟩ := C19_ket1 (l := 2) (by decide) (tab := ⟨3, 0⟩) (gsph := ⟨2, 0⟩) (gcart := ⟨1, 0⟩)
    (lds := 6) (nbra := 4) (h := mem) (X := fun i => (i : ℚ)) tabOk (by decide)
    (fun x hx => by
      have hx : x < 24 := hx
      show mem.D ⟨1, 0 + x⟩ = _
      simp [mem, show x < 120 by omega])
    (fun i m hi hm => by
      show mem.D ⟨2, 0 + (m*6+i)⟩ ≠ _
      simp [mem, show m*6+i < 77 by omega])
    (by decide) (fun x i m _ _ _ e => absurd (congrArg Ptr.buf e :) (by decide : (1 : ℕ) ≠ 2))
  refine ⟨h', h1, h2 3 4 (by decide) (by decide), (h3 _ fun i m hi hm e => ?_).trans rfl⟩
  have : 4 = 0 + (m*6+i) := congrArg Ptr.off e
  omega

end SphDemo
end Verif.Props
