import Verif.Spec.SpinHarm
import Verif.Spec.Spinor
import Verif.Model.Drv1e
import Verif.Lemmas.Harmonic

/-! The tables of the spinor transformation and the spinor spherical harmonics. -/
namespace Verif.Lemmas
open Verif Verif.Model Verif.Spec Finset

/-- numerator of the square of the Clebsch-Gordan coefficient -/
def cgNum (l : Nat) (plus : Bool) (i : Nat) (s : Bool) : Nat :=
  match plus, s with
  | true, false => i
  | true, true => 2*l+1-i
  | false, false => 2*l-i
  | false, true => i+1

def cgSgn (plus s : Bool) : Int := if plus then 1 else if s then 1 else -1

theorem clebsch_eq {l : Nat} {plus : Bool} {i : Nat} {s : Bool} (hi : i < if plus then 2*l+2 else 2*l) :
    clebsch l plus i s = cgSgn plus s * Real.sqrt ((cgNum l plus i s : ℝ) / (2*l+1)) := by
  unfold clebsch cgNum cgSgn mjOf jOf
  cases plus <;> cases s
  · simp only [Bool.false_eq_true, if_false] at hi ⊢
    rw [Nat.cast_sub (by omega)]
    push_cast
    rw [show (l:ℝ) - (i - (l - 1/2)) + 1/2 = 2*l - i by ring]
    ring
  · simp only [Bool.false_eq_true, if_false, if_true]
    push_cast
    rw [show (l:ℝ) + (i - (l - 1/2)) + 1/2 = i + 1 by ring]
    ring
  · simp only [if_true]
    push_cast
    rw [show (l:ℝ) + (i - (l + 1/2)) + 1/2 = i by ring]
    ring
  · simp only [if_true] at hi ⊢
    rw [Nat.cast_sub (by omega)]
    push_cast
    rw [show (l:ℝ) - (i - (l + 1/2)) + 1/2 = 2*l + 1 - i by ring]
    ring

/-- integer coefficients of the real and imaginary part of `(±1)(x ± iy)^|m|` times the zonal part -/
def polyRe (l : Nat) (m : Int) (b c : Nat) : Int := (if 0 ≤ m then sgn m.natAbs else 1) * polyC l m.natAbs b c
def polyIm (l : Nat) (m : Int) (b c : Nat) : Int :=
  if m = 0 then 0 else (if 0 ≤ m then sgn m.natAbs else -1) * polyC l (-(m.natAbs : Int)) b c

/-- the unnormalised real harmonic -/
noncomputable def raw (l : Nat) (m : Int) (x y z : ℝ) : ℝ := azim m x y * zonal l m.natAbs (x^2+y^2+z^2) z

theorem raw_sum {l : Nat} {m : Int} (hm : m.natAbs ≤ l) (x y z : ℝ) :
    raw l m x y z = ∑ k ∈ range (ncart l), ((polyC l m (py l k) (pz l k) : ℝ) / 2^l) * (x^(px l k) * y^(py l k) * z^(pz l k)) := by
  have h := solid_sum hm x y z
  have hn : sphNorm l m.natAbs ≠ 0 := by
    unfold sphNorm
    refine (Real.sqrt_pos.2 ?_).ne'
    have := Real.pi_pos
    split <;> positivity
  unfold solid at h
  refine mul_left_cancel₀ hn ?_
  unfold raw
  rw [← mul_assoc, h, mul_sum]
  refine sum_congr rfl fun k _ => ?_
  ring

/-- normalisation of the complex harmonics -/
noncomputable def cNorm (l m : Nat) : ℝ := Real.sqrt ((2*l+1) / (4*Real.pi) * (l-m).factorial / (l+m).factorial)

theorem azim_parts (m : Int) (x y : ℝ) : (((x : ℂ) + (if 0 ≤ m then 1 else -1) * Complex.I * y)^m.natAbs).re = azim m.natAbs x y ∧
    (((x : ℂ) + (if 0 ≤ m then 1 else -1) * Complex.I * y)^m.natAbs).im =
      if m = 0 then 0 else (if 0 ≤ m then 1 else -1) * azim (-(m.natAbs : Int)) x y := by
  by_cases h0 : m = 0
  · subst h0
    simp [azim]
  rw [if_neg h0]
  have hpos : (0 : Int) ≤ (m.natAbs : Int) := Int.natCast_nonneg _
  have hneg : ¬ (0 : Int) ≤ -(m.natAbs : Int) := by omega
  have e1 : azim (m.natAbs : Int) x y = (((x : ℂ) + y * Complex.I)^m.natAbs).re := by
    unfold azim
    rw [if_pos hpos, Int.natAbs_natCast]
  have e2 : azim (-(m.natAbs : Int)) x y = (((x : ℂ) + y * Complex.I)^m.natAbs).im := by
    unfold azim
    rw [if_neg hneg, Int.natAbs_neg, Int.natAbs_natCast]
  rw [e1, e2]
  by_cases h : 0 ≤ m
  · simp only [if_pos h, one_mul, mul_comm Complex.I]
    exact ⟨trivial, trivial⟩
  · simp only [if_neg h]
    have e : (x : ℂ) + -1 * Complex.I * y = star ((x : ℂ) + y * Complex.I) := by
      simp only [Complex.star_def, map_add, map_mul, Complex.conj_ofReal, Complex.conj_I]
      ring
    rw [e, ← star_pow, Complex.star_def, Complex.conj_re, Complex.conj_im]
    exact ⟨rfl, by ring⟩

theorem solidC_parts {l : Nat} {m : Int} (hm : m.natAbs ≤ l) (x y z : ℝ) :
    (solidC l m x y z).re = cNorm l m.natAbs * ∑ k ∈ range (ncart l), ((polyRe l m (py l k) (pz l k) : ℝ) / 2^l) *
      (x^(px l k) * y^(py l k) * z^(pz l k)) ∧
    (solidC l m x y z).im = cNorm l m.natAbs * ∑ k ∈ range (ncart l), ((polyIm l m (py l k) (pz l k) : ℝ) / 2^l) *
      (x^(px l k) * y^(py l k) * z^(pz l k)) := by
  obtain ⟨h1, h2⟩ := azim_parts m x y
  have e : solidC l m x y z = (((if 0 ≤ m then (-1)^m.natAbs else 1) * cNorm l m.natAbs * zonal l m.natAbs (x^2+y^2+z^2) z : ℝ) : ℂ) *
      ((x : ℂ) + (if 0 ≤ m then 1 else -1) * Complex.I * y)^m.natAbs := by
    unfold solidC
    rw [show Real.sqrt ((2*l+1) / (4*Real.pi) * (l-m.natAbs).factorial / (l+m.natAbs).factorial) = cNorm l m.natAbs from rfl]
    by_cases h : 0 ≤ m
    · simp only [if_pos h]; push_cast; ring
    · simp only [if_neg h]; push_cast; ring
  have r1 := raw_sum (l := l) (m := m.natAbs) (by rw [Int.natAbs_natCast]; exact hm) x y z
  have r2 := raw_sum (l := l) (m := -(m.natAbs : Int)) (by rw [Int.natAbs_neg, Int.natAbs_natCast]; exact hm) x y z
  unfold raw at r1 r2
  rw [Int.natAbs_natCast] at r1
  rw [Int.natAbs_neg, Int.natAbs_natCast] at r2
  rw [e, Complex.re_ofReal_mul, Complex.im_ofReal_mul, h1, h2]
  constructor
  · have : ∑ k ∈ range (ncart l), ((polyRe l m (py l k) (pz l k) : ℝ) / 2^l) * (x^(px l k) * y^(py l k) * z^(pz l k)) =
        (if 0 ≤ m then (-1)^m.natAbs else 1) * (azim m.natAbs x y * zonal l m.natAbs (x^2+y^2+z^2) z) := by
      rw [r1, mul_sum]
      refine sum_congr rfl fun k _ => ?_
      unfold polyRe
      push_cast
      rw [sgn_eq]
      ring
    rw [this]; ring
  · have : ∑ k ∈ range (ncart l), ((polyIm l m (py l k) (pz l k) : ℝ) / 2^l) * (x^(px l k) * y^(py l k) * z^(pz l k)) =
        (if m = 0 then 0 else (if 0 ≤ m then (-1)^m.natAbs else 1) * (if 0 ≤ m then 1 else -1)) *
          (azim (-(m.natAbs : Int)) x y * zonal l m.natAbs (x^2+y^2+z^2) z) := by
      rw [r2, mul_sum]
      refine sum_congr rfl fun k _ => ?_
      unfold polyIm
      by_cases h0 : m = 0
      · simp [h0]
      · rw [if_neg h0, if_neg h0]
        push_cast
        rw [sgn_eq]
        split <;> ring
    rw [this]
    by_cases h0 : m = 0
    · simp [h0]
    · rw [if_neg h0, if_neg h0]
      ring

/-! ### The kernel's check of the tables -/

/-- `M/10^e` is within a relative error of 2·10^-15 of `g √(q/w) M'/10^e'`, `g = ±1` -/
def closeL (q w : Nat) (g M : Int) (e : Nat) (M' : Int) (e' : Nat) : Bool :=
  decide (0 ≤ g * (M * M')) &&
  decide (M.natAbs*M.natAbs * (w * 10^(2*e') * (10^15*10^15)) ≤ (10^15+2)*(10^15+2) * q * (M'.natAbs*M'.natAbs) * 10^(2*e)) &&
  decide ((10^15-2)*(10^15-2) * q * (M'.natAbs*M'.natAbs) * 10^(2*e) ≤ M.natAbs*M.natAbs * (w * 10^(2*e') * (10^15*10^15)))

theorem closeL_spec {q w : Nat} {g M : Int} {e : Nat} {M' : Int} {e' : Nat} (hw : 0 < w) (hg : g = 1 ∨ g = -1)
    (h : closeL q w g M e M' e' = true) :
    |(M : ℝ) / 10^e - g * Real.sqrt (q / w) * ((M' : ℝ) / 10^e')| ≤ 2/10^15 * |g * Real.sqrt (q / w) * ((M' : ℝ) / 10^e')| := by
  simp only [closeL, Bool.and_eq_true, decide_eq_true_eq] at h
  obtain ⟨⟨h0, h1⟩, h2⟩ := h
  have hw' : (0:ℝ) < w := by exact_mod_cast hw
  have hNn : 0 ≤ Real.sqrt ((q:ℝ) / w) := Real.sqrt_nonneg _
  have hN : Real.sqrt ((q:ℝ) / w) ^ 2 = q / w := by
    rw [Real.sq_sqrt]; positivity
  have g1 : (M:ℝ)^2 * (w * 10^(2*e') * (10^15*10^15)) ≤ (10^15+2)*(10^15+2) * q * (M':ℝ)^2 * 10^(2*e) := by
    have := (Nat.cast_le (α := ℝ)).2 h1
    push_cast at this
    simp only [Nat.cast_natAbs, Int.cast_abs, abs_mul_abs_self] at this
    rw [pow_two, pow_two]
    norm_num at this ⊢
    exact this
  have g2 : (10^15-2)*(10^15-2) * q * (M':ℝ)^2 * 10^(2*e) ≤ (M:ℝ)^2 * (w * 10^(2*e') * (10^15*10^15)) := by
    have := (Nat.cast_le (α := ℝ)).2 h2
    push_cast at this
    simp only [Nat.cast_natAbs, Int.cast_abs, abs_mul_abs_self] at this
    rw [pow_two, pow_two]
    norm_num at this ⊢
    exact this
  generalize Real.sqrt ((q:ℝ) / w) = N at hN hNn ⊢
  have hgg : (g:ℝ)^2 = 1 := by rcases hg with rfl | rfl <;> norm_num
  have hT : (g * N * ((M' : ℝ) / 10^e'))^2 = (q * M'^2) / (w * 10^(2*e')) := by
    rw [mul_pow, mul_pow, hgg, one_mul, hN, div_pow, ← pow_mul, Nat.mul_comm e' 2]
    field_simp
  have hc : ((M : ℝ) / 10^e)^2 = M^2 / 10^(2*e) := by
    rw [div_pow, ← pow_mul, Nat.mul_comm e 2]
  have h10 : (0:ℝ) < 10^(2*e) := by positivity
  have h10' : (0:ℝ) < 10^(2*e') := by positivity
  refine close_abs ?_ (by norm_num) (by norm_num) ?_ ?_
  · have : (0:ℝ) ≤ (g:ℝ) * (M * M') := by exact_mod_cast h0
    have e : (M : ℝ) / 10^e * (g * N * ((M' : ℝ) / 10^e')) = (g * (M * M')) * N / (10^e * 10^e') := by
      field_simp
    rw [e]
    positivity
  · rw [mul_pow, hT, hc, ← mul_div_assoc, div_le_div_iff₀ h10 (by positivity)]
    linarith
  · rw [mul_pow, hT, hc, ← mul_div_assoc, div_le_div_iff₀ (by positivity) h10]
    linarith

/-- where the harmonic of order `m` is among the spherical functions -/
def mPos (l : Nat) (m : Int) : Nat := if l = 1 then (if m = 1 then 0 else if m = -1 then 1 else 2) else (m + l).toNat

/-- the entries of a row against those of the spherical table, in the columns from `o` on -/
def walk (q w : Nat) (g : Int) (o : Nat) : List (Nat × Dec) → List (Nat × Dec) → Bool
  | [], [] => true
  | (k, ⟨M, e⟩) :: r, (k', ⟨M', e'⟩) :: r' => Nat.beq k (o + k') && closeL q w g M e M' e' && walk q w g o r r'
  | _, _ => false

/-- the part of a row for one spin -/
def half (o n : Nat) (row : List (Nat × Dec)) : List (Nat × Dec) := row.filter fun e => Nat.ble o e.1 && Nat.blt e.1 (o + n)

theorem rowDec_half (o n : Nat) (row : List (Nat × Dec)) {k : Nat} (hk : k < n) : rowDec (half o n row) (o + k) = rowDec row (o + k) := by
  unfold half
  induction row with
  | nil => rfl
  | cons e r ih =>
    by_cases he : o + k = e.1
    · rw [List.filter_cons_of_pos]
      · unfold rowDec
        rw [if_pos he, if_pos he]
      · simp only [Bool.and_eq_true, Nat.ble_eq, Nat.blt_eq]
        omega
    · by_cases hf : (Nat.ble o e.1 && Nat.blt e.1 (o + n)) = true
      · rw [List.filter_cons_of_pos (p := fun e : Nat × Dec => Nat.ble o e.1 && Nat.blt e.1 (o + n)) hf]
        unfold rowDec
        rw [if_neg he, if_neg he, ih]
      · rw [List.filter_cons_of_neg (p := fun e : Nat × Dec => Nat.ble o e.1 && Nat.blt e.1 (o + n)) hf, ih]
        conv_rhs => unfold rowDec
        rw [if_neg he]

theorem walk_spec {q w : Nat} {g : Int} {o : Nat} (hw : 0 < w) (hg : g = 1 ∨ g = -1) {row sph : List (Nat × Dec)}
    (h : walk q w g o row sph = true) (k : Nat) :
    |decVal (rowDec row (o + k)) - g * Real.sqrt (q / w) * decVal (rowDec sph k)| ≤
      2/10^15 * |g * Real.sqrt (q / w) * decVal (rowDec sph k)| := by
  induction row generalizing sph with
  | nil =>
    cases sph with
    | nil => simp [rowDec, decVal]
    | cons e r => simp [walk] at h
  | cons e r ih =>
    cases sph with
    | nil => simp [walk] at h
    | cons e' r' =>
      obtain ⟨k1, M, d⟩ := e
      obtain ⟨k2, M', d'⟩ := e'
      simp only [walk, Bool.and_eq_true, Nat.beq_eq] at h
      obtain ⟨⟨hk, hc⟩, hr⟩ := h
      unfold rowDec
      by_cases hkk : k = k2
      · rw [if_pos hkk, if_pos (by omega)]
        exact closeL_spec hw hg hc
      · rw [if_neg hkk, if_neg (by omega)]
        exact ih hr

/-- sign of the real and of the imaginary part -/
def sgRe (m : Int) : Int := if 0 ≤ m then sgn m.natAbs else 1
def sgIm (m : Int) : Int := if 0 ≤ m then sgn m.natAbs else -1

def rowJ (l : Nat) (plus : Bool) (i : Nat) (s : Bool) (rowR rowI : List (Nat × Dec)) : Bool :=
  let m := mlOf l plus i s
  let q := cgNum l plus i s
  let o := if s then ncart l else 0
  if q = 0 then (half o (ncart l) rowR).isEmpty && (half o (ncart l) rowI).isEmpty
  else decide (m.natAbs ≤ l) &&
    walk q ((2*l+1) * if m = 0 then 1 else 2) (cgSgn plus s * sgRe m) o (half o (ncart l) rowR)
      ((c2sRows.getD l []).getD (mPos l m.natAbs) []) &&
    if m = 0 then (half o (ncart l) rowI).isEmpty
    else walk q ((2*l+1) * 2) (cgSgn plus s * sgIm m) o (half o (ncart l) rowI)
      ((c2sRows.getD l []).getD (mPos l (-(m.natAbs : Int))) [])

def rowsJ (l : Nat) : Bool :=
  decide (∀ r, r < 4*l+2 → ∀ s, rowJ l (decide (2*l ≤ r)) (if 2*l ≤ r then r - 2*l else r) s ((cjRowsR.getD l []).getD r [])
    ((cjRowsI.getD l []).getD r []) = true)

set_option maxRecDepth 100000 in
theorem rowsJ_low : ∀ l, l < 9 → rowsJ l = true := by decide +kernel
set_option maxRecDepth 100000 in
theorem rowsJ_9 : rowsJ 9 = true := by decide +kernel
set_option maxRecDepth 100000 in
theorem rowsJ_10 : rowsJ 10 = true := by decide +kernel
set_option maxRecDepth 100000 in
theorem rowsJ_11 : rowsJ 11 = true := by decide +kernel
set_option maxRecDepth 100000 in
theorem rowsJ_12 : rowsJ 12 = true := by decide +kernel

theorem rowsJ_check {l : Nat} (hl : l < 13) : rowsJ l = true := by
  by_cases h : l < 9
  · exact rowsJ_low l h
  · have : l = 9 ∨ l = 10 ∨ l = 11 ∨ l = 12 := by omega
    rcases this with rfl | rfl | rfl | rfl
    · exact rowsJ_9
    · exact rowsJ_10
    · exact rowsJ_11
    · exact rowsJ_12

/-- the spherical table -/
theorem c2s_close {l i k : Nat} (hl : l ≤ 15) (hi : i < l*2+1) (hk : k < ncart l) :
    |commonFacSp l * c2sCoef l i k - sphNorm l (mAt l i).natAbs * ((polyC l (mAt l i) (py l k) (pz l k) : ℝ) / 2^l)| ≤
      1/10^15 * |sphNorm l (mAt l i).natAbs * ((polyC l (mAt l i) (py l k) (pz l k) : ℝ) / 2^l)| := by
  have hr := row_spec k
  have hrl : row k < l + 1 := by
    by_contra hc
    have := tri_mono (show l + 1 ≤ row k by omega)
    rw [ncart_eq_tri] at hk
    omega
  have hc : col k < row k + 1 := by
    have := tri_succ (row k)
    unfold col
    omega
  have := rows_check l (by omega) i hi (row k) hrl (col k) hc
  unfold cellOK at this
  rw [tri_row_col] at this
  have h2 := close_spec this
  refine le_of_eq_of_le ?_ h2
  unfold py pz
  congr 2
  unfold c2sCoef
  rw [rowDec_eq]
  unfold decVal commonFacSp facDec
  by_cases h0 : l = 0
  · subst h0; simp; ring
  · by_cases h1 : l = 1
    · subst h1; simp; ring
    · simp [h0, h1]

theorem mPos_spec {l : Nat} {m : Int} (hm : m.natAbs ≤ l) : mPos l m < l*2+1 ∧ mAt l (mPos l m) = m := by
  unfold mPos mAt
  by_cases h : l = 1
  · subst h
    simp only [if_true]
    have : m = 1 ∨ m = -1 ∨ m = 0 := by omega
    rcases this with rfl | rfl | rfl <;> simp
  · rw [if_neg h, if_neg h]
    omega

theorem close_trans {F c S a T : ℝ} {ε : ℝ} (h1 : |c - a * S| ≤ 2*ε * |a * S|) (h2 : |F * S - T| ≤ ε * |T|) (h0 : 0 ≤ ε) (he : ε ≤ 1/2) :
    |F * c - a * T| ≤ 4*ε * |a * T| := by
  have e : F * c - a * T = F * (c - a * S) + a * (F * S - T) := by ring
  have b1 : |F * (c - a * S)| ≤ 2*ε * |a| * |F * S| := by
    rw [abs_mul]
    calc |F| * |c - a * S| ≤ |F| * (2*ε * |a * S|) := mul_le_mul_of_nonneg_left h1 (abs_nonneg _)
      _ = 2*ε * |a| * |F * S| := by rw [abs_mul, abs_mul]; ring
  have b2 : |F * S| ≤ (1 + ε) * |T| := by
    have := abs_sub_abs_le_abs_sub (F * S) T
    linarith
  have b3 : 2*ε * |a| * |F * S| ≤ 2*ε * |a| * ((1 + ε) * |T|) := mul_le_mul_of_nonneg_left b2 (by positivity)
  have b4 : |a * (F * S - T)| ≤ |a| * (ε * |T|) := by
    rw [abs_mul]; exact mul_le_mul_of_nonneg_left h2 (abs_nonneg _)
  have b5 : (0:ℝ) ≤ ε * (|a| * |T|) := by positivity
  have b6 : ε * (ε * (|a| * |T|)) ≤ 1/2 * (ε * (|a| * |T|)) := mul_le_mul_of_nonneg_right he b5
  rw [e, abs_mul a T]
  refine le_trans (abs_add_le _ _) ?_
  nlinarith

theorem cNorm_eq (l m : Nat) : cNorm l m = sphNorm l m / Real.sqrt (if m = 0 then 1 else 2) := by
  have h2 : (0:ℝ) < if m = 0 then 1 else 2 := by split <;> norm_num
  unfold cNorm sphNorm
  rw [← Real.sqrt_div' _ h2.le]
  congr 1
  field_simp

/-- a row of the table -/
theorem rowJ_spec {l : Nat} {plus : Bool} {i : Nat} {s : Bool} {rowR rowI : List (Nat × Dec)} (hl : l < 13)
    (hi : i < if plus then 2*l+2 else 2*l) (h : rowJ l plus i s rowR rowI = true) : ∃ T : Nat → ℂ,
    (∀ x y z, spinHarm l plus i s x y z = ∑ k ∈ range (ncart l), T k * ((x^(px l k) * y^(py l k) * z^(pz l k) : ℝ) : ℂ)) ∧
    ∀ k, k < ncart l →
      |commonFacSp l * rowCoef rowR ((if s then ncart l else 0) + k) - (T k).re| ≤ 4/10^15 * |(T k).re| ∧
      |commonFacSp l * rowCoef rowI ((if s then ncart l else 0) + k) - (T k).im| ≤ 4/10^15 * |(T k).im| := by
  have hnil : ∀ row, (half (if s then ncart l else 0) (ncart l) row).isEmpty = true → ∀ k, k < ncart l →
      (rowCoef row ((if s then ncart l else 0) + k) : ℝ) = 0 := by
    intro row hr k hk
    rw [rowDec_eq, ← rowDec_half _ (ncart l) row hk, List.isEmpty_iff.1 hr]
    simp [rowDec, decVal]
  have hwalk : ∀ (row sph : List (Nat × Dec)) (w : Nat) (g : Int), 0 < w → (g = 1 ∨ g = -1) →
      walk (cgNum l plus i s) w g (if s then ncart l else 0) (half (if s then ncart l else 0) (ncart l) row) sph = true → ∀ k, k < ncart l →
      |rowCoef row ((if s then ncart l else 0) + k) - g * Real.sqrt ((cgNum l plus i s : ℝ) / w) * rowCoef sph k| ≤
        2*(1/10^15) * |g * Real.sqrt ((cgNum l plus i s : ℝ) / w) * rowCoef sph k| := by
    intro row sph w g hw hg hr k hk
    have := walk_spec hw hg hr k
    rw [rowDec_half _ _ _ hk, ← rowDec_eq, ← rowDec_eq] at this
    rw [show (2:ℝ)*(1/10^15) = 2/10^15 by ring]
    exact this
  unfold rowJ at h
  dsimp only at h
  by_cases hq : cgNum l plus i s = 0
  · rw [if_pos hq, Bool.and_eq_true] at h
    refine ⟨fun _ => 0, fun x y z => ?_, fun k hk => ?_⟩
    · unfold spinHarm
      rw [clebsch_eq hi, hq]
      simp
    · rw [hnil _ h.1 k hk, hnil _ h.2 k hk]
      simp
  rw [if_neg hq, Bool.and_eq_true, Bool.and_eq_true, decide_eq_true_eq] at h
  obtain ⟨⟨hm, hR⟩, hI⟩ := h
  generalize hmm : mlOf l plus i s = m at hm hR hI
  have hsg : ∀ n, sgn n = 1 ∨ sgn n = -1 := fun n => by unfold sgn; split <;> simp
  have hcs : cgSgn plus s = 1 ∨ cgSgn plus s = -1 := by unfold cgSgn; cases plus <;> cases s <;> simp
  have hre : sgRe m = 1 ∨ sgRe m = -1 := by unfold sgRe; split; exact hsg _; exact Or.inl rfl
  have him : sgIm m = 1 ∨ sgIm m = -1 := by unfold sgIm; split; exact hsg _; exact Or.inr rfl
  have hmul : ∀ a b : Int, (a = 1 ∨ a = -1) → (b = 1 ∨ b = -1) → (a*b = 1 ∨ a*b = -1) := by
    rintro a b (rfl | rfl) (rfl | rfl) <;> simp
  have hcoef : ∀ (g : Int) (P : ℝ), clebsch l plus i s * (cNorm l m.natAbs * (g * P / 2^l)) =
      ((cgSgn plus s * g : Int) : ℝ) * Real.sqrt ((cgNum l plus i s : ℝ) / (((2*l+1) * (if m = 0 then 1 else 2) : Nat) : ℝ)) *
        (sphNorm l m.natAbs * (P / 2^l)) := by
    intro g P
    rw [clebsch_eq hi, cNorm_eq]
    have hc : (if m.natAbs = 0 then (1:ℝ) else 2) = (((if m = 0 then 1 else 2 : Nat)) : ℝ) := by
      by_cases h0 : m = 0 <;> simp [h0]
    rw [hc]
    have hp : (0:ℝ) < (((if m = 0 then 1 else 2 : Nat)) : ℝ) := by split <;> norm_num
    rw [Nat.cast_mul, Nat.cast_add, Nat.cast_mul, Nat.cast_ofNat, Nat.cast_one]
    generalize (((if m = 0 then 1 else 2 : Nat)) : ℝ) = w at hp ⊢
    have : Real.sqrt ((cgNum l plus i s : ℝ) / ((2*l+1)*w)) = Real.sqrt ((cgNum l plus i s : ℝ) / (2*l+1)) / Real.sqrt w := by
      rw [← Real.sqrt_div' _ hp.le, div_div]
    rw [this, Int.cast_mul]
    ring
  refine ⟨fun k => (clebsch l plus i s : ℂ) * ⟨cNorm l m.natAbs * ((polyRe l m (py l k) (pz l k) : ℝ) / 2^l),
    cNorm l m.natAbs * ((polyIm l m (py l k) (pz l k) : ℝ) / 2^l)⟩, fun x y z => ?_, fun k hk => ?_⟩
  · obtain ⟨p1, p2⟩ := solidC_parts hm x y z
    unfold spinHarm
    rw [hmm]
    apply Complex.ext
    · rw [Complex.re_ofReal_mul, p1, Complex.re_sum, mul_sum, mul_sum]
      refine sum_congr rfl fun k _ => ?_
      rw [Complex.re_mul_ofReal, Complex.re_ofReal_mul]
      ring
    · rw [Complex.im_ofReal_mul, p2, Complex.im_sum, mul_sum, mul_sum]
      refine sum_congr rfl fun k _ => ?_
      rw [Complex.im_mul_ofReal, Complex.im_ofReal_mul]
      ring
  · rw [Complex.re_ofReal_mul, Complex.im_ofReal_mul]
    dsimp only
    constructor
    · obtain ⟨q1, q2⟩ := mPos_spec (l := l) (m := (m.natAbs : Int)) (by rw [Int.natAbs_natCast]; exact hm)
      have c1 := c2s_close (by omega) q1 hk
      rw [q2, Int.natAbs_natCast] at c1
      have c2 := hwalk _ _ _ _ (Nat.mul_pos (by omega) (by split <;> omega)) (hmul _ _ hcs hre) hR k hk
      have c3 := close_trans (F := commonFacSp l) c2 c1 (by norm_num) (by norm_num)
      rw [show (4:ℝ)/10^15 = 4*(1/10^15) by ring]
      have e : ((polyRe l m (py l k) (pz l k) : Int) : ℝ) = (sgRe m : ℝ) * (polyC l (m.natAbs : Int) (py l k) (pz l k) : ℝ) := by
        unfold polyRe sgRe; push_cast; rfl
      rw [e, hcoef]
      exact c3
    · by_cases h0 : m = 0
      · rw [if_pos h0] at hI
        rw [hnil _ hI k hk]
        unfold polyIm
        rw [if_pos h0]
        simp
      · rw [if_neg h0] at hI
        obtain ⟨q1, q2⟩ := mPos_spec (l := l) (m := -(m.natAbs : Int)) (by rw [Int.natAbs_neg, Int.natAbs_natCast]; exact hm)
        have c1 := c2s_close (by omega) q1 hk
        rw [q2, Int.natAbs_neg, Int.natAbs_natCast] at c1
        have c2 := hwalk _ _ _ _ (Nat.mul_pos (by omega) (by omega)) (hmul _ _ hcs him) hI k hk
        have c3 := close_trans (F := commonFacSp l) c2 c1 (by norm_num) (by norm_num)
        rw [show (4:ℝ)/10^15 = 4*(1/10^15) by ring]
        have e : ((polyIm l m (py l k) (pz l k) : Int) : ℝ) = (sgIm m : ℝ) * (polyC l (-(m.natAbs : Int)) (py l k) (pz l k) : ℝ) := by
          unfold polyIm sgIm; rw [if_neg h0]; push_cast; rfl
        rw [e, hcoef, if_neg h0]
        exact c3

end Verif.Lemmas
