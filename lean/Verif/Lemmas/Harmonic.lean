import Verif.Spec.Harmonic
import Verif.Spec.Sph
import Verif.Lemmas.Cart
import Mathlib.Data.Nat.Choose.Sum
import Mathlib.Tactic.Ring
import Mathlib.Tactic.LinearCombination
import Mathlib.Tactic.Positivity
import Mathlib.Tactic.FieldSimp
import Mathlib.Tactic.NormNum

/-! Coefficients of the real solid harmonics and comparison with the table. -/
namespace Verif.Lemmas
open Verif Verif.Model Verif.Spec Finset

/-- value of a homogeneous polynomial in x, y of degree `d`; entry `b` belongs to x^(d-b) y^b -/
def evalH (x y : ℝ) : Nat → List Int → ℝ
  | _, [] => 0
  | d, a :: L => a * x^d + y * evalH x y (d-1) L

def addL : List Int → List Int → List Int
  | [], M => M
  | L, [] => L
  | a :: L, b :: M => (a+b) :: addL L M

def subL : List Int → List Int → List Int
  | [], M => M.map (fun b => -b)
  | L, [] => L
  | a :: L, b :: M => (a-b) :: subL L M

theorem evalH_addL (x y : ℝ) : ∀ (d : Nat) (L M : List Int), evalH x y d (addL L M) = evalH x y d L + evalH x y d M
  | d, [], M => by simp [addL, evalH]
  | d, a :: L, [] => by simp [addL, evalH]
  | d, a :: L, b :: M => by
    simp only [addL, evalH, evalH_addL x y (d-1) L M]
    push_cast; ring

theorem evalH_neg (x y : ℝ) : ∀ (d : Nat) (L : List Int), evalH x y d (L.map (fun b => -b)) = - evalH x y d L
  | d, [] => by simp [evalH]
  | d, a :: L => by
    simp only [List.map_cons, evalH, evalH_neg x y (d-1) L]
    push_cast; ring

theorem evalH_subL (x y : ℝ) : ∀ (d : Nat) (L M : List Int), evalH x y d (subL L M) = evalH x y d L - evalH x y d M
  | d, [], M => by
    unfold subL
    rw [evalH_neg]
    simp [evalH]
  | d, a :: L, [] => by simp [subL, evalH]
  | d, a :: L, b :: M => by
    simp only [subL, evalH, evalH_subL x y (d-1) L M]
    push_cast; ring

theorem addL_length : ∀ (L M : List Int), (addL L M).length = max L.length M.length
  | [], M => by simp [addL]
  | a :: L, [] => by simp [addL]
  | a :: L, b :: M => by simp [addL, addL_length L M]

theorem subL_length : ∀ (L M : List Int), (subL L M).length = max L.length M.length
  | [], M => by simp [subL]
  | a :: L, [] => by simp [subL]
  | a :: L, b :: M => by simp [subL, subL_length L M]

/-- multiplication by x -/
theorem evalH_mulX (x y : ℝ) : ∀ (d : Nat) (L : List Int), L.length ≤ d+1 → evalH x y (d+1) L = x * evalH x y d L
  | d, [], _ => by simp [evalH]
  | 0, [a], _ => by simp [evalH]; ring
  | 0, a :: b :: L, h => by simp at h
  | d+1, a :: L, h => by
    have := evalH_mulX x y d L (by simpa using h)
    simp only [evalH, Nat.add_sub_cancel]
    rw [this]; ring

theorem evalH_mulY (x y : ℝ) (d : Nat) (L : List Int) : evalH x y (d+1) (0 :: L) = y * evalH x y d L := by
  simp [evalH]

/-- real and imaginary part of (x + iy)^m -/
def reim : Nat → List Int × List Int
  | 0 => ([1], [])
  | m+1 => match reim m with
    | (c, s) => (subL c (0 :: s), addL s (0 :: c))

theorem reim_length (m : Nat) : (reim m).1.length ≤ m+1 ∧ (reim m).2.length ≤ m+1 := by
  induction m with
  | zero => simp [reim]
  | succ m ih =>
    simp only [reim, addL_length, subL_length, List.length_cons]
    omega

theorem reim_eval (x y : ℝ) (m : Nat) : (((x : ℂ) + y * Complex.I)^m).re = evalH x y m (reim m).1 ∧
    (((x : ℂ) + y * Complex.I)^m).im = evalH x y m (reim m).2 := by
  induction m with
  | zero => simp [reim, evalH]
  | succ m ih =>
    have hl := reim_length m
    simp only [reim, evalH_subL, evalH_addL, evalH_mulY, evalH_mulX x y m _ hl.1, evalH_mulX x y m _ hl.2]
    rw [pow_succ, Complex.mul_re, Complex.mul_im, ih.1, ih.2]
    simp only [Complex.add_re, Complex.add_im, Complex.mul_re, Complex.mul_im, Complex.ofReal_re, Complex.ofReal_im,
      Complex.I_re, Complex.I_im]
    constructor <;> ring

/-- the azimuthal factor -/
def azL (m : Int) : List Int := if 0 ≤ m then (reim m.natAbs).1 else (reim m.natAbs).2

/-- times (x²+y²)^t -/
def rhoL (L : List Int) : Nat → List Int
  | 0 => L
  | t+1 => match rhoL L t with
    | R => addL R (0 :: 0 :: R)

theorem azL_eval (m : Int) (x y : ℝ) : azim m x y = evalH x y m.natAbs (azL m) := by
  unfold azim azL
  split
  · exact (reim_eval x y _).1
  · exact (reim_eval x y _).2

theorem azL_length (m : Int) : (azL m).length ≤ m.natAbs + 1 := by
  unfold azL
  have := reim_length m.natAbs
  split <;> omega

theorem rhoL_length {L : List Int} {d : Nat} (h : L.length ≤ d+1) (t : Nat) : (rhoL L t).length ≤ d + 2*t + 1 := by
  induction t with
  | zero => simpa [rhoL] using h
  | succ t ih =>
    simp only [rhoL, addL_length, List.length_cons]
    omega

theorem rhoL_eval {L : List Int} {d : Nat} (x y : ℝ) (h : L.length ≤ d+1) (t : Nat) :
    evalH x y (d+2*t) (rhoL L t) = (x^2+y^2)^t * evalH x y d L := by
  induction t with
  | zero => simp [rhoL]
  | succ t ih =>
    have hl := rhoL_length h t
    simp only [rhoL, evalH_addL]
    rw [show d + 2*(t+1) = d+2*t+1+1 by ring, evalH_mulY, evalH_mulY, evalH_mulX x y _ _ (by omega),
      evalH_mulX x y _ _ hl, ih]
    ring

theorem evalH_sum (x y : ℝ) : ∀ (d : Nat) (L : List Int), L.length ≤ d+1 →
    evalH x y d L = ∑ b ∈ range (d+1), (L.getD b 0 : ℝ) * x^(d-b) * y^b
  | d, [], _ => by simp [evalH]
  | 0, [a], _ => by simp [evalH]
  | 0, a :: b :: L, h => by simp at h
  | d+1, a :: L, h => by
    have := evalH_sum x y d L (by simpa using h)
    rw [sum_range_succ']
    simp only [evalH, Nat.add_sub_cancel, this, List.getD_cons_succ, List.getD_cons_zero, Nat.sub_zero, pow_zero,
      Nat.add_sub_add_right]
    rw [mul_sum, add_comm]
    congr 1
    · refine sum_congr rfl fun b _ => by ring
    · ring

/-- 2^l times the coefficient of the Legendre derivative -/
def legC (l m k : Nat) : Nat :=
  (2*l-2*k).factorial / (k.factorial * (l-k).factorial * (l-m-2*k).factorial)

theorem legC_eq {l m k : Nat} (hm : m ≤ l) (hk : k < (l-m)/2+1) :
    ((2*l-2*k).factorial : ℝ) / (2^l * k.factorial * (l-k).factorial * (l-m-2*k).factorial) = legC l m k / 2^l := by
  have h1 : k.factorial * (l-k).factorial ∣ l.factorial := by
    have := Nat.factorial_mul_factorial_dvd_factorial_add k (l-k)
    rwa [show k + (l-k) = l by omega] at this
  have h2 : l.factorial * (l-m-2*k).factorial ∣ (2*l-2*k).factorial :=
    (Nat.factorial_mul_factorial_dvd_factorial_add l (l-m-2*k)).trans (Nat.factorial_dvd_factorial (by omega))
  have h3 : k.factorial * (l-k).factorial * (l-m-2*k).factorial ∣ (2*l-2*k).factorial :=
    (Nat.mul_dvd_mul_right h1 _).trans h2
  unfold legC
  rw [Nat.cast_div h3 (by positivity)]
  push_cast
  field_simp

def sumTo (f : Nat → Int) : Nat → Int
  | 0 => 0
  | n+1 => sumTo f n + f n

theorem sumTo_eq (f : Nat → Int) (n : Nat) : (sumTo f n : ℝ) = ∑ k ∈ range n, (f k : ℝ) := by
  induction n with
  | zero => simp [sumTo]
  | succ n ih => simp [sumTo, sum_range_succ, ih]

def sgn (k : Nat) : Int := if k % 2 = 0 then 1 else -1
theorem sgn_eq (k : Nat) : (sgn k : ℝ) = (-1)^k := by
  unfold sgn
  by_cases h : k % 2 = 0
  · rw [if_pos h, (Nat.even_iff.2 h).neg_one_pow]; simp
  · rw [if_neg h, (Nat.odd_iff.2 (by omega)).neg_one_pow]; simp

/-- coefficient of (x²+y²)^t z^(l-m-2t), times 2^l -/
def zonC (l m t : Nat) : Int := sumTo (fun k => sgn k * (legC l m k : Int) * (k.choose t : Int)) ((l-m)/2+1)

theorem zonal_eq {l m : Nat} (hm : m ≤ l) (x y z : ℝ) : zonal l m (x^2+y^2+z^2) z =
    ∑ t ∈ range ((l-m)/2+1), (zonC l m t : ℝ) / 2^l * (x^2+y^2)^t * z^(l-m-2*t) := by
  have h1 : ∀ k ∈ range ((l-m)/2+1), (-1)^k * ((2*l-2*k).factorial : ℝ) /
      (2^l * k.factorial * (l-k).factorial * (l-m-2*k).factorial) * (x^2+y^2+z^2)^k * z^(l-m-2*k) =
      ∑ t ∈ range ((l-m)/2+1), (sgn k : ℝ) * (legC l m k : ℝ) * (k.choose t : ℝ) / 2^l * (x^2+y^2)^t * z^(l-m-2*t) := by
    intro k hk
    have hk' := mem_range.1 hk
    rw [mul_div_assoc, legC_eq hm hk', add_pow, sgn_eq, mul_sum, sum_mul]
    rw [← sum_subset (range_subset_range.2 (show k+1 ≤ (l-m)/2+1 by omega))]
    · refine sum_congr rfl fun t ht => ?_
      have ht := mem_range.1 ht
      have e : z^(l-m-2*t) = (z^2)^(k-t) * z^(l-m-2*k) := by
        rw [← pow_mul, ← pow_add]
        congr 1
        omega
      rw [e]; ring
    · intro t _ ht
      have : k < t := by
        by_contra hc
        exact ht (mem_range.2 (by omega))
      rw [Nat.choose_eq_zero_of_lt this]
      simp
  unfold zonal
  rw [sum_congr rfl h1, sum_comm]
  refine sum_congr rfl fun t _ => ?_
  unfold zonC
  rw [sumTo_eq, div_eq_mul_inv, sum_mul, sum_mul, sum_mul]
  refine sum_congr rfl fun k _ => ?_
  push_cast
  ring

/-- coefficient of `x^(l-b-c) y^b z^c` in the unnormalised harmonic, times 2^l -/
def polyC (l : Nat) (m : Int) (b c : Nat) : Int :=
  if c ≤ l - m.natAbs ∧ (l - m.natAbs - c) % 2 = 0 then
    zonC l m.natAbs ((l - m.natAbs - c)/2) * (rhoL (azL m) ((l - m.natAbs - c)/2)).getD b 0
  else 0

theorem sum_tri (l : Nat) (f : Nat → ℝ) : ∑ k ∈ range (tri l), f k = ∑ s ∈ range l, ∑ c ∈ range (s+1), f (tri s + c) := by
  induction l with
  | zero => simp [tri]
  | succ l ih => rw [tri_succ, sum_range_add, ih, ← sum_range_succ (fun s => ∑ c ∈ range (s+1), f (tri s + c))]

theorem sum_cart (l : Nat) (f : Nat → Nat → ℝ) : ∑ k ∈ range (ncart l), f (py l k) (pz l k) =
    ∑ c ∈ range (l+1), ∑ b ∈ range (l-c+1), f b c := by
  rw [ncart_eq_tri, sum_tri]
  have h1 : ∀ s ∈ range (l+1), ∑ c ∈ range (s+1), f (py l (tri s + c)) (pz l (tri s + c)) =
      ∑ c ∈ range (s+1), f (s-c) c := by
    intro s _
    refine sum_congr rfl fun c hc => ?_
    have hc := mem_range.1 hc
    unfold py pz
    rw [row_tri_add (by omega), col_tri_add (by omega)]
  rw [sum_congr rfl h1]
  rw [sum_comm' (s' := fun c => Ico c (l+1)) (t' := range (l+1)) (by
    intro s c
    simp only [mem_range, mem_Ico]
    omega)]
  refine sum_congr rfl fun c hc => ?_
  have hc := mem_range.1 hc
  rw [sum_Ico_eq_sum_range, show l + 1 - c = l - c + 1 by omega]
  refine sum_congr rfl fun b _ => ?_
  rw [Nat.add_sub_cancel_left]

theorem sum_parity (n l : Nat) (hn : n ≤ l) (F : Nat → Nat → ℝ) :
    ∑ c ∈ range (l+1), (if c ≤ n ∧ (n-c)%2 = 0 then F c ((n-c)/2) else 0) = ∑ t ∈ range (n/2+1), F (n-2*t) t := by
  rw [← sum_filter]
  refine sum_bij' (fun c _ => (n-c)/2) (fun t _ => n-2*t) ?_ ?_ ?_ ?_ ?_
  · intro c hc
    simp only [mem_filter, mem_range] at hc ⊢
    omega
  · intro t ht
    simp only [mem_filter, mem_range] at ht ⊢
    omega
  · intro c hc
    simp only [mem_filter, mem_range] at hc ⊢
    omega
  · intro t ht
    simp only [mem_filter, mem_range] at ht ⊢
    omega
  · intro c hc
    simp only [mem_filter, mem_range] at hc ⊢
    rw [show n - 2*((n-c)/2) = c by omega]

theorem solid_sum {l : Nat} {m : Int} (hm : m.natAbs ≤ l) (x y z : ℝ) :
    solid l m x y z = ∑ k ∈ range (ncart l), sphNorm l m.natAbs * ((polyC l m (py l k) (pz l k) : ℝ) / 2^l) *
      (x^(px l k) * y^(py l k) * z^(pz l k)) := by
  have e0 : ∀ k ∈ range (ncart l), sphNorm l m.natAbs * ((polyC l m (py l k) (pz l k) : ℝ) / 2^l) *
      (x^(px l k) * y^(py l k) * z^(pz l k)) = (fun b c => sphNorm l m.natAbs * ((polyC l m b c : ℝ) / 2^l) *
      (x^(l-c-b) * y^b * z^c)) (py l k) (pz l k) := by
    intro k hk
    have : px l k = l - pz l k - py l k := by
      have h1 := row_spec k
      have h2 : row k < l + 1 := by
        by_contra hc
        have := tri_mono (show l + 1 ≤ row k by omega)
        have h3 := mem_range.1 hk
        rw [ncart_eq_tri] at h3
        omega
      have h4 : col k ≤ row k := by
        have := tri_succ (row k)
        unfold col
        omega
      unfold px py pz
      omega
    beta_reduce
    rw [this]
  rw [sum_congr rfl e0, sum_cart l (fun b c => sphNorm l m.natAbs * ((polyC l m b c : ℝ) / 2^l) *
      (x^(l-c-b) * y^b * z^c))]
  have e1 : ∀ c ∈ range (l+1), ∑ b ∈ range (l-c+1), sphNorm l m.natAbs * ((polyC l m b c : ℝ) / 2^l) *
      (x^(l-c-b) * y^b * z^c) = if c ≤ l - m.natAbs ∧ (l - m.natAbs - c)%2 = 0 then
        (fun c t => sphNorm l m.natAbs * ((zonC l m.natAbs t : ℝ) / 2^l) * z^c *
          evalH x y (m.natAbs + 2*t) (rhoL (azL m) t)) c ((l - m.natAbs - c)/2) else 0 := by
    intro c _
    by_cases h : c ≤ l - m.natAbs ∧ (l - m.natAbs - c)%2 = 0
    · rw [if_pos h]
      beta_reduce
      have ed : m.natAbs + 2*((l - m.natAbs - c)/2) = l - c := by omega
      rw [evalH_sum x y _ _ (rhoL_length (azL_length m) _), ed, mul_sum]
      refine sum_congr rfl fun b _ => ?_
      unfold polyC
      rw [if_pos h]
      push_cast
      ring
    · rw [if_neg h]
      refine sum_eq_zero fun b _ => ?_
      unfold polyC
      rw [if_neg h]
      simp
  rw [sum_congr rfl e1, sum_parity (l - m.natAbs) l (by omega) (fun c t => sphNorm l m.natAbs *
    ((zonC l m.natAbs t : ℝ) / 2^l) * z^c * evalH x y (m.natAbs + 2*t) (rhoL (azL m) t))]
  unfold solid
  rw [zonal_eq hm, mul_sum]
  refine sum_congr rfl fun t _ => ?_
  rw [rhoL_eval x y (azL_length m), azL_eval]
  ring

/-! ### The kernel's check of the table -/

/-- the literal in column `k` of a sparse row -/
def rowDec : List (Nat × Dec) → Nat → Dec
  | [], _ => ⟨0, 0⟩
  | e :: r, k => if k = e.1 then e.2 else rowDec r k

theorem rowDec_eq (r : List (Nat × Dec)) (k : Nat) : (rowCoef r k : ℝ) = decVal (rowDec r k) := by
  induction r with
  | nil => simp [rowCoef, rowDec, decVal]
  | cons e r ih =>
    unfold rowCoef rowDec
    split
    · rfl
    · exact ih

/-- the normalisation factor of s and p shells as a literal -/
def facDec (l : Nat) : Dec := if l = 0 then ⟨282094791773878143, 18⟩ else if l = 1 then ⟨488602511902919921, 18⟩ else ⟨1, 0⟩

/-- `M/10^e` is within a relative error of 10^-15 of the normalisation times `P/2^l` -/
def close (l m : Nat) (P M : Int) (e : Nat) : Bool :=
  decide (0 ≤ P * M) &&
  decide (M.natAbs*M.natAbs * (4 * 314159265358979323847 * 4^l * (l+m).factorial * 10^10) ≤
    (10^15+1)*(10^15+1) * ((2*l+1) * (if m = 0 then 1 else 2) * (l-m).factorial) * (P.natAbs*P.natAbs) * 10^(2*e)) &&
  decide ((10^15-1)*(10^15-1) * ((2*l+1) * (if m = 0 then 1 else 2) * (l-m).factorial) * (P.natAbs*P.natAbs) * 10^(2*e) ≤
    M.natAbs*M.natAbs * (4 * 314159265358979323846 * 4^l * (l+m).factorial * 10^10))

def cellOK (l : Nat) (m : Int) (row : List (Nat × Dec)) (s c : Nat) : Bool :=
  match rowDec row (tri s + c) with
  | ⟨M, e⟩ => close l m.natAbs (polyC l m (s-c) c) (M * (facDec l).man) (e + (facDec l).dec)

def rowOK (l i : Nat) : Prop := ∀ s, s < l+1 → ∀ c, c < s+1 → cellOK l (mAt l i) ((c2sRows.getD l []).getD i []) s c = true
instance (l i : Nat) : Decidable (rowOK l i) := inferInstanceAs (Decidable (∀ s, s < l+1 → ∀ c, c < s+1 → _))

set_option maxRecDepth 100000 in
theorem rows_check : ∀ l, l < 16 → ∀ i, i < l*2+1 → rowOK l i := by decide +kernel

theorem close_abs {c T ε : ℝ} (hs : 0 ≤ c * T) (h0 : 0 ≤ ε) (h1 : ε ≤ 1) (hu : c^2 ≤ ((1+ε)*T)^2)
    (hl : ((1-ε)*T)^2 ≤ c^2) : |c - T| ≤ ε * |T| := by
  have a1 := sq_le_sq.1 hu
  have a2 := sq_le_sq.1 hl
  rw [abs_mul, abs_of_nonneg (show 0 ≤ 1 + ε by linarith)] at a1
  rw [abs_mul, abs_of_nonneg (show 0 ≤ 1 - ε by linarith)] at a2
  have hd : |c - T| = |(|c| - |T|)| := by
    rcases le_total 0 c with hc | hc <;> rcases le_total 0 T with hT | hT
    · rw [abs_of_nonneg hc, abs_of_nonneg hT]
    · have : c * T = 0 := le_antisymm (mul_nonpos_of_nonneg_of_nonpos hc hT) hs
      rcases mul_eq_zero.1 this with h | h
      · subst h; simp
      · subst h; simp
    · have : c * T = 0 := le_antisymm (mul_nonpos_of_nonpos_of_nonneg hc hT) hs
      rcases mul_eq_zero.1 this with h | h
      · subst h; simp
      · subst h; simp
    · rw [abs_of_nonpos hc, abs_of_nonpos hT, ← abs_neg]
      congr 1
      ring
  rw [hd, abs_le]
  constructor <;> linarith

theorem close_spec {l m : Nat} {P M : Int} {e : Nat} (h : close l m P M e = true) :
    |(M : ℝ) / 10^e - sphNorm l m * ((P : ℝ) / 2^l)| ≤ 1/10^15 * |sphNorm l m * ((P : ℝ) / 2^l)| := by
  simp only [close, Bool.and_eq_true, decide_eq_true_eq] at h
  obtain ⟨⟨h0, h1⟩, h2⟩ := h
  have hpi := Real.pi_pos
  have hlo := Real.pi_gt_d20
  have hhi := Real.pi_lt_d20
  have hNn : 0 ≤ sphNorm l m := Real.sqrt_nonneg _
  have hN : sphNorm l m ^ 2 = (2*l+1) / (4*Real.pi) * (if m = 0 then 1 else 2) * (l-m).factorial / (l+m).factorial := by
    unfold sphNorm
    rw [Real.sq_sqrt]
    split <;> positivity
  have g1 : (M:ℝ)^2 * (4 * 314159265358979323847 * 4^l * (l+m).factorial * 10^10) ≤
      (10^15+1)*(10^15+1) * ((2*l+1) * (if m = 0 then 1 else 2) * (l-m).factorial) * (P:ℝ)^2 * 10^(2*e) := by
    have := (Nat.cast_le (α := ℝ)).2 h1
    push_cast at this
    simp only [Nat.cast_natAbs, Int.cast_abs, abs_mul_abs_self] at this
    rw [pow_two, pow_two]
    norm_num at this ⊢
    exact this
  have g2 : (10^15-1)*(10^15-1) * ((2*l+1) * (if m = 0 then 1 else 2) * (l-m).factorial) * (P:ℝ)^2 * 10^(2*e) ≤
      (M:ℝ)^2 * (4 * 314159265358979323846 * 4^l * (l+m).factorial * 10^10) := by
    have := (Nat.cast_le (α := ℝ)).2 h2
    push_cast at this
    simp only [Nat.cast_natAbs, Int.cast_abs, abs_mul_abs_self] at this
    rw [pow_two, pow_two]
    norm_num at this ⊢
    exact this
  generalize (if m = 0 then (1:ℝ) else 2) = w at hN g1 g2
  have hf : (0:ℝ) < (l+m).factorial := by positivity
  have hT : (sphNorm l m * ((P : ℝ) / 2^l))^2 =
      ((2*l+1) * w * (l-m).factorial * P^2) / (4 * Real.pi * (l+m).factorial * 4^l) := by
    rw [mul_pow, hN, div_pow, ← pow_mul, Nat.mul_comm l 2, pow_mul]
    norm_num
    field_simp
  have hc : ((M : ℝ) / 10^e)^2 = M^2 / 10^(2*e) := by
    rw [div_pow, ← pow_mul, Nat.mul_comm e 2]
  have h10 : (0:ℝ) < 10^(2*e) := by positivity
  have h4 : (0:ℝ) < 4^l := by positivity
  refine close_abs ?_ (by norm_num) (by norm_num) ?_ ?_
  · have : (0:ℝ) ≤ (P:ℝ) * M := by exact_mod_cast h0
    have e : (M : ℝ) / 10^e * (sphNorm l m * ((P : ℝ) / 2^l)) = (P * M) * sphNorm l m / (10^e * 2^l) := by
      field_simp
    rw [e]
    positivity
  · rw [mul_pow, hT, hc, ← mul_div_assoc, div_le_div_iff₀ h10 (by positivity)]
    have : (M:ℝ)^2 * (4 * Real.pi * (l+m).factorial * 4^l) ≤
        (M:ℝ)^2 * (4 * 314159265358979323847 * 4^l * (l+m).factorial * 10^10) / 10^30 := by
      rw [le_div_iff₀ (by norm_num)]
      have : (M:ℝ)^2 * ((l+m).factorial * 4^l) * Real.pi ≤ (M:ℝ)^2 * ((l+m).factorial * 4^l) * 3.14159265358979323847 :=
        mul_le_mul_of_nonneg_left hhi.le (by positivity)
      linarith
    linarith
  · rw [mul_pow, hT, hc, ← mul_div_assoc, div_le_div_iff₀ (by positivity) h10]
    have : (M:ℝ)^2 * (4 * 314159265358979323846 * 4^l * (l+m).factorial * 10^10) / 10^30 ≤
        (M:ℝ)^2 * (4 * Real.pi * (l+m).factorial * 4^l) := by
      rw [div_le_iff₀ (by norm_num)]
      have : (M:ℝ)^2 * ((l+m).factorial * 4^l) * 3.14159265358979323846 ≤ (M:ℝ)^2 * ((l+m).factorial * 4^l) * Real.pi :=
        mul_le_mul_of_nonneg_left hlo.le (by positivity)
      linarith
    linarith

theorem mAt_le {l i : Nat} (hi : i < l*2+1) : (mAt l i).natAbs ≤ l := by
  unfold mAt
  split
  · split
    · simp; omega
    · split <;> simp <;> omega
  · omega

end Verif.Lemmas
