import Verif.Lemmas.StgRoots
import Verif.Lemmas.DiscreteCos
import Mathlib.Analysis.Complex.ExponentialBounds
import Mathlib.Analysis.SpecialFunctions.Log.Base
import Mathlib.Analysis.SpecialFunctions.Pow.Real
import Mathlib.Tactic.NormNum
import Mathlib.Tactic.Linarith
import Mathlib.Tactic.Positivity
import Mathlib.Tactic.FieldSimp

/-!
C64: roots and weights for the Slater-type geminal and the Yukawa interaction (CINTstg_roots): for every `T ≥ 0` and `U > 0`, which cell of the
tables is used and with which arguments, what is refused, and what is accepted although the message says that it is not.
-/
namespace Verif.Props
open Verif Prog Verif.Model Verif.Model.PolyFits Verif.Model.StgRoots Verif.Lemmas.PolyFits

namespace Stg

/-- the functions of libm without rounding; the conversion from double to int drops the fraction -/
noncomputable def exact : StgLib ℝ where
  log := Real.log
  log10 := Real.logb 10
  sqrt := Real.sqrt
  toInt := fun x => if 0 ≤ x then ⌊x⌋ else ⌈x⌉

/-- Chebyshev series with 14 coefficients, the first one halved -/
noncomputable def series (c : Nat → ℝ) (u : ℝ) : ℝ :=
  ∑ k ∈ Finset.range 14, (if k = 0 then 1/2 else 1) * c k * (Polynomial.Chebyshev.T ℝ k).eval u

/-- value of a fit with the coefficients `c j l`: the series in `u` with the coefficients `c j` is the value at node `j` of 14 nodes in `t`;
`C` makes of the 14 values the coefficients of a series in `t` -/
noncomputable def fitted (C c : Nat → Nat → ℝ) (u t : ℝ) : ℝ :=
  series (fun k => 14285714285714285714/10^20 * ∑ j ∈ Finset.range 14, series (c j) u * C j k) t

/-- position of `T` on the grid: the cells are [0, 1), [1, 3), [3, 9), …, [3^8, 3^9) up to the digits of the constant 1/log 3 -/
noncomputable def posT (t : ℝ) : ℝ := if t ≤ 1 then Real.sqrt t else 9102392266268373/10^16 * Real.log t + 1

/-- where the coefficients of root `i` of `n` for the cell `iu` of `U` and the cell `it` of `T` are: 100 cells for each number of roots -/
def square (n iu it i : Nat) : Nat := ((n-1)*n/2 * 100 + n * (10*it + iu) + i) * 196

/-- the arrays of the caller, the local arrays and the tables up to `n` roots -/
structure Mem (h : Heap ℝ) (n : Nat) (X W rr ww im imc : Ptr) (cx cw : Nat → ℝ) : Prop where
  orr : ∀ i, i < n → h.D (rr + i) ≠ .oob
  oww : ∀ i, i < n → h.D (ww + i) ≠ .oob
  oim : ∀ i, i < 14*n → h.D (im + i) ≠ .oob
  oimc : ∀ i, i < 14*n → h.D (imc + i) ≠ .oob
  rw : ∀ i j, i < n → j < n → rr + i ≠ ww + j
  xs : ∀ i, i < (n+1)*n/2 * 19600 → h.D (X + i) = .val (cx i)
  ws : ∀ i, i < (n+1)*n/2 * 19600 → h.D (W + i) = .val (cw i)
  loc : im.buf ≠ imc.buf
  ri : rr.buf ≠ im.buf ∧ rr.buf ≠ imc.buf
  wi : ww.buf ≠ im.buf ∧ ww.buf ≠ imc.buf
  xb : X.buf ≠ im.buf ∧ X.buf ≠ imc.buf ∧ X.buf ≠ rr.buf ∧ X.buf ≠ ww.buf
  wb : W.buf ≠ im.buf ∧ W.buf ≠ imc.buf ∧ W.buf ≠ rr.buf ∧ W.buf ≠ ww.buf

/-- after the call: the roots and weights are the values of the fits of the cell at `iu`, `it` for the arguments `u`, `t` (the weights
multiplied with `1/√U`), and nothing but these and the local arrays has changed -/
def Result (C : Nat → Nat → ℝ) (cx cw : Nat → ℝ) (n : Nat) (rr ww im imc : Ptr) (h : Heap ℝ) (U : ℝ) (iu it : Nat) (u t : ℝ) (r : Option (Bool × Heap ℝ)) : Prop :=
  ∃ h', r = some (true, h') ∧
    (∀ i, i < n → h'.D (rr + i) = .val (fitted C (fun j l => cx (square n iu it i + 14*j + l)) u t)) ∧
    (∀ i, i < n → h'.D (ww + i) = .val (fitted C (fun j l => cw (square n iu it i + 14*j + l)) u t / Real.sqrt U)) ∧
    (∀ q : Ptr, (∀ i, i < n → q ≠ rr + i) → (∀ i, i < n → q ≠ ww + i) → q.buf ≠ im.buf → q.buf ≠ imc.buf → h'.D q = h.D q) ∧ h'.I = h.I

theorem cheb_eq : (cheb : (Nat → ℝ) → ℝ → ℝ) = series := rfl

theorem fit_eq (C c : Nat → Nat → ℝ) (u t : ℝ) : Lemmas.StgRoots.fit C c u t = fitted C c u t := rfl

theorem half (n : Nat) : (n+1)*n/2 = (n-1)*n/2 + n := by
  cases n with
  | zero => rfl
  | succ m =>
    have : (m+1+1)*(m+1) = (m+1-1)*(m+1) + (m+1)*2 := by simp only [Nat.add_sub_cancel]; ring
    rw [this, Nat.add_mul_div_right _ _ (by norm_num)]

theorem square_lt {n cell i j l a : Nat} (hc : cell < 100) (hi : i < n) (hj : j < 14) (hl : l < 14) (ha : (n+1)*n/2 = a + n) :
    (a * 100 + n * cell + i) * 196 + 14*j + l < (n+1)*n/2 * 19600 := by
  have h1 : n * cell + i + 1 ≤ n * 100 := by
    calc n * cell + i + 1 ≤ n*cell + n := by omega
      _ = n*(cell+1) := by ring
      _ ≤ n*100 := Nat.mul_le_mul_left _ hc
  rw [ha]
  generalize n*cell = N at *
  omega

variable {C : Nat → Nat → ℝ} {cx cw : Nat → ℝ} {n : Nat} {X W rr ww im imc : Ptr} {h : Heap ℝ}

/-- a cell `cell` of the table -/
theorem at_cell {L : StgLib ℝ} {ta ua : ℝ} {it iu : Nat} (M : Mem h n X W rr ww im imc cx cw)
    (eit : L.toInt (mapT L (limT ta)) = it) (eiu : L.toInt (L.log10 ua + 7) = iu) (hiu : iu ≤ 10) (hcell : iu + it*10 < 100) (hs : L.sqrt = Real.sqrt) :
    Result C cx cw n rr ww im imc h ua iu it (2 * (L.log10 ua - (iu - 7)) - 1) (2 * (mapT L (limT ta) - it) - 1)
      (run (stgRoots L C n ta ua X W rr ww im imc) h) := by
  have hsq : ∀ i j l, (n-1)*n/2*19600 + n*196*(iu + it*10) + (196*i + 14*j + l) = square n iu it i + 14*j + l := by
    intro i j l; unfold square; ring
  have hlt : ∀ i j l, i < n → j < 14 → l < 14 → square n iu it i + 14*j + l < (n+1)*n/2*19600 := by
    intro i j l hi hj hl
    exact square_lt (by omega) hi hj hl (half n)
  unfold stgRoots
  simp only [eit, eiu, Int.cast_natCast, Int.toNat_natCast]
  rw [if_neg (by omega)]
  generalize hu : 2 * (L.log10 ua - ((iu : ℝ) - 7)) - 1 = uu
  generalize ht : 2 * (mapT L (limT ta) - (it : ℝ)) - 1 = tt
  have key : wp (do
      pass C n uu tt (X + (n-1)*n/2 * 19600 + n * 196 * (iu + it * 10)) im imc rr
      pass C n uu tt (W + (n-1)*n/2 * 19600 + n * 196 * (iu + it * 10)) im imc ww
      forN n fun k => do
        let w ← ld (ww + k)
        st (ww + k) (w * (1 / L.sqrt ua))
      pure true) (fun b h' => b = true ∧ (∀ i, i < n → h'.D (rr + i) = .val (fitted C (fun j l => cx (square n iu it i + 14*j + l)) uu tt)) ∧
    (∀ i, i < n → h'.D (ww + i) = .val (fitted C (fun j l => cw (square n iu it i + 14*j + l)) uu tt / Real.sqrt ua)) ∧
    (∀ q : Ptr, (∀ i, i < n → q ≠ rr + i) → (∀ i, i < n → q ≠ ww + i) → q.buf ≠ im.buf → q.buf ≠ imc.buf → h'.D q = h.D q) ∧ h'.I = h.I) h := by
    rw [wp_mbind]
    refine wp_mono (Lemmas.StgRoots.wp_pass C n uu tt _ im imc rr (fun i j l => cx (square n iu it i + 14*j + l)) h M.oim M.oimc M.orr
      (by simpa only [Ptr.add_buf] using M.xb.1) M.loc (Ne.symm M.ri.2) ?_) ?_
    · intro i j l hi hj hl
      rw [Ptr.add_assoc, Ptr.add_assoc, ← Nat.add_assoc, hsq]
      exact M.xs _ (hlt i j l hi hj hl)
    rintro _ h1 ⟨v1, f1, o1, i1⟩
    rw [wp_mbind]
    refine wp_mono (Lemmas.StgRoots.wp_pass C n uu tt _ im imc ww (fun i j l => cw (square n iu it i + 14*j + l)) h1 (fun i hi => o1 _ (M.oim i hi)) (fun i hi => o1 _ (M.oimc i hi))
      (fun i hi => o1 _ (M.oww i hi))
      (by simpa only [Ptr.add_buf] using M.wb.1) M.loc (Ne.symm M.wi.2) ?_) ?_
    · intro i j l hi hj hl
      rw [Ptr.add_assoc, Ptr.add_assoc, ← Nat.add_assoc, hsq, f1 _ (fun k _ e => M.wb.2.2.1 (by simpa only [Ptr.add_buf] using congrArg Ptr.buf e))
        (by simpa only [Ptr.add_buf] using M.wb.1) (by simpa only [Ptr.add_buf] using M.wb.2.1)]
      exact M.ws _ (hlt i j l hi hj hl)
    rintro _ h2 ⟨v2, f2, o2, i2⟩
    rw [wp_mbind]
    refine wp_forN (fun k h3 => AssignedD h2 h3 (· < k) (fun i => ww + i)
        (fun i => fitted C (fun j l => cw (square n iu it i + 14*j + l)) uu tt / Real.sqrt ua)) (AssignedD.init _ _ _ (fun k hk => by omega)) ?_ ?_
    · intro k hk h3 H3
      rw [wp_mbind, wp_ld]
      refine ⟨fitted C (fun j l => cw (square n iu it k + 14*j + l)) uu tt, ?_, ?_⟩
      · rw [H3.frame _ (fun i hi e => absurd ((Ptr.add_right_inj _ _ _).1 e) (by omega)), v2 k hk]; rfl
      · rw [wp_st]
        refine ⟨H3.ne_oob (by rw [v2 k hk]; exact fun e => by cases e), ?_⟩
        have := H3.set (P' := (· < k+1)) k (fun i hi e => absurd ((Ptr.add_right_inj _ _ _).1 e) (by omega)) (fun i => by omega)
        rw [hs, mul_one_div]
        exact this
    · intro h3 H3
      rw [wp_pure]
      refine ⟨rfl, fun i hi => ?_, fun i hi => H3.val i hi, fun q q1 q2 q3 q4 => ?_, H3.int.trans (i2.trans i1)⟩
      · rw [H3.frame _ (fun k hk => M.rw i k hi hk), f2 _ (fun k hk => M.rw i k hi hk) (by simpa only [Ptr.add_buf] using M.ri.1) (by simpa only [Ptr.add_buf] using M.ri.2),
          v1 i hi]; rfl
      · rw [H3.frame _ (fun k hk => q2 k hk), f2 q q2 q3 q4, f1 q q1 q3 q4]
  obtain ⟨b, h', e, rfl, r⟩ := run_of_wp key
  exact ⟨h', e, r⟩

theorem toInt_eq {x : ℝ} {m : Nat} (h1 : (m : ℝ) ≤ x) (h2 : x < m + 1) : exact.toInt x = m := by
  have h0 : (0 : ℝ) ≤ x := le_trans (Nat.cast_nonneg m) h1
  show (if 0 ≤ x then ⌊x⌋ else ⌈x⌉) = _
  rw [if_pos h0, Int.floor_eq_iff]
  exact ⟨by exact_mod_cast h1, by exact_mod_cast h2⟩

theorem mapT_eq (t : ℝ) : mapT exact t = posT t := by
  unfold mapT posT
  by_cases h : t ≤ 1
  · rw [if_neg (not_lt.2 h), if_pos h]; rfl
  · rw [if_pos (not_le.1 h), if_neg h, mul_comm]; rfl

theorem limT_eq (t : ℝ) : limT t = min t (1968299/100) := by
  unfold limT
  by_cases h : t > 1968299/100
  · rw [if_pos h, min_eq_right h.le]
  · rw [if_neg h, min_eq_left (not_lt.1 h)]

theorem posT_nonneg {t : ℝ} : 0 ≤ posT t := by
  unfold posT
  split
  · exact Real.sqrt_nonneg _
  · next h => have := Real.log_nonneg (not_le.1 h).le; positivity

theorem log_top : Real.log (1968299/100) < 9.8875102 := by
  have e : (1968299/100 : ℝ) = 3^9 * (1968299/1968300) := by norm_num
  rw [e, Real.log_mul (by norm_num) (by norm_num), Real.log_pow]
  have h1 := Real.log_three_lt_d9
  have h2 := Real.log_le_sub_one_of_pos (show (0:ℝ) < 1968299/1968300 by norm_num)
  norm_num at h1 h2 ⊢
  linarith

theorem posT_lt {t : ℝ} (ht : t ≤ 1968299/100) : posT t < 10 := by
  unfold posT
  split
  · next h => exact lt_of_le_of_lt (Real.sqrt_le_one.2 h) (by norm_num)
  · next h =>
    have h1 := Real.log_le_log (by linarith [not_le.1 h]) ht
    have h2 := log_top
    norm_num at h2
    linarith

theorem zpow_le {U : ℝ} (hU : 0 < U) (z : Int) : (z : ℝ) ≤ Real.logb 10 U ↔ (10 : ℝ)^z ≤ U := by
  rw [Real.le_logb_iff_rpow_le (by norm_num) hU, Real.rpow_intCast]

theorem lt_zpow {U : ℝ} (hU : 0 < U) (z : Int) : Real.logb 10 U < (z : ℝ) ↔ U < (10 : ℝ)^z := by
  rw [Real.logb_lt_iff_lt_rpow (by norm_num) hU, Real.rpow_intCast]

end Stg
open Stg

variable {C : Nat → Nat → ℝ} {cx cw : Nat → ℝ} {n : Nat} {X W rr ww im imc : Ptr} {h : Heap ℝ}

/-- C64: for `T ≥ 0` and `10^-7 ≤ U < 10^3` the call returns, the cell with `10^(iu-7) ≤ U < 10^(iu-6)` and the cell of `T` (cut at 19682.99) are
used, both arguments lie in [-1, 1), and the roots and weights are the values of the fits. -/
theorem C64_in_range {T U : ℝ} (_hT : 0 ≤ T) (M : Mem h n X W rr ww im imc cx cw) (hU : (10 : ℝ)^(-7 : ℤ) ≤ U) (hU' : U < (10 : ℝ)^(3 : ℤ)) :
    ∃ iu it : Nat, iu < 10 ∧ it < 10 ∧ (10 : ℝ)^((iu : ℤ) - 7) ≤ U ∧ U < (10 : ℝ)^((iu : ℤ) - 6) ∧
      (it : ℝ) ≤ posT (min T (1968299/100)) ∧ posT (min T (1968299/100)) < it + 1 ∧ ∃ u t : ℝ,
      u = 2 * (Real.logb 10 U - (iu - 7)) - 1 ∧ t = 2 * (posT (min T (1968299/100)) - it) - 1 ∧ (-1 ≤ u ∧ u < 1) ∧ (-1 ≤ t ∧ t < 1) ∧
      Result C cx cw n rr ww im imc h U iu it u t (run (stgRoots exact C n T U X W rr ww im imc) h) := by
  have pU : 0 < U := lt_of_lt_of_le (by positivity) hU
  have a1 := (zpow_le pU (-7)).2 hU
  have a2 := (lt_zpow pU 3).2 hU'
  push_cast at a1 a2
  have b1 := Nat.floor_le (show 0 ≤ Real.logb 10 U + 7 by linarith)
  have b2 := Nat.lt_floor_add_one (Real.logb 10 U + 7)
  have b3 : ⌊Real.logb 10 U + 7⌋₊ < 10 := (Nat.floor_lt (by linarith)).2 (by push_cast; linarith)
  generalize ⌊Real.logb 10 U + 7⌋₊ = iu at b1 b2 b3
  have c1 := Nat.floor_le (posT_nonneg (t := min T (1968299/100)))
  have c2 := Nat.lt_floor_add_one (posT (min T (1968299/100)))
  have c3 : ⌊posT (min T (1968299/100))⌋₊ < 10 := (Nat.floor_lt posT_nonneg).2 (by push_cast; exact posT_lt (min_le_right _ _))
  generalize ⌊posT (min T (1968299/100))⌋₊ = it at c1 c2 c3
  have R := at_cell (C := C) (L := exact) (ta := T) (ua := U) M (by rw [limT_eq, mapT_eq]; exact toInt_eq c1 c2) (toInt_eq b1 b2) (by omega) (by omega) rfl
  rw [limT_eq, mapT_eq] at R
  refine ⟨iu, it, b3, c3, ?_, ?_, c1, c2, _, _, rfl, rfl, ⟨by linarith, by linarith⟩, ⟨by linarith, by linarith⟩, R⟩
  · rw [← zpow_le pU]; push_cast; linarith
  · rw [← lt_zpow pU]; push_cast; linarith

/-- C64, the defect at the upper end: `10^3 ≤ U < 10^4` is not refused.  When `T` lies in one of the first nine cells, the coefficients
are those of the next cell of `T` and of the smallest `U`, from 10^-7 to 10^-6. -/
theorem C64_upper_wrong_cell {T U : ℝ} {it : Nat} (_hT : 0 ≤ T) (M : Mem h n X W rr ww im imc cx cw) (hU : (10 : ℝ)^(3 : ℤ) ≤ U) (hU' : U < (10 : ℝ)^(4 : ℤ))
    (hT : (it : ℝ) ≤ posT (min T (1968299/100))) (hT' : posT (min T (1968299/100)) < it + 1) (h9 : it < 9) :
    Result C cx cw n rr ww im imc h U 0 (it+1) (2 * (Real.logb 10 U - 3) - 1) (2 * (posT (min T (1968299/100)) - it) - 1)
      (run (stgRoots exact C n T U X W rr ww im imc) h) := by
  have pU : 0 < U := lt_of_lt_of_le (by positivity) hU
  have a1 := (zpow_le pU 3).2 hU
  have a2 := (lt_zpow pU 4).2 hU'
  push_cast at a1 a2
  have R := at_cell (C := C) (L := exact) (ta := T) (ua := U) (iu := 10) M (by rw [limT_eq, mapT_eq]; exact toInt_eq hT hT')
    (toInt_eq (by show ((10:ℕ):ℝ) ≤ Real.logb 10 U + 7; push_cast; linarith) (by show Real.logb 10 U + 7 < ((10:ℕ):ℝ) + 1; push_cast; linarith)) (by omega) (by omega) rfl
  rw [limT_eq, mapT_eq] at R
  have e : ∀ i, square n 10 it i = square n 0 (it+1) i := fun i => by unfold square; ring
  have e2 : exact.log10 U - (((10:ℕ):ℝ) - 7) = Real.logb 10 U - 3 := by show Real.logb 10 U - (((10:ℕ):ℝ) - 7) = _; push_cast; ring
  rw [e2] at R
  unfold Result at R ⊢
  simp only [e] at R
  exact R

/-- C64, the defect at the upper end in the last cell of `T`: for `T ≥ 10000` the coefficients read are those behind the tables of `n` roots;
where the tables end there, this is undefined. -/
theorem C64_upper_past_end {T U : ℝ} (hn : 0 < n) (hU : (10 : ℝ)^(3 : ℤ) ≤ U) (hU' : U < (10 : ℝ)^(4 : ℤ)) (hT : 10000 ≤ T)
    (hend : ∀ i, h.D (X + ((n+1)*n/2 * 19600 + i)) = .oob) : run (stgRoots exact C n T U X W rr ww im imc) h = none := by
  have pU : 0 < U := lt_of_lt_of_le (by positivity) hU
  have a1 := (zpow_le pU 3).2 hU
  have a2 := (lt_zpow pU 4).2 hU'
  push_cast at a1 a2
  have hm : 10000 ≤ min T (1968299/100) := le_min hT (by norm_num)
  have hT9 : ((9:ℕ):ℝ) ≤ posT (min T (1968299/100)) := by
    unfold posT
    rw [if_neg (by linarith)]
    have l1 : Real.log ((2:ℝ)^13) ≤ Real.log (min T (1968299/100)) := Real.log_le_log (by norm_num) (le_trans (by norm_num) hm)
    rw [Real.log_pow] at l1
    have l2 := Real.log_two_gt_d9
    norm_num at l1 l2 ⊢
    linarith
  have e1 : exact.toInt (mapT exact (limT T)) = (9:ℕ) := by
    rw [limT_eq, mapT_eq]; exact toInt_eq hT9 (by have := posT_lt (t := min T (1968299/100)) (min_le_right _ _); push_cast; linarith)
  have e2 : exact.toInt (exact.log10 U + 7) = (10:ℕ) :=
    toInt_eq (by show ((10:ℕ):ℝ) ≤ Real.logb 10 U + 7; push_cast; linarith) (by show Real.logb 10 U + 7 < ((10:ℕ):ℝ) + 1; push_cast; linarith)
  unfold stgRoots
  simp only [e1, e2, Int.cast_natCast, Int.toNat_natCast]
  rw [if_neg (by omega), run_bind]
  have R : ∀ uu tt : ℝ, run (pass C n uu tt (X + (n-1)*n/2 * 19600 + n * 196 * (10 + 9 * 10)) im imc rr) h = none := by
    intro uu tt
    unfold pass
    rw [run_bind]
    have : run (StgRoots.clenshawDc im (X + (n-1)*n/2 * 19600 + n * 196 * (10 + 9 * 10)) uu n) h = none := by
      refine run_forS_none hn (run_forS_none (by norm_num) ?_)
      rw [run_bind]
      have : run (clenshaw (X + (n-1)*n/2 * 19600 + n * 196 * (10 + 9 * 10) + (196*0+14*0)) 1 uu) h = none := by
        unfold clenshaw
        rw [run_bind]
        have hp : X + (n-1)*n/2 * 19600 + n * 196 * (10 + 9 * 10) + (196*0+14*0) + 13*1 = X + ((n+1)*n/2*19600 + 13) := by
          have : (n-1)*n/2 * 19600 + (n * 196 * (10 + 9 * 10) + ((196*0+14*0) + 13*1)) = (n+1)*n/2*19600 + 13 := by rw [half]; omega
          rw [Ptr.add_assoc, Ptr.add_assoc, Ptr.add_assoc, this]
        have : run (ld (X + ((n+1)*n/2*19600 + 13))) h = none := by
          simp only [ld, run, hend 13]
        rw [hp, this]; rfl
      rw [this]; rfl
    rw [this]; rfl
  rw [R]; rfl

/-- C64, the defect at the lower end: `10^-8 < U < 10^-7` is not refused; the cell of the smallest `U` is used with an argument outside
[-1, 1]. -/
theorem C64_lower_outside {T U : ℝ} {it : Nat} (_hT : 0 ≤ T) (M : Mem h n X W rr ww im imc cx cw) (hU : (10 : ℝ)^(-8 : ℤ) < U) (hU' : U < (10 : ℝ)^(-7 : ℤ))
    (hT : (it : ℝ) ≤ posT (min T (1968299/100))) (hT' : posT (min T (1968299/100)) < it + 1) :
    2 * (Real.logb 10 U + 7) - 1 < -1 ∧
    Result C cx cw n rr ww im imc h U 0 it (2 * (Real.logb 10 U + 7) - 1) (2 * (posT (min T (1968299/100)) - it) - 1)
      (run (stgRoots exact C n T U X W rr ww im imc) h) := by
  have pU : 0 < U := lt_trans (by positivity) hU
  have a1 := (lt_zpow pU (-7)).2 hU'
  have a2 : ¬ Real.logb 10 U ≤ ((-8 : ℤ) : ℝ) := by
    rw [Real.logb_le_iff_le_rpow (by norm_num) pU, Real.rpow_intCast]; exact not_le.2 hU
  push_cast at a1 a2
  have hit : it < 10 := by
    have := posT_lt (t := min T (1968299/100)) (min_le_right _ _)
    have : (it : ℝ) < (10 : ℕ) := by push_cast; linarith
    exact_mod_cast this
  have e0 : exact.toInt (exact.log10 U + 7) = (0:ℕ) := by
    show (if 0 ≤ Real.logb 10 U + 7 then ⌊Real.logb 10 U + 7⌋ else ⌈Real.logb 10 U + 7⌉) = _
    rw [if_neg (by linarith), Int.ceil_eq_iff]
    push_cast
    exact ⟨by linarith [not_le.1 a2], by linarith⟩
  have R := at_cell (C := C) (L := exact) (ta := T) (ua := U) (iu := 0) M (by rw [limT_eq, mapT_eq]; exact toInt_eq hT hT') e0 (by omega) (by omega) rfl
  rw [limT_eq, mapT_eq] at R
  have e2 : exact.log10 U - (((0:ℕ):ℝ) - 7) = Real.logb 10 U + 7 := by show Real.logb 10 U - (((0:ℕ):ℝ) - 7) = _; push_cast; ring
  rw [e2] at R
  exact ⟨by linarith, R⟩

/-- C64: other `U` end the program before anything is written. -/
theorem C64_refused {T U : ℝ} (_hT : 0 ≤ T) (pU : 0 < U) (hU : U ≤ (10 : ℝ)^(-8 : ℤ) ∨ (10 : ℝ)^(4 : ℤ) ≤ U) :
    run (stgRoots exact C n T U X W rr ww im imc) h = some (false, h) := by
  unfold stgRoots
  simp only []
  rw [if_pos ?_]
  · rfl
  show (if 0 ≤ Real.logb 10 U + 7 then ⌊Real.logb 10 U + 7⌋ else ⌈Real.logb 10 U + 7⌉) < 0 ∨ (if 0 ≤ Real.logb 10 U + 7 then ⌊Real.logb 10 U + 7⌋ else ⌈Real.logb 10 U + 7⌉) > 10
  rcases hU with hU | hU
  · left
    have a : Real.logb 10 U ≤ ((-8 : ℤ) : ℝ) := by rw [Real.logb_le_iff_le_rpow (by norm_num) pU, Real.rpow_intCast]; exact hU
    push_cast at a
    rw [if_neg (by linarith)]
    have : ⌈Real.logb 10 U + 7⌉ ≤ -1 := Int.ceil_le.2 (by push_cast; linarith)
    omega
  · right
    have a := (zpow_le pU 4).2 hU
    push_cast at a
    rw [if_pos (by linarith)]
    have : 11 ≤ ⌊Real.logb 10 U + 7⌋ := Int.le_floor.2 (by push_cast; linarith)
    omega

/-- C64: with the matrix of the cosines, the fit interpolates: at each of the 14 Chebyshev nodes of the cell of `T` it is the series in `U` of that node, up to
the digits of 1/7 in the source.  (COS_14_14, src/stg_roots.c:17-214, holds these cosines in decimals, `C j k` at `14*j+k`.) -/
theorem C64_nodes (c : Nat → Nat → ℝ) (u : ℝ) (m : Nat) (hm : m < 14) :
    fitted (fun j k => Real.cos (k * ((2*j+1) * Real.pi / 28))) c u (Real.cos ((2*m+1) * Real.pi / 28)) = 99999999999999999998/10^20 * series (c m) u := by
  unfold fitted
  rw [series]
  have e : ∀ k : Nat, (if k = 0 then (1/2:ℝ) else 1) * (14285714285714285714/10^20 * ∑ j ∈ Finset.range 14, series (c j) u * Real.cos (k * ((2*j+1) * Real.pi / 28))) *
      (Polynomial.Chebyshev.T ℝ k).eval (Real.cos ((2*m+1) * Real.pi / 28)) =
      14285714285714285714/10^20 * ∑ j ∈ Finset.range 14, series (c j) u * ((if k = 0 then 1/2 else 1) * (Real.cos (k*((2*j+1)*Real.pi/28)) * Real.cos (k*((2*m+1)*Real.pi/28)))) := by
    intro k
    rw [Polynomial.Chebyshev.T_real_cos, Finset.mul_sum, Finset.mul_sum, Finset.mul_sum, Finset.sum_mul]
    refine Finset.sum_congr rfl (fun j _ => ?_)
    push_cast
    ring
  rw [Finset.sum_congr rfl (fun k _ => e k), ← Finset.mul_sum, Finset.sum_comm]
  rw [Finset.sum_congr rfl (fun j hj => by rw [← Finset.mul_sum, Lemmas.DiscreteCos.ortho j m (Finset.mem_range.1 hj) hm])]
  simp only [mul_ite, mul_zero, Finset.sum_ite_eq', Finset.mem_range, hm, if_true]
  ring

/-! A case that meets the hypotheses: three roots, tables in memory. -/
namespace Stg
noncomputable def demo (len : Nat) : Heap ℝ where
  D q := if q.buf = 0 ∨ q.buf = 1 ∨ q.buf = 2 then .undef else if q.off < len then .val (q.off * q.buf) else .oob
  I _ := .oob

theorem demoMem : Mem (demo 117600) 3 ⟨3, 0⟩ ⟨4, 0⟩ ⟨0, 0⟩ ⟨0, 3⟩ ⟨1, 0⟩ ⟨2, 0⟩ (fun i => i * 3) (fun i => i * 4) where
  orr i _ := by simp [demo]
  oww i _ := by simp [demo]
  oim i _ := by simp [demo]
  oimc i _ := by simp [demo]
  rw i j hi hj := by simp only [Ptr.add_def, ne_eq, Ptr.mk.injEq]; omega
  xs i hi := by
    have : i < 117600 := by simpa using hi
    simp [demo, Ptr.add_def, this]
  ws i hi := by
    have : i < 117600 := by simpa using hi
    simp [demo, Ptr.add_def, this]
  loc := by simp
  ri := by simp
  wi := by simp
  xb := by simp
  wb := by simp

theorem quarter : ((0:ℕ):ℝ) ≤ posT (min (1/4) (1968299/100)) ∧ posT (min (1/4) (1968299/100)) < ((0:ℕ):ℝ) + 1 := by
  refine ⟨by simpa using posT_nonneg, ?_⟩
  rw [min_eq_left (by norm_num)]
  unfold posT
  rw [if_pos (by norm_num), Real.sqrt_lt' (by norm_num)]
  norm_num

example : ∃ h', run (stgRoots exact (fun _ _ => 1) 3 100 2 ⟨3, 0⟩ ⟨4, 0⟩ ⟨0, 0⟩ ⟨0, 3⟩ ⟨1, 0⟩ ⟨2, 0⟩) (demo 117600) = some (true, h') := by
  obtain ⟨_, _, _, _, _, _, _, _, _, _, _, _, _, _, h', e, _⟩ := C64_in_range (C := fun _ _ => 1) (T := 100) (U := 2) (by norm_num) demoMem (by norm_num) (by norm_num)
  exact ⟨h', e⟩

/-- `U` = 2000 -/
example : Result (fun _ _ => 1) (fun i => i * 3) (fun i => i * 4) 3 ⟨0, 0⟩ ⟨0, 3⟩ ⟨1, 0⟩ ⟨2, 0⟩ (demo 117600) 2000 0 1 (2 * (Real.logb 10 2000 - 3) - 1)
    (2 * (posT (min (1/4) (1968299/100)) - (0:ℕ)) - 1) (run (stgRoots exact (fun _ _ => 1) 3 (1/4) 2000 ⟨3, 0⟩ ⟨4, 0⟩ ⟨0, 0⟩ ⟨0, 3⟩ ⟨1, 0⟩ ⟨2, 0⟩) (demo 117600)) :=
  C64_upper_wrong_cell (by norm_num) demoMem (by norm_num) (by norm_num) quarter.1 quarter.2 (by norm_num)

example : run (stgRoots exact (fun _ _ => 1) 3 10000 2000 ⟨3, 0⟩ ⟨4, 0⟩ ⟨0, 0⟩ ⟨0, 3⟩ ⟨1, 0⟩ ⟨2, 0⟩) (demo 117600) = none :=
  C64_upper_past_end (by norm_num) (by norm_num) (by norm_num) (by norm_num) (fun i => by simp [demo, Ptr.add_def])

example : Result (fun _ _ => 1) (fun i => i * 3) (fun i => i * 4) 3 ⟨0, 0⟩ ⟨0, 3⟩ ⟨1, 0⟩ ⟨2, 0⟩ (demo 117600) (5 * 10^(-8 : ℤ)) 0 0 (2 * (Real.logb 10 (5 * 10^(-8 : ℤ)) + 7) - 1)
    (2 * (posT (min (1/4) (1968299/100)) - (0:ℕ)) - 1) (run (stgRoots exact (fun _ _ => 1) 3 (1/4) (5 * 10^(-8 : ℤ)) ⟨3, 0⟩ ⟨4, 0⟩ ⟨0, 0⟩ ⟨0, 3⟩ ⟨1, 0⟩ ⟨2, 0⟩) (demo 117600)) :=
  (C64_lower_outside (by norm_num) demoMem (by norm_num) (by norm_num) quarter.1 quarter.2).2

example : run (stgRoots exact (fun _ _ => 1) 3 1 20000 ⟨3, 0⟩ ⟨4, 0⟩ ⟨0, 0⟩ ⟨0, 3⟩ ⟨1, 0⟩ ⟨2, 0⟩) (demo 117600) = some (false, demo 117600) :=
  C64_refused (by norm_num) (by norm_num) (Or.inr (by norm_num))

/-- a series in `U` with the single coefficient `2*j` for node `j` -/
example (u : ℝ) : fitted (fun j k => Real.cos (k * ((2*j+1) * Real.pi / 28))) (fun j l => if l = 0 then 2*j else 0) u (Real.cos (7 * Real.pi / 28)) =
    99999999999999999998/10^20 * 3 := by
  have := C64_nodes (fun j l => if l = 0 then 2*j else 0) u 3 (by norm_num)
  rw [show (2 * ((3:ℕ):ℝ) + 1) = 7 by norm_num] at this
  rw [this, series, Finset.sum_eq_single 0]
  · norm_num
  · intro b _ hb; simp [hb]
  · simp
end Stg

end Verif.Props
