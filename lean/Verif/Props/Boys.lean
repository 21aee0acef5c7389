import Verif.Lemmas.Boys

/-! C32 and C42: auxiliary functions F_m(t). -/
namespace Verif.Props
open Verif.Spec Verif.Model Verif.Lemmas Verif.Prog

/-- what the caller finds in memory: `f[0..m]` hold good values and nothing else has changed -/
def Filled (h h' : Heap ℝ) (f : Ptr) (m : ℕ) (Good : ℕ → ℝ → Prop) : Prop :=
  (∀ i, i ≤ m → ∃ v, h'.D (f + i) = .val v ∧ Good i v) ∧
  (∀ q, (∀ i, i ≤ m → q ≠ f + i) → h'.D q = h.D q) ∧ h'.I = h.I

theorem filled_of {h h' : Heap ℝ} {f : Ptr} {m : ℕ} {Good : ℕ → ℝ → Prop}
    (F : Fill h h' f (m+1) (· < m+1) Good) : Filled h h' f m Good :=
  ⟨fun i hi => F.vals i (by omega), fun q hq => F.frame q (by
    rintro ⟨i, hi, e⟩; exact hq i (by omega) e), F.int⟩

/-- C32.  For every `t ≥ 0` and every order `m < 40` the call succeeds, writes `f[0..m]` and nothing
else, and every `f[i]` is `F_i(t)` with a relative error at most the tolerance of the series (never
above the true value); there is no error at all when `t = 0` or `t` is not below the turn-over point.
`n0` bounds the number of terms of the series. -/
theorem C32_boys {L : BoysLib ℝ} (hL : LibExact L) {eps t : ℝ} (he : 0 < eps) (ht : 0 ≤ t)
    {m : ℕ} (hm : m < 40) :
    ∃ n0, ∀ fuel, n0 ≤ fuel → ∀ (h : Heap ℝ) (f : Ptr), (∀ i, i ≤ m → h.D (f + i) ≠ .oob) →
      ∃ h', run (gammaIncLike L eps fuel f t m) h = some ((), h') ∧
        Filled h h' f m (fun i v => v ≤ boys 0 i t ∧ boys 0 i t - v ≤ eps * boys 0 i t) ∧
        (∀ q : ℚ, turnoverTable[m]? = some q → t = 0 ∨ (q:ℝ) ≤ t →
          Filled h h' f m (fun i v => v = boys 0 i t)) := by
  obtain ⟨n0, H⟩ := gammaIncLike_wp hL he ht hm
  refine ⟨n0, fun fuel hf h f ha => ?_⟩
  obtain ⟨_, h', hr, F, G⟩ := run_of_wp (H fuel hf h f fun i hi => ha i (by omega))
  exact ⟨h', hr, filled_of F, fun q hq ho => filled_of (G q hq ho)⟩

/-- C32.  For orders 40 and above the table of turn-over points is read out of bounds. -/
theorem C32_order_limit (L : BoysLib ℝ) (eps : ℝ) (fuel : ℕ) (f : Ptr) {t : ℝ} (ht : t ≠ 0) {m : ℕ}
    (hm : 40 ≤ m) (h : Heap ℝ) : run (gammaIncLike L eps fuel f t m) h = none := by
  have : turnoverTable[m]? = none := List.getElem?_eq_none (by
    have : turnoverTable.length = 40 := rfl
    omega)
  unfold gammaIncLike
  rw [if_neg ht]
  simp only [turnover, this]
  rfl

/-- C42.  With a lower limit `0 < s < 1`: the call succeeds and writes `f[0..m]` only.  For
`t s² > 200` it writes zeros and the true values are at most `e^-200`.  Otherwise the values are
exact when `t = 0` or `t` is not below the turn-over point, and for smaller `t` they lie below
`F_i(t)` by at most `eps F_m(t) t^(m-i) / ∏_{i≤j<m} (j+1/2)`. -/
theorem C42_boys_lower {L : BoysLib ℝ} (hL : LibExact L) {eps t s : ℝ} (he : 0 < eps) (ht : 0 ≤ t)
    (hs0 : 0 < s) (hs1 : s < 1) {m : ℕ} (hm : m < 40) :
    ∃ n0, ∀ fuel, n0 ≤ fuel → ∀ (h : Heap ℝ) (f : Ptr), (∀ i, i ≤ m → h.D (f + i) ≠ .oob) →
      ∃ h', run (fmtErfcLike L eps fuel f t s m) h = some ((), h') ∧
        (200 < t*s^2 → Filled h h' f m fun i v => v = 0 ∧ boys s i t ≤ Real.exp (-200)) ∧
        (t*s^2 ≤ 200 → Filled h h' f m fun i v => v ≤ boys s i t ∧
          boys s i t - v ≤ eps * boys s m t * ∏ j ∈ Finset.Ico i m, t/((j:ℝ)+1/2)) ∧
        (∀ q : ℚ, turnoverTable[m]? = some q → t*s^2 ≤ 200 → t = 0 ∨ (q:ℝ) ≤ t →
          Filled h h' f m fun i v => v = boys s i t) := by
  obtain ⟨n0, H⟩ := fmtErfcLike_wp hL he ht hs0 hs1 hm
  refine ⟨n0, fun fuel hf h f ha => ?_⟩
  obtain ⟨_, h', hr, F⟩ := run_of_wp (H fuel hf h f fun i hi => ha i (by omega))
  obtain ⟨q, hq⟩ := turnoverTable_get m hm
  refine ⟨h', hr, fun hb => filled_of (F.mono fun i v hv => hv.1 hb),
    fun hb => filled_of (F.mono fun i v hv => (hv.2 hb q hq).2),
    fun q hq hb ho => filled_of (F.mono fun i v hv => (hv.2 hb q hq).1 ho)⟩

/-- C42.  A lower limit of exactly zero is the ordinary Boys function. -/
theorem C42_lower_zero (L : BoysLib ℝ) (eps : ℝ) (fuel : ℕ) (f : Ptr) (t : ℝ) (m : ℕ) :
    fmtErfcLike L eps fuel f t 0 m = gammaIncLike L eps fuel f t m := by
  simp [fmtErfcLike]

/-- the exact library exists -/
noncomputable def realLib : BoysLib ℝ :=
  ⟨Real.exp, Real.sqrt, Spec.erf, Spec.erfc, Real.sqrt Real.pi / 2⟩

theorem realLib_exact : LibExact realLib := ⟨fun _ => rfl, fun _ => rfl, fun _ => rfl, fun _ => rfl, rfl⟩

/-- `F_0..F_5` at `t = 1`, below the turn-over point 2.106 -/
example : ∃ n0, ∀ fuel, n0 ≤ fuel → ∀ (h : Heap ℝ) (f : Ptr), (∀ i, i ≤ 5 → h.D (f + i) ≠ .oob) →
    ∃ h', run (gammaIncLike realLib (1/2^53) fuel f 1 5) h = some ((), h') ∧
      Filled h h' f 5 (fun i v => v ≤ boys 0 i 1 ∧ boys 0 i 1 - v ≤ 1/2^53 * boys 0 i 1) := by
  obtain ⟨n0, H⟩ := C32_boys realLib_exact (eps := 1/2^53) (t := 1) (m := 5) (by norm_num) (by norm_num)
    (by norm_num)
  exact ⟨n0, fun fuel hf h f ha => (H fuel hf h f ha).imp fun _ hh => ⟨hh.1, hh.2.1⟩⟩

/-- a case of C42 with the series branch: `s = 1/2`, `t = 1`, `m = 5` -/
example : ∃ n0, ∀ fuel, n0 ≤ fuel → ∀ (h : Heap ℝ) (f : Ptr), (∀ i, i ≤ 5 → h.D (f + i) ≠ .oob) →
    ∃ h', run (fmtErfcLike realLib (1/2^53) fuel f 1 (1/2) 5) h = some ((), h') := by
  obtain ⟨n0, H⟩ := C42_boys_lower realLib_exact (eps := 1/2^53) (t := 1) (s := 1/2) (m := 5)
    (by norm_num) (by norm_num) (by norm_num) (by norm_num) (by norm_num)
  exact ⟨n0, fun fuel hf h f ha => (H fuel hf h f ha).imp fun _ hh => hh.1⟩

end Verif.Props
