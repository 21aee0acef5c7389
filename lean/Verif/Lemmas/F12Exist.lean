import Verif.Spec.F12
import Verif.Lemmas.RysExist

/-! The quadrature of the Slater-type integrals exists: `StgExact` can be satisfied for every number of roots. -/
namespace Verif.Lemmas
open Verif.Spec Polynomial MeasureTheory

/-- positive for polynomials that are positive on (0,1) -/
def PosF (Λ : ℝ[X] →ₗ[ℝ] ℝ) : Prop := ∀ F : ℝ[X], F ≠ 0 → (∀ s, 0 < s → s < 1 → 0 ≤ F.eval s) → 0 < Λ F

/-- an orthogonal polynomial of degree `n` -/
theorem exists_orthF {Λ : ℝ[X] →ₗ[ℝ] ℝ} (hΛ : PosF Λ) (n : ℕ) : ∃ P : ℝ[X], P.Monic ∧ P.natDegree = n ∧
    ∀ G : ℝ[X], G.degree < n → Λ (P * G) = 0 := by
  let B : degreeLT ℝ n →ₗ[ℝ] Module.Dual ℝ (degreeLT ℝ n) :=
    LinearMap.mk₂ ℝ (fun G H => Λ ((G : ℝ[X]) * (H : ℝ[X])))
      (fun a b c => by simp only [Submodule.coe_add, add_mul, map_add])
      (fun c a b => by simp only [Submodule.coe_smul, smul_mul_assoc, map_smul])
      (fun a b c => by simp only [Submodule.coe_add, mul_add, map_add])
      (fun c a b => by simp only [Submodule.coe_smul, mul_smul_comm, map_smul])
  have hinj : Function.Injective B := by
    rw [← LinearMap.ker_eq_bot, LinearMap.ker_eq_bot']
    intro G hG
    by_contra hne
    have h1 : Λ ((G : ℝ[X]) * (G : ℝ[X])) = 0 := by
      have := congrArg (fun f => f G) hG
      exact this
    have h2 : (G : ℝ[X]) ≠ 0 := fun hh => hne (Subtype.ext hh)
    have := hΛ _ (mul_ne_zero h2 h2) (fun s _ _ => by rw [eval_mul]; exact mul_self_nonneg _)
    rw [h1] at this
    exact lt_irrefl _ this
  have hfd : FiniteDimensional ℝ (degreeLT ℝ n) := Module.Finite.equiv (degreeLTEquiv ℝ n).symm
  have hsurj : Function.Surjective B := by
    refine (LinearMap.injective_iff_surjective_of_finrank_eq_finrank ?_).1 hinj
    exact Subspace.dual_finrank_eq.symm
  obtain ⟨G0, hG0⟩ := hsurj (((Λ).comp (LinearMap.mulLeft ℝ (X^n))).comp (degreeLT ℝ n).subtype)
  have hd : (G0 : ℝ[X]).degree < n := mem_degreeLT.1 G0.2
  refine ⟨X^n - (G0 : ℝ[X]), monic_X_pow_sub hd, ?_, ?_⟩
  · have h1 : (X^n - (G0 : ℝ[X])).degree = (n : WithBot ℕ) := by
      rw [degree_sub_eq_left_of_degree_lt (by rwa [degree_X_pow]), degree_X_pow]
    exact natDegree_eq_of_degree_eq_some h1
  · intro G hG
    have := congrArg (fun f => f ⟨G, mem_degreeLT.2 hG⟩) hG0
    have h2 : Λ ((G0 : ℝ[X]) * G) = Λ (X^n * G) := this
    rw [sub_mul, map_sub, h2, sub_self]

/-- the orthogonal polynomial has `n` different roots between 0 and 1 -/
theorem exists_nodesF {Λ : ℝ[X] →ₗ[ℝ] ℝ} (hΛ : PosF Λ) (n : ℕ) : ∃ (P : ℝ[X]) (S : Finset ℝ), P.Monic ∧ P.natDegree = n ∧ S.card = n ∧
    (∀ s ∈ S, 0 < s ∧ s < 1 ∧ P.eval s = 0) ∧ ∀ G : ℝ[X], G.degree < n → Λ (P * G) = 0 := by
  obtain ⟨P, hm, hd, ho⟩ := exists_orthF hΛ n
  obtain ⟨S, E, R, hS, hP, hR⟩ := split_roots n P hm.ne_zero (le_of_eq hd)
  have hQm : (∏ s ∈ S, (X - C s)).Monic := monic_prod_of_monic _ _ fun s _ => monic_X_sub_C s
  have hQd : (∏ s ∈ S, (X - C s)).natDegree = S.card := by
    rw [natDegree_prod_of_monic _ _ fun s _ => monic_X_sub_C s]
    simp
  have hdvd : (∏ s ∈ S, (X - C s)) ∣ P := ⟨E^2*R, by rw [hP]; ring⟩
  have hle : S.card ≤ n := by
    rw [← hd, ← hQd]
    exact natDegree_le_of_dvd hdvd hm.ne_zero
  have hge : n ≤ S.card := by
    by_contra hlt
    push Not at hlt
    have hz := ho (∏ s ∈ S, (X - C s)) (by
      rw [degree_eq_natDegree hQm.ne_zero, hQd]; exact_mod_cast hlt)
    have hEq : P * (∏ s ∈ S, (X - C s)) = ((∏ s ∈ S, (X - C s)) * E)^2 * R := by
      rw [hP]; ring
    have hne : P * (∏ s ∈ S, (X - C s)) ≠ 0 := mul_ne_zero hm.ne_zero hQm.ne_zero
    rcases const_sign hR with h | h
    · have := hΛ _ hne (fun s s0 s1 => by
        rw [hEq, eval_mul, eval_pow]; exact mul_nonneg (sq_nonneg _) (h s s0 s1))
      rw [hz] at this
      exact lt_irrefl _ this
    · have := hΛ _ (neg_ne_zero.2 hne) (fun s s0 s1 => by
        rw [hEq, ← mul_neg, eval_mul, eval_pow]; exact mul_nonneg (sq_nonneg _) (h s s0 s1))
      rw [map_neg, hz, neg_zero] at this
      exact lt_irrefl _ this
  refine ⟨P, S, hm, hd, le_antisymm hle hge, fun s hs => ⟨(hS s hs).1, (hS s hs).2, ?_⟩, ho⟩
  obtain ⟨W, hW⟩ := hdvd
  rw [hW, eval_mul, eval_prod, Finset.prod_eq_zero hs (by simp), zero_mul]

/-- Gaussian quadrature for a positive functional -/
theorem exists_gaussF {Λ : ℝ[X] →ₗ[ℝ] ℝ} (hΛ : PosF Λ) (n : ℕ) : ∃ u w : ℕ → ℝ, (∀ k, k < n → 0 ≤ u k ∧ u k < 1) ∧
    ∀ F : ℝ[X], F.natDegree < 2*n → ∑ k ∈ Finset.range n, w k * F.eval (u k) = Λ F := by
  obtain ⟨P, S, hm, hd, hc, hS, ho⟩ := exists_nodesF hΛ n
  let e := S.equivFinOfCardEq hc
  let s : ℕ → ℝ := fun k => if h : k < n then (e.symm ⟨k, h⟩ : ℝ) else 0
  have hs : ∀ k, k < n → s k ∈ S := by
    intro k hk
    show (if h : k < n then (e.symm ⟨k, h⟩ : ℝ) else 0) ∈ S
    rw [dif_pos hk]
    exact (e.symm ⟨k, hk⟩).2
  have hinj : Set.InjOn s (Finset.range n : Set ℕ) := by
    intro a ha b hb hab
    have ha' : a < n := Finset.mem_range.1 ha
    have hb' : b < n := Finset.mem_range.1 hb
    have hab' : (if h : a < n then (e.symm ⟨a, h⟩ : ℝ) else 0) = (if h : b < n then (e.symm ⟨b, h⟩ : ℝ) else 0) := hab
    rw [dif_pos ha', dif_pos hb'] at hab'
    have := e.symm.injective (Subtype.ext hab')
    exact congrArg Fin.val this
  refine ⟨s, fun k => Λ (Lagrange.basis (Finset.range n) s k), ?_, ?_⟩
  · intro k hk
    obtain ⟨h0, h1, _⟩ := hS _ (hs k hk)
    exact ⟨h0.le, h1⟩
  · intro F hF
    have hrem : (F %ₘ P).degree < n := by
      have := degree_modByMonic_lt F hm
      rwa [degree_eq_natDegree hm.ne_zero, hd] at this
    have hquo : (F /ₘ P).degree < n := by
      rcases eq_or_ne (F /ₘ P) 0 with h | h
      · rw [h, degree_zero]; exact WithBot.bot_lt_coe _
      · rw [degree_eq_natDegree h, natDegree_divByMonic F hm, hd]
        have : F.natDegree - n < n := by omega
        exact_mod_cast this
    have hF' : F = F %ₘ P + P * (F /ₘ P) := (modByMonic_add_div F P).symm
    have hev : ∀ k, k < n → F.eval (s k) = (F %ₘ P).eval (s k) := by
      intro k hk
      conv_lhs => rw [hF']
      rw [eval_add, eval_mul, (hS _ (hs k hk)).2.2, zero_mul, add_zero]
    have hL : Λ F = Λ (F %ₘ P) := by
      conv_lhs => rw [hF']
      rw [map_add, ho _ hquo, add_zero]
    have hint : F %ₘ P = ∑ k ∈ Finset.range n, C ((F %ₘ P).eval (s k)) * Lagrange.basis (Finset.range n) s k := by
      have := Lagrange.eq_interpolate (s := Finset.range n) (v := s) hinj (f := F %ₘ P) (by rwa [Finset.card_range])
      rwa [Lagrange.interpolate_apply] at this
    rw [hL]
    conv_rhs => rw [hint]
    rw [map_sum]
    refine Finset.sum_congr rfl (fun k hk => ?_)
    rw [Finset.mem_range] at hk
    rw [hev k hk, C_mul', map_smul, smul_eq_mul, mul_comm]


/-- the weight -/
noncomputable def wtF (x U t : ℝ) : ℝ := Real.exp (-x*t^2 + U*(1 - 1/t^2)) / t^2

theorem wtF_nonneg (x U t : ℝ) : 0 ≤ wtF x U t := div_nonneg (Real.exp_pos _).le (sq_nonneg t)

theorem wtF_bound {x U t : ℝ} (hU : 0 < U) (h0 : 0 < t) (h1 : t ≤ 1) : |wtF x U t| ≤ Real.exp |x| * (1 + 1/U) := by
  rw [abs_of_nonneg (wtF_nonneg _ _ _)]
  have hy : 0 ≤ 1/t^2 - 1 := by
    have : 1 ≤ 1/t^2 := by
      rw [le_div_iff₀ (by positivity), one_mul]
      nlinarith
    linarith
  have e : wtF x U t = Real.exp (-x*t^2) * ((1 + (1/t^2 - 1)) * Real.exp (-(U*(1/t^2 - 1)))) := by
    unfold wtF
    rw [Real.exp_add, show U*(1 - 1/t^2) = -(U*(1/t^2 - 1)) by ring]
    generalize Real.exp (-(U*(1/t^2 - 1))) = z
    ring
  rw [e]
  generalize 1/t^2 - 1 = y at *
  have hx : Real.exp (-x*t^2) ≤ Real.exp |x| := by
    rw [Real.exp_le_exp]
    have h2 := neg_abs_le x
    have h3 := abs_nonneg x
    nlinarith [sq_nonneg t, mul_nonneg h3 (sub_nonneg.2 (show t^2 ≤ 1 by nlinarith))]
  have hz : (1 + y) * Real.exp (-(U*y)) ≤ 1 + 1/U := by
    rw [Real.exp_neg, ← div_eq_mul_inv, div_le_iff₀ (Real.exp_pos _)]
    have h4 := Real.add_one_le_exp (U*y)
    have h5 : 0 ≤ U*y := mul_nonneg hU.le hy
    have h6 : (1 + 1/U) * (U*y + 1) = U*y + 1 + y + 1/U := by field_simp; ring
    have h7 : 0 < 1/U := by positivity
    nlinarith [mul_le_mul_of_nonneg_left h4 (show 0 ≤ 1 + 1/U by positivity)]
  exact mul_le_mul hx hz (mul_nonneg (by linarith) (Real.exp_pos _).le) (Real.exp_pos _).le

theorem stg_int {x U : ℝ} (hU : 0 < U) (F : ℝ[X]) : IntervalIntegrable (fun t => F.eval (t^2) * wtF x U t) volume 0 1 := by
  have hc : Continuous fun t : ℝ => F.eval (t^2) := F.continuous.comp (continuous_pow 2)
  rw [intervalIntegrable_iff_integrableOn_Ioc_of_le zero_le_one]
  have h1 : IntegrableOn (fun t : ℝ => F.eval (t^2)) (Set.Ioc 0 1) := 
    (intervalIntegrable_iff_integrableOn_Ioc_of_le zero_le_one).1 (hc.intervalIntegrable 0 1)
  refine Integrable.mul_bdd (c := Real.exp |x| * (1 + 1/U)) h1 ?_ ?_
  · have : Measurable (wtF x U) := by unfold wtF; fun_prop
    exact this.aestronglyMeasurable
  · rw [ae_restrict_iff' measurableSet_Ioc]
    exact Filter.Eventually.of_forall fun t ht => wtF_bound hU ht.1 ht.2

noncomputable def stgL (x : ℝ) {U : ℝ} (hU : 0 < U) : ℝ[X] →ₗ[ℝ] ℝ where
  toFun F := ∫ t in (0:ℝ)..1, F.eval (t^2) * wtF x U t
  map_add' F G := by
    rw [← intervalIntegral.integral_add (stg_int hU F) (stg_int hU G)]
    congr 1
    funext t
    rw [eval_add]; ring
  map_smul' c F := by
    simp only [eval_smul, smul_eq_mul, RingHom.id_apply, mul_assoc]
    rw [intervalIntegral.integral_const_mul]

theorem stgL_pos (x : ℝ) {U : ℝ} (hU : 0 < U) : PosF (stgL x hU) := by
  intro F h0 h
  show 0 < ∫ t in (0:ℝ)..1, F.eval (t^2) * wtF x U t
  have hnn : ∀ t ∈ Set.Ioc (0:ℝ) 1, 0 ≤ F.eval (t^2) := by
    intro t ht
    have hcl : ∀ s ∈ Set.Icc (0:ℝ) 1, 0 ≤ F.eval s := by
      have : closure (Set.Ioo (0:ℝ) 1) ⊆ {s | 0 ≤ F.eval s} :=
        closure_minimal (fun s hs => h s hs.1 hs.2) (isClosed_le continuous_const F.continuous)
      rw [closure_Ioo (by norm_num)] at this
      exact this
    exact hcl _ ⟨by positivity, by have := ht.1; have := ht.2; nlinarith⟩
  have hpos : ∀ t, 0 < t → 0 < wtF x U t := fun t ht => div_pos (Real.exp_pos _) (by positivity)
  have hex : ∃ t ∈ Set.Icc (1/2:ℝ) 1, 0 < F.eval (t^2) * wtF x U t := by
    by_contra hc
    push Not at hc
    have hz : ∀ t ∈ Set.Ioc (1/2:ℝ) 1, F.eval (t^2) = 0 := by
      intro t ht
      have ht0 : 0 < t := by have := ht.1; linarith
      have h1 := hc t ⟨ht.1.le, ht.2⟩
      have h2 := hnn t ⟨ht0, ht.2⟩
      have h3 := hpos t ht0
      nlinarith
    refine h0 (Polynomial.eq_zero_of_infinite_isRoot F ?_)
    refine Set.Infinite.mono ?_ (Set.Ioo_infinite (show (1/2:ℝ)^2 < 1 by norm_num))
    intro s hs
    have := hz (Real.sqrt s) ⟨Real.lt_sqrt_of_sq_lt hs.1, by rw [Real.sqrt_le_one]; exact hs.2.le⟩
    rw [Real.sq_sqrt ((sq_nonneg (1/2:ℝ)).trans hs.1.le)] at this
    exact this
  have hI := stg_int (x := x) hU F
  have i1 : IntervalIntegrable (fun t => F.eval (t^2) * wtF x U t) volume 0 (1/2) :=
    hI.mono_set (by rw [Set.uIcc_of_le (by norm_num), Set.uIcc_of_le (by norm_num)]; exact Set.Icc_subset_Icc_right (by norm_num))
  have i2 : IntervalIntegrable (fun t => F.eval (t^2) * wtF x U t) volume (1/2) 1 :=
    hI.mono_set (by rw [Set.uIcc_of_le (by norm_num), Set.uIcc_of_le (by norm_num)]; exact Set.Icc_subset_Icc_left (by norm_num))
  rw [← intervalIntegral.integral_add_adjacent_intervals i1 i2]
  refine add_pos_of_nonneg_of_pos ?_ ?_
  · rw [intervalIntegral.integral_of_le (by norm_num)]
    refine setIntegral_nonneg measurableSet_Ioc fun t ht => ?_
    exact mul_nonneg (hnn t ⟨ht.1, by have := ht.2; linarith⟩) (wtF_nonneg _ _ _)
  · refine intervalIntegral.integral_pos (by norm_num) ?_ (fun t ht => mul_nonneg (hnn t ⟨by have := ht.1; linarith, ht.2⟩) (wtF_nonneg _ _ _)) hex
    refine ContinuousOn.mul (F.continuous.comp (continuous_pow 2)).continuousOn ?_
    unfold wtF
    have hne : ∀ t ∈ Set.Icc (1/2:ℝ) 1, t^2 ≠ 0 := fun t ht => by have := ht.1; positivity
    refine ContinuousOn.div ?_ (by fun_prop) hne
    refine Real.continuous_exp.comp_continuousOn ?_
    refine ContinuousOn.add (by fun_prop) (ContinuousOn.mul (by fun_prop) (ContinuousOn.sub (by fun_prop) ?_))
    exact ContinuousOn.div (by fun_prop) (by fun_prop) hne

/-- for every number of roots and all arguments there are roots and weights with the property assumed of the root finder -/
theorem exists_stg (n : ℕ) (x : ℝ) {U : ℝ} (hU : 0 < U) : ∃ u w : ℕ → ℝ, StgExact n x U u w := by
  obtain ⟨u, w, h1, h2⟩ := exists_gaussF (stgL_pos x hU) n
  exact ⟨u, w, h1, h2⟩

end Verif.Lemmas
