import Verif.Spec.Coulomb
import Mathlib.LinearAlgebra.Lagrange
import Mathlib.RingTheory.Polynomial.DegreeLT
import Mathlib.LinearAlgebra.FiniteDimensional.Basic
import Mathlib.LinearAlgebra.Dual.Lemmas
import Mathlib.Topology.Algebra.Polynomial
import Mathlib.Topology.Order.IntermediateValue
import Mathlib.MeasureTheory.Integral.IntervalIntegral.IntegrationByParts

/-! Rys quadrature exists for every number of roots and every argument: `RysExact` can be satisfied. -/
namespace Verif.Lemmas
open Verif.Spec Polynomial MeasureTheory

/-- `∫ₗ¹ F(t²) e^(-x t²) dt` -/
noncomputable def rysInt (x l : ℝ) (F : ℝ[X]) : ℝ := ∫ t in l..1, F.eval (t^2) * Real.exp (-x*t^2)

theorem rys_cont (x : ℝ) (F : ℝ[X]) : Continuous fun t : ℝ => F.eval (t^2) * Real.exp (-x*t^2) :=
  (F.continuous.comp (continuous_pow 2)).mul (Real.continuous_exp.comp (by fun_prop))

noncomputable def rysL (x l : ℝ) : ℝ[X] →ₗ[ℝ] ℝ where
  toFun := rysInt x l
  map_add' F G := by
    unfold rysInt
    rw [← intervalIntegral.integral_add ((rys_cont x F).intervalIntegrable _ _) ((rys_cont x G).intervalIntegrable _ _)]
    congr 1
    funext t
    rw [eval_add]; ring
  map_smul' c F := by
    unfold rysInt
    simp only [eval_smul, smul_eq_mul, RingHom.id_apply, mul_assoc]
    rw [intervalIntegral.integral_const_mul]

theorem rysL_pos {x l : ℝ} (l0 : 0 ≤ l) (l1 : l < 1) {F : ℝ[X]} (h0 : F ≠ 0) (h : ∀ s, 0 < s → s < 1 → 0 ≤ F.eval s) : 0 < rysL x l F := by
  show 0 < ∫ t in l..1, F.eval (t^2) * Real.exp (-x*t^2)
  have hnn : ∀ t ∈ Set.Ioc l 1, 0 ≤ F.eval (t^2) := by
    intro t ht
    have hcl : ∀ s ∈ Set.Icc (0:ℝ) 1, 0 ≤ F.eval s := by
      have : closure (Set.Ioo (0:ℝ) 1) ⊆ {s | 0 ≤ F.eval s} :=
        closure_minimal (fun s hs => h s hs.1 hs.2) (isClosed_le continuous_const F.continuous)
      rw [closure_Ioo (by norm_num)] at this
      exact this
    exact hcl _ ⟨by positivity, by have := ht.1; have := ht.2; nlinarith⟩
  have hex : ∃ t ∈ Set.Icc l 1, 0 < F.eval (t^2) * Real.exp (-x*t^2) := by
    by_contra hc
    push Not at hc
    have hz : ∀ t ∈ Set.Ioc l 1, F.eval (t^2) = 0 := by
      intro t ht
      have h1 := hc t ⟨ht.1.le, ht.2⟩
      have h2 := hnn t ht
      have h3 := Real.exp_pos (-x*t^2)
      nlinarith
    refine h0 (Polynomial.eq_zero_of_infinite_isRoot F ?_)
    refine Set.Infinite.mono ?_ (Set.Ioo_infinite (show l^2 < 1 by nlinarith))
    intro s hs
    have := hz (Real.sqrt s) ⟨Real.lt_sqrt_of_sq_lt hs.1, by rw [Real.sqrt_le_one]; exact hs.2.le⟩
    rw [Real.sq_sqrt ((sq_nonneg l).trans hs.1.le)] at this
    exact this
  exact intervalIntegral.integral_pos l1 (rys_cont x F).continuousOn
    (fun t ht => mul_nonneg (hnn t ht) (Real.exp_pos _).le) hex

/-- an orthogonal polynomial of degree `n` -/
theorem exists_orth (x : ℝ) {l : ℝ} (l0 : 0 ≤ l) (l1 : l < 1) (n : ℕ) : ∃ P : ℝ[X], P.Monic ∧ P.natDegree = n ∧
    ∀ G : ℝ[X], G.degree < n → rysL x l (P * G) = 0 := by
  let B : degreeLT ℝ n →ₗ[ℝ] Module.Dual ℝ (degreeLT ℝ n) :=
    LinearMap.mk₂ ℝ (fun G H => rysL x l ((G : ℝ[X]) * (H : ℝ[X])))
      (fun a b c => by simp only [Submodule.coe_add, add_mul, map_add])
      (fun c a b => by simp only [Submodule.coe_smul, smul_mul_assoc, map_smul])
      (fun a b c => by simp only [Submodule.coe_add, mul_add, map_add])
      (fun c a b => by simp only [Submodule.coe_smul, mul_smul_comm, map_smul])
  have hinj : Function.Injective B := by
    rw [← LinearMap.ker_eq_bot, LinearMap.ker_eq_bot']
    intro G hG
    by_contra hne
    have h1 : rysL x l ((G : ℝ[X]) * (G : ℝ[X])) = 0 := by
      have := congrArg (fun f => f G) hG
      exact this
    have h2 : (G : ℝ[X]) ≠ 0 := fun hh => hne (Subtype.ext hh)
    have := rysL_pos (x := x) l0 l1 (mul_ne_zero h2 h2) (fun s _ _ => by rw [eval_mul]; exact mul_self_nonneg _)
    rw [h1] at this
    exact lt_irrefl _ this
  have hfd : FiniteDimensional ℝ (degreeLT ℝ n) := Module.Finite.equiv (degreeLTEquiv ℝ n).symm
  have hsurj : Function.Surjective B := by
    refine (LinearMap.injective_iff_surjective_of_finrank_eq_finrank ?_).1 hinj
    exact Subspace.dual_finrank_eq.symm
  obtain ⟨G0, hG0⟩ := hsurj (((rysL x l).comp (LinearMap.mulLeft ℝ (X^n))).comp (degreeLT ℝ n).subtype)
  have hd : (G0 : ℝ[X]).degree < n := mem_degreeLT.1 G0.2
  refine ⟨X^n - (G0 : ℝ[X]), monic_X_pow_sub hd, ?_, ?_⟩
  · have h1 : (X^n - (G0 : ℝ[X])).degree = (n : WithBot ℕ) := by
      rw [degree_sub_eq_left_of_degree_lt (by rwa [degree_X_pow]), degree_X_pow]
    exact natDegree_eq_of_degree_eq_some h1
  · intro G hG
    have := congrArg (fun f => f ⟨G, mem_degreeLT.2 hG⟩) hG0
    have h2 : rysL x l ((G0 : ℝ[X]) * G) = rysL x l (X^n * G) := this
    rw [sub_mul, map_sub, h2, sub_self]

/-- split off the roots in (0,1) of odd multiplicity -/
theorem split_roots (d : ℕ) : ∀ P : ℝ[X], P ≠ 0 → P.natDegree ≤ d → ∃ (S : Finset ℝ) (E R : ℝ[X]),
    (∀ s ∈ S, 0 < s ∧ s < 1) ∧ P = (∏ s ∈ S, (X - C s)) * E^2 * R ∧ ∀ s, 0 < s → s < 1 → R.eval s ≠ 0 := by
  induction d with
  | zero =>
    intro P h0 hd
    obtain ⟨c, rfl⟩ : ∃ c, P = C c := ⟨_, eq_C_of_natDegree_eq_zero (Nat.le_zero.1 hd)⟩
    refine ⟨∅, 1, C c, by simp, by simp, fun s _ _ => ?_⟩
    rw [eval_C]
    exact fun h => h0 (by rw [h, C_0])
  | succ d ih =>
    intro P h0 hd
    by_cases hr : ∃ s, 0 < s ∧ s < 1 ∧ P.eval s = 0
    · obtain ⟨s, s0, s1, hs⟩ := hr
      obtain ⟨P', rfl⟩ := dvd_iff_isRoot.2 hs
      have h0' : P' ≠ 0 := right_ne_zero_of_mul h0
      have hX : (X - C s) ≠ 0 := X_sub_C_ne_zero s
      have hd' : P'.natDegree ≤ d := by
        rw [natDegree_mul hX h0', natDegree_X_sub_C] at hd
        omega
      obtain ⟨S, E, R, hS, hP, hR⟩ := ih P' h0' hd'
      by_cases hm : s ∈ S
      · refine ⟨S.erase s, E * (X - C s), R, fun t ht => hS t (Finset.mem_of_mem_erase ht), ?_, hR⟩
        rw [hP, ← Finset.mul_prod_erase _ _ hm]
        ring
      · refine ⟨insert s S, E, R, fun t ht => ?_, ?_, hR⟩
        · rcases Finset.mem_insert.1 ht with rfl | h
          · exact ⟨s0, s1⟩
          · exact hS t h
        · rw [Finset.prod_insert hm, hP]
          ring
    · push Not at hr
      exact ⟨∅, 1, P, by simp, by simp, hr⟩

theorem const_sign {R : ℝ[X]} (h : ∀ s, 0 < s → s < 1 → R.eval s ≠ 0) :
    (∀ s, 0 < s → s < 1 → 0 ≤ R.eval s) ∨ (∀ s, 0 < s → s < 1 → 0 ≤ (-R).eval s) := by
  by_contra hc
  push Not at hc
  obtain ⟨⟨a, a0, a1, ha⟩, b, b0, b1, hb⟩ := hc
  rw [eval_neg] at hb
  have hI : Set.uIcc a b ⊆ Set.Ioo 0 1 := by
    intro t ht
    rcases Set.mem_uIcc.1 ht with ⟨h1, h2⟩ | ⟨h1, h2⟩ <;> exact ⟨by linarith, by linarith⟩
  have := intermediate_value_uIcc (a := a) (b := b) R.continuous.continuousOn
  obtain ⟨t, ht, h0⟩ := this (show (0:ℝ) ∈ Set.uIcc (R.eval a) (R.eval b) from
    Set.mem_uIcc.2 (Or.inl ⟨by linarith, by linarith⟩))
  exact h t (hI ht).1 (hI ht).2 h0

/-- the orthogonal polynomial has `n` different roots between 0 and 1 -/
theorem exists_nodes (x : ℝ) {l : ℝ} (l0 : 0 ≤ l) (l1 : l < 1) (n : ℕ) : ∃ (P : ℝ[X]) (S : Finset ℝ), P.Monic ∧ P.natDegree = n ∧ S.card = n ∧
    (∀ s ∈ S, 0 < s ∧ s < 1 ∧ P.eval s = 0) ∧ ∀ G : ℝ[X], G.degree < n → rysL x l (P * G) = 0 := by
  obtain ⟨P, hm, hd, ho⟩ := exists_orth x l0 l1 n
  obtain ⟨S, E, R, hS, hP, hR⟩ := split_roots n P hm.ne_zero (le_of_eq hd)
  have hQm : (∏ s ∈ S, (X - C s)).Monic := monic_prod_of_monic _ _ fun s _ => monic_X_sub_C s
  have hQd : (∏ s ∈ S, (X - C s)).natDegree = S.card := by
    rw [natDegree_prod_of_monic _ _ fun s _ => monic_X_sub_C s]
    simp
  have hdvd : (∏ s ∈ S, (X - C s)) ∣ P := ⟨E^2*R, by rw [hP]; ring⟩
  have hle : S.card ≤ n := by
    rw [← hd, ← hQd]
    exact natDegree_le_of_dvd hdvd hm.ne_zero
  have hge : n ≤ S.card := by
    by_contra hlt
    push Not at hlt
    have hz := ho (∏ s ∈ S, (X - C s)) (by
      rw [degree_eq_natDegree hQm.ne_zero, hQd]; exact_mod_cast hlt)
    have hEq : P * (∏ s ∈ S, (X - C s)) = ((∏ s ∈ S, (X - C s)) * E)^2 * R := by
      rw [hP]; ring
    have hne : P * (∏ s ∈ S, (X - C s)) ≠ 0 := mul_ne_zero hm.ne_zero hQm.ne_zero
    rcases const_sign hR with h | h
    · have := rysL_pos (x := x) l0 l1 hne (fun s s0 s1 => by
        rw [hEq, eval_mul, eval_pow]; exact mul_nonneg (sq_nonneg _) (h s s0 s1))
      rw [hz] at this
      exact lt_irrefl _ this
    · have := rysL_pos (x := x) l0 l1 (neg_ne_zero.2 hne) (fun s s0 s1 => by
        rw [hEq, ← mul_neg, eval_mul, eval_pow]; exact mul_nonneg (sq_nonneg _) (h s s0 s1))
      rw [map_neg, hz, neg_zero] at this
      exact lt_irrefl _ this
  refine ⟨P, S, hm, hd, le_antisymm hle hge, fun s hs => ⟨(hS s hs).1, (hS s hs).2, ?_⟩, ho⟩
  obtain ⟨W, hW⟩ := hdvd
  rw [hW, eval_mul, eval_prod, Finset.prod_eq_zero hs (by simp), zero_mul]

/-- **Rys quadrature exists**: for every number of roots and every argument there are roots and weights with
the property assumed of the root finder. -/
theorem exists_rysSR (x : ℝ) {l : ℝ} (l0 : 0 ≤ l) (l1 : l < 1) (n : ℕ) : ∃ u w : ℕ → ℝ, RysExactSR n x l u w := by
  obtain ⟨P, S, hm, hd, hc, hS, ho⟩ := exists_nodes x l0 l1 n
  let e := S.equivFinOfCardEq hc
  let s : ℕ → ℝ := fun k => if h : k < n then (e.symm ⟨k, h⟩ : ℝ) else 0
  have hs : ∀ k, k < n → s k ∈ S := by
    intro k hk
    show (if h : k < n then (e.symm ⟨k, h⟩ : ℝ) else 0) ∈ S
    rw [dif_pos hk]
    exact (e.symm ⟨k, hk⟩).2
  have hinj : Set.InjOn s (Finset.range n : Set ℕ) := by
    intro a ha b hb hab
    have ha' : a < n := Finset.mem_range.1 ha
    have hb' : b < n := Finset.mem_range.1 hb
    have hab' : (if h : a < n then (e.symm ⟨a, h⟩ : ℝ) else 0) = (if h : b < n then (e.symm ⟨b, h⟩ : ℝ) else 0) := hab
    rw [dif_pos ha', dif_pos hb'] at hab'
    have := e.symm.injective (Subtype.ext hab')
    exact congrArg Fin.val this
  refine ⟨fun k => s k/(1 - s k), fun k => rysL x l (Lagrange.basis (Finset.range n) s k), ?_, ?_⟩
  · intro k hk
    obtain ⟨h0, h1, _⟩ := hS _ (hs k hk)
    exact div_nonneg h0.le (by linarith)
  · intro F hF
    have hnode : ∀ k, k < n → s k/(1 - s k)/(1 + s k/(1 - s k)) = s k := by
      intro k hk
      obtain ⟨h0, h1, _⟩ := hS _ (hs k hk)
      have : 1 - s k ≠ 0 := by linarith
      field_simp
      ring
    have hrem : (F %ₘ P).degree < n := by
      have := degree_modByMonic_lt F hm
      rwa [degree_eq_natDegree hm.ne_zero, hd] at this
    have hquo : (F /ₘ P).degree < n := by
      rcases eq_or_ne (F /ₘ P) 0 with h | h
      · rw [h, degree_zero]; exact WithBot.bot_lt_coe _
      · rw [degree_eq_natDegree h, natDegree_divByMonic F hm, hd]
        have : F.natDegree - n < n := by omega
        exact_mod_cast this
    have hF' : F = F %ₘ P + P * (F /ₘ P) := (modByMonic_add_div F P).symm
    have hev : ∀ k, k < n → F.eval (s k) = (F %ₘ P).eval (s k) := by
      intro k hk
      conv_lhs => rw [hF']
      rw [eval_add, eval_mul, (hS _ (hs k hk)).2.2, zero_mul, add_zero]
    have hL : rysL x l F = rysL x l (F %ₘ P) := by
      conv_lhs => rw [hF']
      rw [map_add, ho _ hquo, add_zero]
    have hint : F %ₘ P = ∑ k ∈ Finset.range n, C ((F %ₘ P).eval (s k)) * Lagrange.basis (Finset.range n) s k := by
      have := Lagrange.eq_interpolate (s := Finset.range n) (v := s) hinj (f := F %ₘ P) (by rwa [Finset.card_range])
      rwa [Lagrange.interpolate_apply] at this
    show _ = rysL x l F
    rw [hL]
    conv_rhs => rw [hint]
    rw [map_sum]
    refine Finset.sum_congr rfl (fun k hk => ?_)
    rw [Finset.mem_range] at hk
    rw [hnode k hk, hev k hk, C_mul', map_smul, smul_eq_mul, mul_comm]

theorem exists_rys (x : ℝ) (n : ℕ) : ∃ u w : ℕ → ℝ, RysExact n x u w := by
  obtain ⟨u, w, h⟩ := exists_rysSR x le_rfl zero_lt_one n
  exact ⟨u, w, h.nonneg, h.sum_eq⟩

end Verif.Lemmas
