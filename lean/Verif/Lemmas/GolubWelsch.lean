import Verif.Lemmas.RysGauss

/-! The three-term recursion of the orthogonal polynomials and the quadrature from the eigenvectors of their tridiagonal matrix. -/
namespace Verif.Lemmas
open Polynomial

section
variable (L : ℝ[X] →ₗ[ℝ] ℝ)

/-- `L(Q_k²)` -/
noncomputable def hN (k : ℕ) : ℝ := L (gsQ L k * gsQ L k)

/-- the diagonal of the tridiagonal matrix -/
noncomputable def recA (k : ℕ) : ℝ := L (X * gsQ L k * gsQ L k) / hN L k

/-- the squares of the elements beside the diagonal; element 0 is 0 -/
noncomputable def recB (k : ℕ) : ℝ := if k = 0 then 0 else hN L k / hN L (k-1)
end

variable {L : ℝ[X] →ₗ[ℝ] ℝ} (hL : PosFun L)
include hL

theorem hN_pos (k : ℕ) : 0 < hN L k := (gs_main hL k).2.2.1

theorem recB_pos {k : ℕ} (hk : 0 < k) : 0 < recB L k := by
  unfold recB; rw [if_neg (by omega)]; exact div_pos (hN_pos hL _) (hN_pos hL _)

theorem gsQ_degree (k : ℕ) : (gsQ L k).degree = k := by
  rw [degree_eq_natDegree (gs_main hL k).1.ne_zero, (gs_main hL k).2.1]

/-- against a monic polynomial of the same degree -/
theorem gsQ_monic {k : ℕ} {G : ℝ[X]} (hm : G.Monic) (hd : G.natDegree = k) : L (gsQ L k * G) = hN L k := by
  have h1 : (G - gsQ L k).degree < k := by
    have := degree_sub_lt (p := G) (q := gsQ L k) (by rw [gsQ_degree hL, degree_eq_natDegree hm.ne_zero, hd]) hm.ne_zero
      (by rw [hm.leadingCoeff, (gs_main hL k).1.leadingCoeff])
    rwa [degree_eq_natDegree hm.ne_zero, hd] at this
  have h2 := gsQ_orth hL k _ h1
  rw [mul_sub, map_sub] at h2
  unfold hN
  linarith

theorem gsQ_gsQ {i j : ℕ} (h : i ≠ j) : L (gsQ L i * gsQ L j) = 0 := by
  rcases Nat.lt_or_gt_of_ne h with h | h
  · rw [mul_comm]; exact gsQ_orth hL j _ (by rw [gsQ_degree hL]; exact_mod_cast h)
  · exact gsQ_orth hL i _ (by rw [gsQ_degree hL]; exact_mod_cast h)

/-- a polynomial of degree below `n` orthogonal to all `Q_j`, `j < n`, is zero -/
theorem eq_zero_of_orth {n : ℕ} {D : ℝ[X]} (hd : D.degree < n) (h : ∀ j, j < n → L (D * gsQ L j) = 0) : D = 0 := by
  by_contra hne
  obtain ⟨c, hc⟩ := gs_span hL n D hd
  have hz : L (D * D) = 0 := by
    have h1 : D * D = ∑ k ∈ Finset.range n, c k • (D * gsP L k) := by
      conv_lhs => rhs; rw [hc]
      rw [Finset.mul_sum]
      exact Finset.sum_congr rfl fun k _ => by rw [mul_smul_comm]
    rw [h1, map_sum]
    refine Finset.sum_eq_zero fun k hk => ?_
    rw [map_smul, gsP_eq, ← mul_assoc, mul_comm D, mul_assoc, ← smul_eq_C_mul, map_smul, h k (Finset.mem_range.1 hk), smul_zero, smul_zero]
  exact absurd hz (hL.sq hne).ne'

theorem gsQ_X_mul (k : ℕ) : (X * gsQ L k).Monic ∧ (X * gsQ L k).natDegree = k+1 := by
  have := (gs_main hL k).1
  refine ⟨monic_X.mul this, ?_⟩
  rw [natDegree_X_mul this.ne_zero, (gs_main hL k).2.1]

/-- `Q_{k+1} = (x - a_k) Q_k - b_k Q_{k-1}` -/
theorem gsQ_rec (k : ℕ) : gsQ L (k+1) = (X - C (recA L k)) * gsQ L k - C (recB L k) * (if k = 0 then 0 else gsQ L (k-1)) := by
  rw [← sub_eq_zero]
  have hq : ∀ j, (gsQ L j).degree ≤ j := fun j => (gsQ_degree hL j).le
  have hprev : (if k = 0 then (0 : ℝ[X]) else gsQ L (k-1)).degree ≤ k := by
    split
    · simp
    · exact (hq _).trans (by exact_mod_cast Nat.sub_le k 1)
  refine eq_zero_of_orth hL (n := k+1) ?_ ?_
  · have e : gsQ L (k+1) - ((X - C (recA L k)) * gsQ L k - C (recB L k) * (if k = 0 then 0 else gsQ L (k-1))) =
        (gsQ L (k+1) - X * gsQ L k) + (C (recA L k) * gsQ L k + C (recB L k) * (if k = 0 then 0 else gsQ L (k-1))) := by ring
    rw [e]
    refine lt_of_le_of_lt (degree_add_le _ _) (max_lt ?_ ?_)
    · have := degree_sub_lt (p := gsQ L (k+1)) (q := X * gsQ L k)
        (by rw [gsQ_degree hL, degree_eq_natDegree (gsQ_X_mul hL k).1.ne_zero, (gsQ_X_mul hL k).2]) (gs_main hL (k+1)).1.ne_zero
        (by rw [(gs_main hL (k+1)).1.leadingCoeff, (gsQ_X_mul hL k).1.leadingCoeff])
      rwa [gsQ_degree hL] at this
    · refine lt_of_le_of_lt (degree_add_le _ _) (max_lt ?_ ?_)
      · rw [← smul_eq_C_mul]; exact lt_of_le_of_lt ((degree_smul_le _ _).trans (hq k)) (by exact_mod_cast Nat.lt_succ_self k)
      · rw [← smul_eq_C_mul]; exact lt_of_le_of_lt ((degree_smul_le _ _).trans hprev) (by exact_mod_cast Nat.lt_succ_self k)
  · intro j hj
    have e : (gsQ L (k+1) - ((X - C (recA L k)) * gsQ L k - C (recB L k) * (if k = 0 then 0 else gsQ L (k-1)))) * gsQ L j =
        gsQ L (k+1) * gsQ L j - gsQ L k * (X * gsQ L j) + recA L k • (gsQ L k * gsQ L j) +
          recB L k • ((if k = 0 then 0 else gsQ L (k-1)) * gsQ L j) := by
      rw [smul_eq_C_mul, smul_eq_C_mul]; ring
    rw [e, map_add, map_add, map_sub, map_smul, map_smul, gsQ_gsQ hL (by omega : k+1 ≠ j), smul_eq_mul, smul_eq_mul]
    rcases Nat.lt_succ_iff_lt_or_eq.1 hj with hlt | rfl
    · rw [gsQ_gsQ hL (by omega : k ≠ j), if_neg (by omega)]
      rcases Nat.eq_or_lt_of_le (show j+1 ≤ k by omega) with e1 | e1
      · subst e1
        rw [gsQ_monic hL (gsQ_X_mul hL j).1 (gsQ_X_mul hL j).2, Nat.add_sub_cancel]
        unfold recB
        rw [if_neg (by omega), Nat.add_sub_cancel]
        show 0 - hN L (j+1) + recA L (j+1) * 0 + hN L (j+1) / hN L j * hN L j = 0
        have := (hN_pos hL j).ne'
        field_simp; ring
      · rw [gsQ_gsQ hL (by omega : k-1 ≠ j), gsQ_orth hL k _ (by
          rw [degree_eq_natDegree (gsQ_X_mul hL j).1.ne_zero, (gsQ_X_mul hL j).2]; exact_mod_cast e1)]
        ring
    · have : recB L j * L ((if j = 0 then 0 else gsQ L (j-1)) * gsQ L j) = 0 := by
        split
        · simp
        · rw [gsQ_gsQ hL (by omega : j-1 ≠ j), mul_zero]
      rw [this]
      unfold recA
      have h0 := (hN_pos hL j).ne'
      have e2 : L (gsQ L j * (X * gsQ L j)) = L (X * gsQ L j * gsQ L j) := by congr 1; ring
      rw [e2]
      show 0 - L (X * gsQ L j * gsQ L j) + L (X * gsQ L j * gsQ L j) / hN L j * hN L j + 0 = 0
      field_simp; ring

/-- `√b_{k+1} p_{k+1} = (x - a_k) p_k - √b_k p_{k-1}` -/
theorem gsP_rec (k : ℕ) (x : ℝ) : Real.sqrt (recB L (k+1)) * (gsP L (k+1)).eval x =
    (x - recA L k) * (gsP L k).eval x - Real.sqrt (recB L k) * (if k = 0 then 0 else (gsP L (k-1)).eval x) := by
  have hs : ∀ j, Real.sqrt (hN L j) ≠ 0 := fun j => (Real.sqrt_pos.2 (hN_pos hL j)).ne'
  have hp : ∀ j, (gsP L j).eval x = (gsQ L j).eval x / Real.sqrt (hN L j) := fun j => by
    rw [gsP_eq, eval_mul, eval_C]; unfold hN; ring
  have hb : ∀ j, Real.sqrt (recB L (j+1)) = Real.sqrt (hN L (j+1)) / Real.sqrt (hN L j) := fun j => by
    unfold recB; rw [if_neg (by omega), Nat.add_sub_cancel, Real.sqrt_div (hN_pos hL _).le]
  have hr := congrArg (eval x) (gsQ_rec hL k)
  rw [hb, hp, hr, hp]
  simp only [eval_sub, eval_mul, eval_X, eval_C]
  rcases k with _ | k
  · simp only [if_true, eval_zero, mul_zero, sub_zero]
    have := hs 0; have := hs 1
    field_simp
  · rw [if_neg (by omega), if_neg (by omega), Nat.add_sub_cancel, hp, hb]
    have e : recB L (k+1) = Real.sqrt (hN L (k+1)) * Real.sqrt (hN L (k+1)) / (Real.sqrt (hN L k) * Real.sqrt (hN L k)) := by
      unfold recB
      rw [if_neg (by omega), Nat.add_sub_cancel, Real.mul_self_sqrt (hN_pos hL _).le, Real.mul_self_sqrt (hN_pos hL _).le]
    rw [e]
    have := hs k; have := hs (k+1); have := hs (k+1+1)
    field_simp

omit hL in
/-- `lam i` and `v i` are the eigenvalues and orthonormal eigenvectors of the symmetric tridiagonal matrix with diagonal `a` and elements
`e k` between `k` and `k+1` -/
structure IsEigen (n : ℕ) (a e : ℕ → ℝ) (lam : ℕ → ℝ) (v : ℕ → ℕ → ℝ) : Prop where
  eig : ∀ i k, i < n → k < n → (if k = 0 then 0 else e (k-1) * v i (k-1)) + a k * v i k + (if k+1 < n then e k * v i (k+1) else 0) = lam i * v i k
  orth : ∀ i j, i < n → j < n → ∑ k ∈ Finset.range n, v i k * v j k = if i = j then 1 else 0

theorem golub_welsch {n : ℕ} {lam : ℕ → ℝ} {v : ℕ → ℕ → ℝ} (E : IsEigen n (recA L) (fun k => Real.sqrt (recB L (k+1))) lam v) :
    (∀ k, k < n → 0 < lam k ∧ lam k < 1) ∧ ∀ F : ℝ[X], F.natDegree < 2*n →
      ∑ k ∈ Finset.range n, v k 0 * v k 0 * L 1 * F.eval (lam k) = L F := by
  have hb : ∀ k, 0 < Real.sqrt (recB L (k+1)) := fun k => Real.sqrt_pos.2 (recB_pos hL (by omega))
  have hp0 : ∀ x, (gsP L 0).eval x = 1 / Real.sqrt (L 1) := fun x => by
    rw [gsP_eq]; simp [gsQ]
  have hL1 : 0 < L 1 := hL 1 one_ne_zero (fun s _ _ => by rw [eval_one]; exact zero_le_one)
  have hs1 : 0 < Real.sqrt (L 1) := Real.sqrt_pos.2 hL1
  -- the components of an eigenvector
  have comp : ∀ i, i < n → ∀ k, k < n → v i k = v i 0 * Real.sqrt (L 1) * (gsP L k).eval (lam i) := by
    intro i hi k
    induction k using Nat.strong_induction_on with
    | _ k ih =>
      intro hk
      rcases k with _ | k
      · rw [hp0]; field_simp
      · have e1 := E.eig i k hi (by omega)
        rw [if_pos hk] at e1
        have e2 := gsP_rec hL k (lam i)
        have i1 := ih k (by omega) (by omega)
        refine mul_left_cancel₀ (hb k).ne' ?_
        have e3 : Real.sqrt (recB L (k+1)) * (v i 0 * Real.sqrt (L 1) * (gsP L (k+1)).eval (lam i)) =
          v i 0 * Real.sqrt (L 1) * (Real.sqrt (recB L (k+1)) * (gsP L (k+1)).eval (lam i)) := by ring
        rw [e3, e2]
        rcases k with _ | k
        · simp only [if_true, mul_zero, sub_zero, zero_add] at e1 ⊢
          rw [i1] at e1
          linear_combination e1
        · rw [if_neg (by omega), Nat.add_sub_cancel] at e1
          have i2 := ih k (by omega) (by omega)
          rw [if_neg (by omega), Nat.add_sub_cancel]
          rw [i1, i2] at e1
          linear_combination e1
  have dot : ∀ i j, i < n → j < n → v i 0 * v j 0 * L 1 * ∑ k ∈ Finset.range n, (gsP L k).eval (lam i) * (gsP L k).eval (lam j) = if i = j then 1 else 0 := by
    intro i j hi hj
    rw [← E.orth i j hi hj, Finset.mul_sum]
    refine Finset.sum_congr rfl fun k hk => ?_
    rw [comp i hi k (Finset.mem_range.1 hk), comp j hj k (Finset.mem_range.1 hk)]
    have := Real.mul_self_sqrt hL1.le
    linear_combination (-(v i 0 * v j 0 * (gsP L k).eval (lam i) * (gsP L k).eval (lam j))) * this
  have v0 : ∀ i, i < n → v i 0 ≠ 0 := by
    intro i hi h0
    have := dot i i hi hi
    rw [h0, if_pos rfl] at this
    simp at this
  have root : ∀ i, i < n → (gsP L n).eval (lam i) = 0 := by
    intro i hi
    obtain ⟨m, rfl⟩ : ∃ m, n = m+1 := ⟨n-1, by omega⟩
    have e1 := E.eig i m hi (by omega)
    rw [if_neg (by omega : ¬ m+1 < m+1)] at e1
    have e2 := gsP_rec hL m (lam i)
    have i1 := comp i hi m (by omega)
    have hz : v i 0 * Real.sqrt (L 1) * (Real.sqrt (recB L (m+1)) * (gsP L (m+1)).eval (lam i)) = 0 := by
      rw [e2]
      rcases m with _ | m
      · simp only [if_true, mul_zero, sub_zero, zero_add, add_zero] at e1 ⊢
        rw [i1] at e1
        linear_combination -e1
      · rw [if_neg (by omega), Nat.add_sub_cancel] at e1
        have i2 := comp i hi m (by omega)
        rw [if_neg (by omega), Nat.add_sub_cancel]
        rw [i1, i2] at e1
        linear_combination -e1
    rcases mul_eq_zero.1 hz with h | h
    · rcases mul_eq_zero.1 h with h | h
      · exact absurd h (v0 i hi)
      · exact absurd h hs1.ne'
    · exact (mul_eq_zero.1 h).resolve_left (hb m).ne'
  have inj : Set.InjOn lam (Finset.range n : Set ℕ) := by
    intro i hi j hj e
    have hi' := Finset.mem_range.1 (Finset.mem_coe.1 hi)
    have hj' := Finset.mem_range.1 (Finset.mem_coe.1 hj)
    by_contra hne
    have d1 := dot i j hi' hj'
    have d2 := dot i i hi' hi'
    rw [if_neg hne, ← e] at d1
    rw [if_pos rfl] at d2
    rcases mul_eq_zero.1 d1 with h | h
    · rcases mul_eq_zero.1 h with h | h
      · rcases mul_eq_zero.1 h with h | h
        · exact v0 i hi' h
        · exact v0 j hj' h
      · exact hL1.ne' h
    · rw [h] at d2; simp at d2
  obtain ⟨g1, g2⟩ := gauss_quadrature hL inj root
  refine ⟨g1, fun F hF => ?_⟩
  rw [← g2 F hF]
  refine Finset.sum_congr rfl fun k hk => ?_
  have d := dot k k (Finset.mem_range.1 hk) (Finset.mem_range.1 hk)
  rw [if_pos rfl] at d
  have hne : ∑ j ∈ Finset.range n, (gsP L j).eval (lam k) * (gsP L j).eval (lam k) ≠ 0 := by
    intro h; rw [h] at d; simp at d
  congr 1
  rw [eq_div_iff hne]
  linarith

end Verif.Lemmas
