import Verif.Lemmas.RysExist
import Mathlib.LinearAlgebra.Matrix.NonsingularInverse

/-!
Orthonormal polynomials of a positive functional, built as in `R_dsmit` (src/rys_roots.c), and Gaussian quadrature with the
weights `1 / ∑ p_j(s)²`.
-/
namespace Verif.Lemmas
open Polynomial

/-- positive on polynomials that are not negative on (0,1) -/
def PosFun (L : ℝ[X] →ₗ[ℝ] ℝ) : Prop := ∀ F : ℝ[X], F ≠ 0 → (∀ s, 0 < s → s < 1 → 0 ≤ F.eval s) → 0 < L F

theorem rysL_posFun (x : ℝ) {l : ℝ} (l0 : 0 ≤ l) (l1 : l < 1) : PosFun (rysL x l) := fun _ h0 h => rysL_pos l0 l1 h0 h

theorem PosFun.sq {L : ℝ[X] →ₗ[ℝ] ℝ} (hL : PosFun L) {F : ℝ[X]} (h : F ≠ 0) : 0 < L (F*F) :=
  hL _ (mul_ne_zero h h) (fun s _ _ => by rw [eval_mul]; exact mul_self_nonneg _)

section
variable (L : ℝ[X] →ₗ[ℝ] ℝ)

/-- the first `n` orthonormal polynomials -/
noncomputable def gsSeq : ℕ → ℕ → ℝ[X]
  | 0 => fun _ => 0
  | j+1 =>
    let q := X^j - ∑ k ∈ Finset.range j, C (L (gsSeq j k * X^j)) * gsSeq j k
    Function.update (gsSeq j) j (C (1/Real.sqrt (L (q*q))) * q)

noncomputable def gsP (k : ℕ) : ℝ[X] := gsSeq L (k+1) k

noncomputable def gsQ (j : ℕ) : ℝ[X] := X^j - ∑ k ∈ Finset.range j, C (L (gsP L k * X^j)) * gsP L k

theorem gsSeq_eq {j k : ℕ} (h : k < j) : gsSeq L j k = gsP L k := by
  induction j with
  | zero => omega
  | succ j ih =>
    rcases Nat.lt_succ_iff_lt_or_eq.1 h with h' | rfl
    · rw [← ih h']
      show Function.update (gsSeq L j) j _ k = _
      rw [Function.update_of_ne (by omega)]
    · rfl

theorem gsP_eq (j : ℕ) : gsP L j = C (1/Real.sqrt (L (gsQ L j * gsQ L j))) * gsQ L j := by
  have hq : X^j - ∑ k ∈ Finset.range j, C (L (gsSeq L j k * X^j)) * gsSeq L j k = gsQ L j := by
    unfold gsQ
    congr 1
    refine Finset.sum_congr rfl fun k hk => ?_
    rw [gsSeq_eq L (Finset.mem_range.1 hk)]
  show Function.update (gsSeq L j) j (C (1/Real.sqrt (L (_ * _))) * _) j = _
  rw [Function.update_self, hq]

variable {L} (hL : PosFun L)
include hL

theorem gs_main (j : ℕ) : (gsQ L j).Monic ∧ (gsQ L j).natDegree = j ∧ 0 < L (gsQ L j * gsQ L j) ∧ (gsP L j).natDegree = j ∧
    L (gsP L j * gsP L j) = 1 ∧ (∀ k, k < j → L (gsP L k * gsP L j) = 0) ∧ (∀ k, k < j → L (gsP L k * gsQ L j) = 0) := by
  induction j using Nat.strong_induction_on with
  | _ j ih =>
    have hdeg : (∑ k ∈ Finset.range j, C (L (gsP L k * X^j)) * gsP L k).degree < j := by
      refine lt_of_le_of_lt (degree_sum_le _ _) ?_
      rw [Finset.sup_lt_iff (WithBot.bot_lt_coe _)]
      intro k hk
      have hk' := Finset.mem_range.1 hk
      rw [C_mul']
      refine lt_of_le_of_lt (degree_smul_le _ _) ?_
      refine lt_of_le_of_lt degree_le_natDegree ?_
      rw [(ih k hk').2.2.2.1]
      exact_mod_cast hk'
    have hm : (gsQ L j).Monic := monic_X_pow_sub hdeg
    have hd : (gsQ L j).natDegree = j := by
      have h1 : (gsQ L j).degree = (j : WithBot ℕ) := by
        unfold gsQ
        rw [degree_sub_eq_left_of_degree_lt (by rwa [degree_X_pow]), degree_X_pow]
      exact natDegree_eq_of_degree_eq_some h1
    have hp : 0 < L (gsQ L j * gsQ L j) := hL.sq hm.ne_zero
    have hs : 0 < Real.sqrt (L (gsQ L j * gsQ L j)) := Real.sqrt_pos.2 hp
    have ho : ∀ k, k < j → L (gsP L k * gsQ L j) = 0 := by
      intro k hk
      have : gsP L k * gsQ L j = gsP L k * X^j - ∑ i ∈ Finset.range j, L (gsP L i * X^j) • (gsP L k * gsP L i) := by
        unfold gsQ
        rw [mul_sub, Finset.mul_sum]
        congr 1
        refine Finset.sum_congr rfl fun i _ => ?_
        rw [smul_eq_C_mul]; ring
      rw [this, map_sub, map_sum, Finset.sum_eq_single k]
      · rw [map_smul, (ih k hk).2.2.2.2.1, smul_eq_mul, mul_one, sub_self]
      · intro i hi hne
        rw [map_smul]
        have hi' := Finset.mem_range.1 hi
        rcases Nat.lt_or_gt_of_ne hne with h | h
        · rw [mul_comm (gsP L k), (ih k hk).2.2.2.2.2.1 i h, smul_zero]
        · rw [(ih i hi').2.2.2.2.2.1 k h, smul_zero]
      · intro h
        exact absurd (Finset.mem_range.2 hk) h
    refine ⟨hm, hd, hp, ?_, ?_, ?_, ho⟩
    · rw [gsP_eq, natDegree_C_mul (one_div_ne_zero hs.ne'), hd]
    · have : gsP L j * gsP L j = (1/Real.sqrt (L (gsQ L j * gsQ L j)))^2 • (gsQ L j * gsQ L j) := by
        rw [gsP_eq, smul_eq_C_mul, C_pow]; ring
      rw [this, map_smul, smul_eq_mul, div_pow, one_pow, Real.sq_sqrt hp.le]
      field_simp
    · intro k hk
      have : gsP L k * gsP L j = (1/Real.sqrt (L (gsQ L j * gsQ L j))) • (gsP L k * gsQ L j) := by
        rw [gsP_eq L j, smul_eq_C_mul]; ring
      rw [this, map_smul, ho k hk, smul_zero]

theorem gsP_orth (i j : ℕ) : L (gsP L i * gsP L j) = if i = j then 1 else 0 := by
  split
  · rename_i h; rw [h]; exact (gs_main hL j).2.2.2.2.1
  · rename_i h
    rcases Nat.lt_or_gt_of_ne h with h | h
    · exact (gs_main hL j).2.2.2.2.2.1 i h
    · rw [mul_comm]; exact (gs_main hL i).2.2.2.2.2.1 j h

/-- the norm, as it is computed -/
theorem gsQ_norm (j : ℕ) : L (gsQ L j * gsQ L j) = L (X^(j+j)) - ∑ k ∈ Finset.range j, L (gsP L k * X^j) * L (gsP L k * X^j) := by
  have h1 : L (gsQ L j * gsQ L j) = L (X^j * gsQ L j) := by
    have : gsQ L j * gsQ L j = X^j * gsQ L j - ∑ k ∈ Finset.range j, L (gsP L k * X^j) • (gsP L k * gsQ L j) := by
      have h0 : gsQ L j = X^j - ∑ k ∈ Finset.range j, C (L (gsP L k * X^j)) * gsP L k := rfl
      generalize gsQ L j = q at h0 ⊢
      have h1 : q * q = (X^j - ∑ k ∈ Finset.range j, C (L (gsP L k * X^j)) * gsP L k) * q := by rw [← h0]
      rw [h1, sub_mul, Finset.sum_mul]
      congr 1
      refine Finset.sum_congr rfl fun k _ => ?_
      rw [smul_eq_C_mul]; ring
    rw [this, map_sub, map_sum, Finset.sum_eq_zero, sub_zero]
    intro k hk
    rw [map_smul, (gs_main hL j).2.2.2.2.2.2 k (Finset.mem_range.1 hk), smul_zero]
  rw [h1]
  have : X^j * gsQ L j = X^(j+j) - ∑ k ∈ Finset.range j, L (gsP L k * X^j) • (gsP L k * X^j) := by
    unfold gsQ
    rw [mul_sub, ← pow_add, Finset.mul_sum]
    congr 1
    refine Finset.sum_congr rfl fun k _ => ?_
    rw [smul_eq_C_mul]; ring
  rw [this, map_sub, map_sum]
  simp only [map_smul, smul_eq_mul]

theorem gsP_lead (n : ℕ) : (gsP L n).coeff n ≠ 0 := by
  have h := gs_main hL n
  rw [gsP_eq, coeff_C_mul]
  have : (gsQ L n).coeff n = 1 := by
    have := h.1.coeff_natDegree
    rwa [h.2.1] at this
  rw [this, mul_one]
  exact one_div_ne_zero (Real.sqrt_pos.2 h.2.2.1).ne'

theorem gs_span (n : ℕ) : ∀ G : ℝ[X], G.degree < n → ∃ c : ℕ → ℝ, G = ∑ k ∈ Finset.range n, c k • gsP L k := by
  induction n with
  | zero =>
    intro G hG
    have : G = 0 := by
      rw [← degree_eq_bot]
      exact (Nat.WithBot.lt_zero_iff).1 (by exact_mod_cast hG)
    exact ⟨fun _ => 0, by simp [this]⟩
  | succ n ih =>
    intro G hG
    let a := G.coeff n / (gsP L n).coeff n
    have hlow : (G - a • gsP L n).degree < n := by
      rw [degree_lt_iff_coeff_zero] at hG ⊢
      intro m hm
      rcases Nat.eq_or_lt_of_le hm with h | h
      · rw [← h, coeff_sub, coeff_smul, smul_eq_mul, div_mul_cancel₀ _ (gsP_lead hL n), sub_self]
      · rw [coeff_sub, hG m h, coeff_smul, coeff_eq_zero_of_natDegree_lt (by rw [(gs_main hL n).2.2.2.1]; exact h)]
        simp
    obtain ⟨c, hc⟩ := ih _ hlow
    refine ⟨fun k => if k = n then a else c k, ?_⟩
    rw [Finset.sum_range_succ]
    beta_reduce
    rw [if_pos rfl]
    have : ∑ k ∈ Finset.range n, (if k = n then a else c k) • gsP L k = ∑ k ∈ Finset.range n, c k • gsP L k := by
      refine Finset.sum_congr rfl fun k hk => ?_
      rw [if_neg (Finset.mem_range.1 hk).ne]
    rw [this, ← hc]
    ring

theorem gsQ_orth (n : ℕ) (G : ℝ[X]) (hG : G.degree < n) : L (gsQ L n * G) = 0 := by
  obtain ⟨c, hc⟩ := gs_span hL n G hG
  rw [hc, Finset.mul_sum, map_sum]
  refine Finset.sum_eq_zero fun k hk => ?_
  rw [mul_smul_comm, map_smul, mul_comm, (gs_main hL n).2.2.2.2.2.2 k (Finset.mem_range.1 hk), smul_zero]

/-- the roots of an orthogonal polynomial lie between 0 and 1 -/
theorem orth_root {P : ℝ[X]} {n : ℕ} (hm : P.Monic) (hd : P.natDegree = n) (ho : ∀ G : ℝ[X], G.degree < n → L (P*G) = 0)
    {r : ℝ} (hr : P.eval r = 0) : 0 < r ∧ r < 1 := by
  obtain ⟨Q, hQ⟩ := dvd_iff_isRoot.2 hr
  have hQ0 : Q ≠ 0 := by
    rintro rfl
    rw [mul_zero] at hQ
    exact hm.ne_zero hQ
  have hdQ : Q.degree < n := by
    rw [degree_eq_natDegree hQ0]
    have := natDegree_mul (X_sub_C_ne_zero r) hQ0
    rw [← hQ, hd, natDegree_X_sub_C] at this
    have h2 : Q.natDegree < n := by omega
    exact_mod_cast h2
  have hz := ho Q hdQ
  have hne : P * Q ≠ 0 := mul_ne_zero hm.ne_zero hQ0
  have he : ∀ s, (P*Q).eval s = (s - r) * (Q.eval s * Q.eval s) := by
    intro s
    rw [hQ, eval_mul, eval_mul, eval_sub, eval_X, eval_C]; ring
  refine ⟨?_, ?_⟩
  · by_contra h
    have := hL (P*Q) hne (fun s s0 _ => by rw [he]; exact mul_nonneg (by linarith) (mul_self_nonneg _))
    rw [hz] at this
    exact lt_irrefl _ this
  · by_contra h
    have := hL (-(P*Q)) (neg_ne_zero.2 hne) (fun s _ s1 => by
      rw [eval_neg, he]
      have := mul_self_nonneg (Q.eval s)
      nlinarith)
    rw [map_neg, hz, neg_zero] at this
    exact lt_irrefl _ this

omit hL in
/-- Gauss: with the roots of an orthogonal polynomial and the weights of interpolation, exact below degree `2n` -/
theorem gauss_exact {P : ℝ[X]} {n : ℕ} {s : ℕ → ℝ} (hm : P.Monic) (hd : P.natDegree = n)
    (ho : ∀ G : ℝ[X], G.degree < n → L (P*G) = 0) (hinj : Set.InjOn s (Finset.range n : Set ℕ))
    (hs : ∀ k, k < n → P.eval (s k) = 0) (F : ℝ[X]) (hF : F.natDegree < 2*n) :
    ∑ k ∈ Finset.range n, L (Lagrange.basis (Finset.range n) s k) * F.eval (s k) = L F := by
  have hrem : (F %ₘ P).degree < n := by
    have := degree_modByMonic_lt F hm
    rwa [degree_eq_natDegree hm.ne_zero, hd] at this
  have hquo : (F /ₘ P).degree < n := by
    rcases eq_or_ne (F /ₘ P) 0 with h | h
    · rw [h, degree_zero]; exact WithBot.bot_lt_coe _
    · rw [degree_eq_natDegree h, natDegree_divByMonic F hm, hd]
      have : F.natDegree - n < n := by omega
      exact_mod_cast this
  have hF' : F = F %ₘ P + P * (F /ₘ P) := (modByMonic_add_div F P).symm
  have hev : ∀ k, k < n → F.eval (s k) = (F %ₘ P).eval (s k) := by
    intro k hk
    conv_lhs => rw [hF']
    rw [eval_add, eval_mul, hs k hk, zero_mul, add_zero]
  have hLF : L F = L (F %ₘ P) := by
    conv_lhs => rw [hF']
    rw [map_add, ho _ hquo, add_zero]
  have hint : F %ₘ P = ∑ k ∈ Finset.range n, C ((F %ₘ P).eval (s k)) * Lagrange.basis (Finset.range n) s k := by
    have := Lagrange.eq_interpolate (s := Finset.range n) (v := s) hinj (f := F %ₘ P) (by rwa [Finset.card_range])
    rwa [Lagrange.interpolate_apply] at this
  rw [hLF]
  conv_rhs => rw [hint]
  rw [map_sum]
  refine Finset.sum_congr rfl (fun k hk => ?_)
  rw [Finset.mem_range] at hk
  rw [hev k hk, C_mul', map_smul, smul_eq_mul, mul_comm]

/-- the weights of interpolation are `1 / ∑ p_j(s)²` -/
theorem gauss_weight {n : ℕ} {s : ℕ → ℝ} (hinj : Set.InjOn s (Finset.range n : Set ℕ)) (hs : ∀ k, k < n → (gsQ L n).eval (s k) = 0)
    {k : ℕ} (hk : k < n) : L (Lagrange.basis (Finset.range n) s k) * ∑ j ∈ Finset.range n, (gsP L j).eval (s k) * (gsP L j).eval (s k) = 1 := by
  have hex := gauss_exact (gs_main hL n).1 (gs_main hL n).2.1 (gsQ_orth hL n) hinj hs
  let A : Matrix (Fin n) (Fin n) ℝ := Matrix.of fun j k => (gsP L j).eval (s k)
  let B : Matrix (Fin n) (Fin n) ℝ := Matrix.of fun k j => L (Lagrange.basis (Finset.range n) s k) * (gsP L j).eval (s k)
  have hAB : A * B = 1 := by
    ext i j
    rw [Matrix.mul_apply, Matrix.one_apply]
    have h1 : (gsP L i * gsP L j).natDegree < 2*n := by
      refine lt_of_le_of_lt natDegree_mul_le ?_
      rw [(gs_main hL i).2.2.2.1, (gs_main hL j).2.2.2.1]
      omega
    have h2 := hex _ h1
    rw [gsP_orth hL] at h2
    simp only [← Fin.ext_iff] at h2
    rw [← h2, Finset.sum_range]
    refine Finset.sum_congr rfl fun k _ => ?_
    show (gsP L i).eval (s k) * (L _ * (gsP L j).eval (s k)) = _
    rw [eval_mul]; ring
  have hBA : B * A = 1 := mul_eq_one_comm.1 hAB
  have h3 := congrFun (congrFun hBA ⟨k, hk⟩) ⟨k, hk⟩
  rw [Matrix.mul_apply, Matrix.one_apply_eq] at h3
  rw [← h3, Finset.mul_sum, Finset.sum_range]
  refine Finset.sum_congr rfl fun j _ => ?_
  show _ = L _ * (gsP L j).eval (s k) * (gsP L j).eval (s k)
  ring

/-- **Gaussian quadrature** with the weights of the code -/
theorem gauss_quadrature {n : ℕ} {s : ℕ → ℝ} (hinj : Set.InjOn s (Finset.range n : Set ℕ))
    (hs : ∀ k, k < n → (gsP L n).eval (s k) = 0) :
    (∀ k, k < n → 0 < s k ∧ s k < 1) ∧ ∀ F : ℝ[X], F.natDegree < 2*n →
      ∑ k ∈ Finset.range n, 1/(∑ j ∈ Finset.range n, (gsP L j).eval (s k) * (gsP L j).eval (s k)) * F.eval (s k) = L F := by
  have hg := gs_main hL n
  have hs' : ∀ k, k < n → (gsQ L n).eval (s k) = 0 := by
    intro k hk
    have := hs k hk
    rw [gsP_eq, eval_mul, eval_C] at this
    exact (mul_eq_zero.1 this).resolve_left (one_div_ne_zero (Real.sqrt_pos.2 hg.2.2.1).ne')
  refine ⟨fun k hk => orth_root hL hg.1 hg.2.1 (gsQ_orth hL n) (hs' k hk), fun F hF => ?_⟩
  rw [← gauss_exact hg.1 hg.2.1 (gsQ_orth hL n) hinj hs' F hF]
  refine Finset.sum_congr rfl fun k hk => ?_
  have := gauss_weight hL hinj hs' (Finset.mem_range.1 hk)
  congr 1
  rw [one_div]
  exact (eq_inv_of_mul_eq_one_left this).symm
end

/-- the orthonormal polynomial has `n` different real roots -/
theorem gsP_roots (x : ℝ) {l : ℝ} (l0 : 0 ≤ l) (l1 : l < 1) (n : ℕ) : ∃ s : ℕ → ℝ, Set.InjOn s (Finset.range n : Set ℕ) ∧
    ∀ k, k < n → (gsP (rysL x l) n).eval (s k) = 0 := by
  have hL := rysL_posFun x l0 l1
  obtain ⟨P, S, hm, hd, hc, hS, ho⟩ := exists_nodes x l0 l1 n
  have hg := gs_main hL n
  have hPQ : gsQ (rysL x l) n = P := by
    by_contra hne
    have hdeg : (gsQ (rysL x l) n - P).degree < n := by
      have := degree_sub_lt (p := gsQ (rysL x l) n) (q := P) (by
        rw [degree_eq_natDegree hg.1.ne_zero, degree_eq_natDegree hm.ne_zero, hg.2.1, hd]) hg.1.ne_zero (by
        rw [hg.1.leadingCoeff, hm.leadingCoeff])
      rwa [degree_eq_natDegree hg.1.ne_zero, hg.2.1] at this
    have h1 := gsQ_orth hL n _ hdeg
    have h2 := ho _ hdeg
    have h3 := hL.sq (sub_ne_zero.2 hne)
    rw [sub_mul, map_sub, h1, h2, sub_zero] at h3
    exact lt_irrefl _ h3
  let e := S.equivFinOfCardEq hc
  refine ⟨fun k => if h : k < n then (e.symm ⟨k, h⟩ : ℝ) else 0, ?_, ?_⟩
  · intro a ha b hb hab
    have ha' : a < n := Finset.mem_range.1 ha
    have hb' : b < n := Finset.mem_range.1 hb
    simp only [dif_pos ha', dif_pos hb'] at hab
    have := e.symm.injective (Subtype.ext hab)
    exact congrArg Fin.val this
  · intro k hk
    simp only [dif_pos hk]
    rw [gsP_eq, eval_mul, hPQ, (hS _ (e.symm ⟨k, hk⟩).2).2.2, mul_zero]

end Verif.Lemmas
