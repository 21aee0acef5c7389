import Verif.Lemmas.OperKey
import Verif.Lemmas.Gauss
import Mathlib.LinearAlgebra.Multilinear.Basic
import Mathlib.Algebra.Polynomial.Derivative

/-! The operators on intermediates, on polynomials and on Gaussian functions are the same. -/
namespace Verif.Lemmas
open Verif Verif.Model Verif.Spec MeasureTheory Polynomial

/-- the elementary operators on `q(x) e^(-a (x-A)²)`, as maps of `q` -/
noncomputable def elL (a A O : ℝ) : El → ℝ[X] →ₗ[ℝ] ℝ[X]
  | .d => Polynomial.derivative - (LinearMap.mulLeft ℝ (C (2*a) * (X - C A)))
  | .r0 => LinearMap.mulLeft ℝ X
  | .rc => LinearMap.mulLeft ℝ (X - C O)
  | .ro => LinearMap.mulLeft ℝ (X - C A)

/-- a product of operators; the last acts first -/
noncomputable def wordE (a A O : ℝ) (w : List El) (q : ℝ[X]) : ℝ[X] := w.foldr (fun e q => elL a A O e q) q

@[simp] theorem wordE_nil (a A O : ℝ) (q : ℝ[X]) : wordE a A O [] q = q := rfl
@[simp] theorem wordE_cons (a A O : ℝ) (e : El) (w : List El) (q : ℝ[X]) :
    wordE a A O (e :: w) q = elL a A O e (wordE a A O w q) := rfl
theorem wordE_snoc (a A O : ℝ) (e : El) (w : List El) (q : ℝ[X]) :
    wordE a A O (w ++ [e]) q = wordE a A O w (elL a A O e q) := by
  unfold wordE; rw [List.foldr_append]; rfl

theorem wordE_lin (a A O : ℝ) (w : List El) : ∃ L : ℝ[X] →ₗ[ℝ] ℝ[X], ∀ q, wordE a A O w q = L q := by
  induction w with
  | nil => exact ⟨LinearMap.id, fun _ => rfl⟩
  | cons e w ih =>
    obtain ⟨L, h⟩ := ih
    exact ⟨(elL a A O e).comp L, fun q => by rw [wordE_cons, h]; rfl⟩

/-- the intermediates a multilinear functional of the polynomials of the four functions has -/
noncomputable def powTab (Λ : Nat → Nat → MultilinearMap ℝ (fun _ : Fin 4 => ℝ[X]) ℝ) (R : Fin 4 → Nat → ℝ)
    (c : Nat) (m : Fin 4 → Nat) (r : Nat) : ℝ := Λ c r fun t => (X - C (R t c))^m t

/-- what is applied to each function, for all words -/
noncomputable def wordTab (Λ : Nat → Nat → MultilinearMap ℝ (fun _ : Fin 4 => ℝ[X]) ℝ) (D : OpData ℝ)
    (w : List (GOp × Fin 4)) (c : Nat) (m : Fin 4 → Nat) (r : Nat) : ℝ :=
  Λ c r fun t => wordE (D.a t) (D.R t c) (D.O c) (onIdx t w) ((X - C (D.R t c))^m t)

theorem onIdx_cons (t : Fin 4) (o : GOp × Fin 4) (w : List (GOp × Fin 4)) :
    onIdx t (o :: w) = if o.2 = t then onIdx t w ++ [elOf o.1] else onIdx t w := by
  unfold onIdx
  rw [List.filter_cons]
  by_cases h : o.2 = t <;> simp [h]

theorem symVal_poly (Λ : Nat → Nat → MultilinearMap ℝ (fun _ : Fin 4 => ℝ[X]) ℝ) (D : OpData ℝ)
    (w : List (GOp × Fin 4)) : symVal D (powTab Λ D.R) w = wordTab Λ D w := by
  induction w with
  | nil => rfl
  | cons o w ih =>
    show opVal D o (symVal D (powTab Λ D.R) w) = _
    rw [ih]
    funext c m r
    obtain ⟨op, t⟩ := o
    obtain ⟨L, hL⟩ := wordE_lin (D.a t) (D.R t c) (D.O c) (onIdx t w)
    -- the arguments other than `t` do not change
    have harg : ∀ (n : Nat), (fun t' => wordE (D.a t') (D.R t' c) (D.O c) (onIdx t' w)
          ((X - C (D.R t' c))^(Function.update m t n t'))) =
        Function.update (fun t' => wordE (D.a t') (D.R t' c) (D.O c) (onIdx t' w) ((X - C (D.R t' c))^m t')) t
          (L ((X - C (D.R t c))^n)) := by
      intro n
      funext t'
      rcases eq_or_ne t' t with rfl | hne
      · rw [Function.update_self, Function.update_self, hL]
      · rw [Function.update_of_ne hne, Function.update_of_ne hne]
    have hres : (fun t' => wordE (D.a t') (D.R t' c) (D.O c) (onIdx t' ((op, t) :: w)) ((X - C (D.R t' c))^m t')) =
        Function.update (fun t' => wordE (D.a t') (D.R t' c) (D.O c) (onIdx t' w) ((X - C (D.R t' c))^m t')) t
          (L (elL (D.a t) (D.R t c) (D.O c) (elOf op) ((X - C (D.R t c))^m t))) := by
      funext t'
      rw [onIdx_cons]
      rcases eq_or_ne t' t with rfl | hne
      · rw [if_pos rfl, Function.update_self, wordE_snoc, hL]
      · rw [if_neg (fun h => hne h.symm), Function.update_of_ne hne]
    have hself : (fun t' => wordE (D.a t') (D.R t' c) (D.O c) (onIdx t' w) ((X - C (D.R t' c))^m t')) =
        Function.update (fun t' => wordE (D.a t') (D.R t' c) (D.O c) (onIdx t' w) ((X - C (D.R t' c))^m t')) t
          (L ((X - C (D.R t c))^m t)) := by
      rw [← harg, Function.update_eq_self]
    show opVal D (op, t) (wordTab Λ D w) c m r = Λ c r _
    rw [hres]
    cases op with
    | d =>
      show dVal (D.a t) t (wordTab Λ D w) c m r = _
      unfold dVal wordTab bump drop
      rw [harg, harg]
      have : elL (D.a t) (D.R t c) (D.O c) (elOf .d) ((X - C (D.R t c))^m t) =
          (m t : ℝ) • (X - C (D.R t c))^(m t - 1) + (-2 * D.a t) • (X - C (D.R t c))^(m t + 1) := by
        show derivative _ - C (2*D.a t) * (X - C (D.R t c)) * _ = _
        rw [derivative_pow, smul_eq_C_mul, smul_eq_C_mul]
        simp only [derivative_sub, derivative_X, derivative_C, sub_zero, mul_one]
        rw [show (-2 * D.a t) = -(2*D.a t) by ring, C_neg]
        simp only [map_natCast]
        ring
      rw [this, map_add, map_smul, map_smul, MultilinearMap.map_update_add, MultilinearMap.map_update_smul,
        MultilinearMap.map_update_smul]
      simp only [smul_eq_mul]
    | x0 =>
      show xVal (D.R t) t (wordTab Λ D w) c m r = _
      unfold xVal wordTab bump
      rw [harg, hself]
      have : elL (D.a t) (D.R t c) (D.O c) (elOf .x0) ((X - C (D.R t c))^m t) =
          (X - C (D.R t c))^(m t + 1) + (D.R t c) • (X - C (D.R t c))^(m t) := by
        show X * _ = _
        rw [smul_eq_C_mul]; ring
      rw [this, map_add, map_smul, MultilinearMap.map_update_add, MultilinearMap.map_update_smul]
      simp only [smul_eq_mul, Function.update_idem]
    | xc =>
      show xVal (fun c => D.R t c - D.O c) t (wordTab Λ D w) c m r = _
      unfold xVal wordTab bump
      rw [harg, hself]
      have : elL (D.a t) (D.R t c) (D.O c) (elOf .xc) ((X - C (D.R t c))^m t) =
          (X - C (D.R t c))^(m t + 1) + (D.R t c - D.O c) • (X - C (D.R t c))^(m t) := by
        show (X - C (D.O c)) * _ = _
        rw [smul_eq_C_mul, C_sub]; ring
      rw [this, map_add, map_smul, MultilinearMap.map_update_add, MultilinearMap.map_update_smul]
      simp only [smul_eq_mul, Function.update_idem]
    | own =>
      show wordTab Λ D w c (bump m t) r = _
      unfold wordTab bump
      rw [harg]
      have : elL (D.a t) (D.R t c) (D.O c) (elOf .own) ((X - C (D.R t c))^m t) = (X - C (D.R t c))^(m t + 1) := by
        show (X - C (D.R t c)) * _ = _
        ring
      rw [this]

/-! ### Gaussian functions -/

/-- `∏ q_k(r_k) e^(-a |r-A|²)` -/
noncomputable def gP (a : ℝ) (A : Pt) (q : Fin 3 → ℝ[X]) (r : Pt) : ℝ :=
  (∏ k, (q k).eval (r k)) * Real.exp (-a * ∑ k, (r k - A k)^2)

theorem gto_gP (a : ℝ) (A : Pt) (n : Fin 3 → ℕ) : gto a A n = gP a A fun k => (X - C (A k))^n k := by
  funext r
  unfold gto gP
  simp

theorem gP_split (a : ℝ) (A : Pt) (q : Fin 3 → ℝ[X]) (r : Pt) (k : Fin 3) (x : ℝ) :
    gP a A q (Function.update r k x) = ((q k).eval x * Real.exp (-a*(x-A k)^2)) *
      ∏ k' ∈ Finset.univ.erase k, ((q k').eval (r k') * Real.exp (-a*(r k'-A k')^2)) := by
  have h1 : ∀ r, gP a A q r = ∏ k', ((q k').eval (r k') * Real.exp (-a*(r k'-A k')^2)) := by
    intro r
    unfold gP
    rw [Finset.prod_mul_distrib, ← Real.exp_sum, Finset.mul_sum]
  rw [h1, ← Finset.mul_prod_erase _ _ (Finset.mem_univ k)]
  congr 1
  · rw [Function.update_self]
  · refine Finset.prod_congr rfl (fun k' hk' => ?_)
    rw [Function.update_of_ne (Finset.ne_of_mem_erase hk')]

theorem gP_hasDeriv (a A O : ℝ) (q : ℝ[X]) (x : ℝ) :
    HasDerivAt (fun x : ℝ => q.eval x * Real.exp (-a*(x-A)^2))
      ((elL a A O .d q).eval x * Real.exp (-a*(x-A)^2)) x := by
  have h2 : HasDerivAt (fun x : ℝ => -a*(x-A)^2) (-a*(2*(x-A))) x := by
    have h1 := ((hasDerivAt_id x).sub_const A).pow 2
    have := h1.const_mul (-a)
    refine this.congr_deriv ?_
    simp
  refine ((q.hasDerivAt x).mul h2.exp).congr_deriv ?_
  show _ = (derivative q - C (2*a) * (X - C A) * q).eval x * _
  simp
  ring

/-- a family of such functions with coefficients -/
theorem act_el (O A : Pt) (e : El) (k : Fin 3) {ι : Type} (s : Finset ι) (c a : ι → ℝ) (q : ι → Fin 3 → ℝ[X]) :
    El.act O A k e (fun r => ∑ i ∈ s, c i * gP (a i) A (q i) r) =
      fun r => ∑ i ∈ s, c i * gP (a i) A (Function.update (q i) k (elL (a i) (A k) (O k) e (q i k))) r := by
  have hmul : ∀ (p : ℝ[X]) (i : ι) (r : Pt), gP (a i) A (Function.update (q i) k (p * q i k)) r = p.eval (r k) * gP (a i) A (q i) r := by
    intro p i r
    have h1 := gP_split (a i) A (Function.update (q i) k (p * q i k)) r k (r k)
    have h2 := gP_split (a i) A (q i) r k (r k)
    rw [Function.update_eq_self] at h1 h2
    rw [h1, h2, Function.update_self, eval_mul]
    rw [Finset.prod_congr rfl (fun k' hk' => by rw [Function.update_of_ne (Finset.ne_of_mem_erase hk')])]
    ring
  funext r
  cases e with
  | d =>
    show deriv (fun x => ∑ i ∈ s, c i * gP (a i) A (q i) (Function.update r k x)) (r k) = _
    have hd : HasDerivAt (fun x => ∑ i ∈ s, c i * gP (a i) A (q i) (Function.update r k x))
        (∑ i ∈ s, c i * gP (a i) A (Function.update (q i) k (elL (a i) (A k) (O k) .d (q i k))) r) (r k) := by
      refine HasDerivAt.fun_sum (fun i _ => ?_)
      refine HasDerivAt.const_mul _ ?_
      have h1 := gP_split (a i) A (Function.update (q i) k (elL (a i) (A k) (O k) .d (q i k))) r k (r k)
      rw [Function.update_eq_self] at h1
      rw [h1, Function.update_self,
        Finset.prod_congr rfl (fun k' hk' => by rw [Function.update_of_ne (Finset.ne_of_mem_erase hk')])]
      have h2 := (gP_hasDeriv (a i) (A k) (O k) (q i k) (r k)).mul_const
        (∏ k' ∈ Finset.univ.erase k, ((q i k').eval (r k') * Real.exp (-a i*(r k'-A k')^2)))
      refine h2.congr_of_eventuallyEq (Filter.Eventually.of_forall fun x => ?_)
      exact gP_split (a i) A (q i) r k x
    exact hd.deriv
  | r0 =>
    show r k * _ = _
    rw [Finset.mul_sum]
    refine Finset.sum_congr rfl (fun i _ => ?_)
    have := hmul X i r
    rw [eval_X] at this
    show _ = c i * gP (a i) A (Function.update (q i) k (X * q i k)) r
    rw [this]; ring
  | rc =>
    show (r k - O k) * _ = _
    rw [Finset.mul_sum]
    refine Finset.sum_congr rfl (fun i _ => ?_)
    have := hmul (X - C (O k)) i r
    rw [eval_sub, eval_X, eval_C] at this
    show _ = c i * gP (a i) A (Function.update (q i) k ((X - C (O k)) * q i k)) r
    rw [this]; ring
  | ro =>
    show (r k - A k) * _ = _
    rw [Finset.mul_sum]
    refine Finset.sum_congr rfl (fun i _ => ?_)
    have := hmul (X - C (A k)) i r
    rw [eval_sub, eval_X, eval_C] at this
    show _ = c i * gP (a i) A (Function.update (q i) k ((X - C (A k)) * q i k)) r
    rw [this]; ring

theorem along_cons (k : Fin 3) (e : El × Fin 3) (w : Word) :
    along k (e :: w) = if e.2 = k then e.1 :: along k w else along k w := by
  unfold along
  rw [List.filter_cons]
  by_cases h : e.2 = k <;> simp [h]

/-- an operator on a combination of primitives -/
theorem act_sum (O A : Pt) (w : Word) {ι : Type} (s : Finset ι) (c a : ι → ℝ) (q : ι → Fin 3 → ℝ[X]) :
    Word.act O A w (fun r => ∑ i ∈ s, c i * gP (a i) A (q i) r) =
      fun r => ∑ i ∈ s, c i * gP (a i) A (fun k => wordE (a i) (A k) (O k) (along k w) (q i k)) r := by
  induction w with
  | nil => rfl
  | cons e w ih =>
    show El.act O A e.2 e.1 (Word.act O A w _) = _
    rw [ih, act_el]
    funext r
    refine Finset.sum_congr rfl (fun i _ => ?_)
    congr 2
    funext k
    rw [along_cons]
    rcases eq_or_ne e.2 k with rfl | hne
    · rw [Function.update_self, if_pos rfl, wordE_cons]
    · rw [Function.update_of_ne (fun h => hne h.symm), if_neg hne]

theorem act_gP (O A : Pt) (w : Word) (a : ℝ) (q : Fin 3 → ℝ[X]) :
    Word.act O A w (gP a A q) = gP a A fun k => wordE a (A k) (O k) (along k w) (q k) := by
  have := act_sum O A w (ι := Unit) {()} (fun _ => 1) (fun _ => a) (fun _ => q)
  simpa using this

/-- one-dimensional integrals -/
theorem int1_eq {a b : ℝ} (hab : a + b ≠ 0) (A B : ℝ) (q q' : ℝ[X]) :
    ∫ x, (q.eval x * Real.exp (-a*(x-A)^2)) * (q'.eval x * Real.exp (-b*(x-B)^2)) =
      Real.exp (-(a*b/(a+b))*(A-B)^2) * moment (a+b) ((a*A+b*B)/(a+b)) (q * q') := by
  unfold moment
  rw [← integral_const_mul]
  congr 1
  funext x
  have := gauss_product hab A B x
  simp only [eval_mul]
  linear_combination q.eval x * q'.eval x * this

theorem braket_gP {a b : ℝ} (hab : a + b ≠ 0) (A B : Pt) (q q' : Fin 3 → ℝ[X]) :
    braket (gP a A q) (gP b B q') = Real.exp (-(a*b/(a+b)) * ∑ k, (A k - B k)^2) *
      ∏ k, moment (a+b) ((a*A k+b*B k)/(a+b)) (q k * q' k) := by
  have h1 : ∀ (a : ℝ) (A : Pt) (q : Fin 3 → ℝ[X]) r, gP a A q r = ∏ k', ((q k').eval (r k') * Real.exp (-a*(r k'-A k')^2)) := by
    intro a A q r
    unfold gP
    rw [Finset.prod_mul_distrib, ← Real.exp_sum, Finset.mul_sum]
  have h2 : braket (gP a A q) (gP b B q') = ∏ k, ∫ x, ((q k).eval x * Real.exp (-a*(x-A k)^2)) * ((q' k).eval x * Real.exp (-b*(x-B k)^2)) := by
    unfold braket
    rw [← integral_fintype_prod_volume_eq_prod (fun k x => ((q k).eval x * Real.exp (-a*(x-A k)^2)) * ((q' k).eval x * Real.exp (-b*(x-B k)^2)))]
    congr 1
    funext r
    rw [h1, h1, ← Finset.prod_mul_distrib]
  rw [h2]
  simp_rw [int1_eq hab]
  rw [Finset.prod_mul_distrib, ← Real.exp_sum, Finset.mul_sum]

theorem integrable_gP {a b : ℝ} (hab : 0 < a + b) (A B : Pt) (q q' : Fin 3 → ℝ[X]) :
    Integrable fun r => gP a A q r * gP b B q' r := by
  have h1 : ∀ k : Fin 3, Integrable fun x : ℝ => ((q k).eval x * Real.exp (-a*(x-A k)^2)) * ((q' k).eval x * Real.exp (-b*(x-B k)^2)) := by
    intro k
    have := (integrable_poly_gauss hab ((a*A k+b*B k)/(a+b)) (q k * q' k)).const_mul
      (Real.exp (-(a*b/(a+b))*(A k-B k)^2))
    refine this.congr (Filter.Eventually.of_forall fun x => ?_)
    have := gauss_product hab.ne' (A k) (B k) x
    simp only [eval_mul]
    linear_combination -(q k).eval x * (q' k).eval x * this
  have := Integrable.fintype_prod (μ := fun _ : Fin 3 => (volume : Measure ℝ)) h1
  refine this.congr (Filter.Eventually.of_forall fun r => ?_)
  unfold gP
  dsimp only
  rw [Finset.prod_mul_distrib, Finset.prod_mul_distrib, Finset.prod_mul_distrib, ← Real.exp_sum, ← Real.exp_sum, Finset.mul_sum, Finset.mul_sum]

end Verif.Lemmas
