import Verif.Lemmas.OperGridsVal
import Mathlib.Analysis.Calculus.ParametricIntegral
import Mathlib.MeasureTheory.Group.Integral

/-! The derivative of an integral with the potential of a charge with respect to the position of the charge. -/
namespace Verif.Lemmas
open Verif Verif.Model Verif.Spec MeasureTheory Polynomial

/-- the point moved along axis `k` -/
def moved (k : Fin 3) (t : ℝ) (r : Pt) : Pt := Function.update r k (r k + t)

theorem moved_add (k : Fin 3) (t : ℝ) (r : Pt) : moved k t r = r + Pi.single k t := by
  funext j
  unfold moved
  rcases eq_or_ne j k with rfl | h
  · simp
  · simp [h]

theorem moved_zero (k : Fin 3) (r : Pt) : moved k 0 r = r := by unfold moved; simp

/-! ### Domination -/

theorem poly_bound (q : ℝ[X]) : ∃ R : ℝ[X], ∀ x t : ℝ, |t| ≤ 1 → |q.eval (x + t)| ≤ R.eval x := by
  induction q using Polynomial.induction_on' with
  | add p q hp hq =>
    obtain ⟨R, hR⟩ := hp
    obtain ⟨S, hS⟩ := hq
    refine ⟨R + S, fun x t ht => ?_⟩
    rw [eval_add, eval_add]
    exact (abs_add_le _ _).trans (add_le_add (hR x t ht) (hS x t ht))
  | monomial n c =>
    refine ⟨C |c| * (X^2 + C 2)^n, fun x t ht => ?_⟩
    rw [eval_monomial, abs_mul, abs_pow]
    simp only [eval_mul, eval_C, eval_pow, eval_add, eval_X]
    refine mul_le_mul_of_nonneg_left (pow_le_pow_left₀ (abs_nonneg _) ?_ n) (abs_nonneg _)
    refine (abs_add_le _ _).trans ?_
    nlinarith [sq_nonneg (|x| - 1/2), sq_abs x]

theorem pg_split (p : ℝ) (P : Pt) (q : Fin 3 → ℝ[X]) (r : Pt) (k : Fin 3) (x : ℝ) :
    pg p P q (Function.update r k x) = ((q k).eval x * Real.exp (-p*(x-P k)^2)) *
      ∏ k' ∈ Finset.univ.erase k, ((q k').eval (r k') * Real.exp (-p*(r k'-P k')^2)) := by
  unfold pg
  rw [← Finset.mul_prod_erase _ _ (Finset.mem_univ k)]
  congr 1
  · rw [Function.update_self]
  · refine Finset.prod_congr rfl (fun k' hk' => ?_)
    rw [Function.update_of_ne (Finset.ne_of_mem_erase hk')]

theorem exp_half {p : ℝ} (hp : 0 < p) {y t : ℝ} (ht : |t| ≤ 1) : Real.exp (-p*(y+t)^2) ≤ Real.exp p * Real.exp (-(p/2)*y^2) := by
  rw [← Real.exp_add]
  refine Real.exp_le_exp.2 ?_
  have h1 : t^2 ≤ 1 := by
    rw [← sq_abs]
    exact pow_le_one₀ (abs_nonneg t) ht
  have h2 : y^2/2 ≤ (y+t)^2 + t^2 := by nlinarith [sq_nonneg (y + 2*t)]
  nlinarith

/-- moved by at most 1, a Gaussian times a polynomial stays below another one -/
theorem pg_bound {p : ℝ} (hp : 0 < p) (P : Pt) (q : Fin 3 → ℝ[X]) (k : Fin 3) :
    ∃ q' : Fin 3 → ℝ[X], ∀ t r, |t| ≤ 1 → |pg p P q (moved k t r)| ≤ |pg (p/2) P q' r| := by
  obtain ⟨R, hR⟩ := poly_bound (q k)
  refine ⟨Function.update q k (C (Real.exp p) * R), fun t r ht => ?_⟩
  have h1 := pg_split (p/2) P (Function.update q k (C (Real.exp p) * R)) r k (r k)
  rw [Function.update_eq_self] at h1
  unfold moved
  rw [pg_split, h1, Function.update_self]
  refine (abs_mul _ _).le.trans (le_trans ?_ (abs_mul _ _).ge)
  rw [Finset.abs_prod, Finset.abs_prod]
  refine mul_le_mul ?_ (Finset.prod_le_prod (fun _ _ => abs_nonneg _) fun k' hk' => ?_)
    (Finset.prod_nonneg fun _ _ => abs_nonneg _) (abs_nonneg _)
  · rw [abs_mul, Real.abs_exp, abs_mul, Real.abs_exp, eval_mul, eval_C, abs_mul, Real.abs_exp]
    have h2 := hR (r k) t ht
    have h3 : Real.exp (-p*(r k + t - P k)^2) ≤ Real.exp p * Real.exp (-(p/2)*(r k - P k)^2) := by
      have := exp_half hp (y := r k - P k) ht
      rwa [show r k - P k + t = r k + t - P k by ring] at this
    calc |(q k).eval (r k + t)| * Real.exp (-p*(r k + t - P k)^2)
        ≤ |R.eval (r k)| * (Real.exp p * Real.exp (-(p/2)*(r k - P k)^2)) :=
          mul_le_mul (h2.trans (le_abs_self _)) h3 (Real.exp_pos _).le (abs_nonneg _)
      _ = _ := by ring
  · rw [Function.update_of_ne (Finset.ne_of_mem_erase hk'), abs_mul, abs_mul, Real.abs_exp, Real.abs_exp]
    refine mul_le_mul_of_nonneg_left (Real.exp_le_exp.2 ?_) (abs_nonneg _)
    nlinarith [sq_nonneg (r k' - P k')]

/-- a moved Gaussian times a polynomial is another one -/
theorem pg_moved (p : ℝ) (P : Pt) (q : Fin 3 → ℝ[X]) (k : Fin 3) (t : ℝ) (r : Pt) :
    pg p P q (moved k t r) = pg p (Function.update P k (P k - t)) (Function.update q k ((q k).comp (X + C t))) r := by
  have h1 := pg_split p (Function.update P k (P k - t)) (Function.update q k ((q k).comp (X + C t))) r k (r k)
  rw [Function.update_eq_self] at h1
  unfold moved
  rw [pg_split, h1, Function.update_self, Function.update_self]
  congr 1
  · rw [eval_comp, eval_add, eval_X, eval_C]
    congr 3
    ring
  · refine Finset.prod_congr rfl (fun k' hk' => ?_)
    rw [Function.update_of_ne (Finset.ne_of_mem_erase hk'), Function.update_of_ne (Finset.ne_of_mem_erase hk')]

/-- the derivative along axis `k`, as a map of the polynomials -/
noncomputable def dPoly (p : ℝ) (P : Pt) (k : Fin 3) (q : Fin 3 → ℝ[X]) : Fin 3 → ℝ[X] :=
  Function.update q k (elL p (P k) 0 .d (q k))

theorem pg_hasDeriv (p : ℝ) (P : Pt) (q : Fin 3 → ℝ[X]) (k : Fin 3) (t : ℝ) (r : Pt) :
    HasDerivAt (fun t => pg p P q (moved k t r)) (pg p P (dPoly p P k q) (moved k t r)) t := by
  have h0 := (gP_hasDeriv p (P k) 0 (q k) (r k + t)).mul_const
    (∏ k' ∈ Finset.univ.erase k, ((q k').eval (r k') * Real.exp (-p*(r k'-P k')^2)))
  have h1 : HasDerivAt (fun t : ℝ => r k + t) 1 t := (hasDerivAt_id t).const_add (r k)
  have h2 := HasDerivAt.comp t h0 h1
  rw [mul_one] at h2
  have e : pg p P (dPoly p P k q) (moved k t r) = ((elL p (P k) 0 .d (q k)).eval (r k + t) * Real.exp (-p*(r k + t-P k)^2)) *
      ∏ k' ∈ Finset.univ.erase k, ((q k').eval (r k') * Real.exp (-p*(r k'-P k')^2)) := by
    unfold moved dPoly
    rw [pg_split, Function.update_self]
    congr 1
    refine Finset.prod_congr rfl (fun k' hk' => ?_)
    rw [Function.update_of_ne (Finset.ne_of_mem_erase hk')]
  rw [e]
  refine h2.congr_of_eventuallyEq (Filter.Eventually.of_forall fun x => ?_)
  exact pg_split p P q r k (r k + x)

/-- differentiation under the integral -/
theorem int_pg_hasDeriv {p : ℝ} (hp : 0 < p) (P : Pt) (q : Fin 3 → ℝ[X]) (k : Fin 3) {V : Pt → ℝ} (hV : PotInt V) :
    HasDerivAt (fun t => ∫ r, pg p P q (moved k t r) * V r) (∫ r, pg p P (dPoly p P k q) r * V r) 0 := by
  obtain ⟨q', hq'⟩ := pg_bound hp P (dPoly p P k q) k
  have hint : ∀ (q : Fin 3 → ℝ[X]) (t : ℝ), Integrable fun r => pg p P q (moved k t r) * V r := by
    intro q t
    simp_rw [pg_moved]
    exact hV _ _ _ hp
  have := hasDerivAt_integral_of_dominated_loc_of_deriv_le (μ := volume) (F := fun t r => pg p P q (moved k t r) * V r)
    (F' := fun t r => pg p P (dPoly p P k q) (moved k t r) * V r) (x₀ := (0:ℝ)) (s := Metric.ball 0 1)
    (bound := fun r => |pg (p/2) P q' r * V r|) (Metric.ball_mem_nhds 0 one_pos)
    (Filter.Eventually.of_forall fun t => (hint q t).aestronglyMeasurable) (hint q 0) (hint _ 0).aestronglyMeasurable
    (Filter.Eventually.of_forall fun r t ht => by
      rw [Real.norm_eq_abs, abs_mul, abs_mul]
      refine mul_le_mul_of_nonneg_right (hq' t r ?_) (abs_nonneg _)
      rw [Metric.mem_ball, dist_zero_right, Real.norm_eq_abs] at ht
      exact ht.le)
    (hV _ _ _ (half_pos hp)).abs
    (Filter.Eventually.of_forall fun r t _ => (pg_hasDeriv p P q k t r).mul_const _)
  simpa only [moved_zero] using this.2

/-! ### Moving the charge -/

theorem coulomb_shift (C v r : Pt) : coulomb (C + v) (r + v) = coulomb C r := by
  unfold coulomb
  simp

theorem potential_shift (ζ : ℝ) (C v r : Pt) : potential ζ (C + v) (r + v) = potential ζ C r := by
  unfold potential
  by_cases h : 0 < ζ
  · rw [if_pos h, if_pos h, ← integral_add_right_eq_self (μ := volume) _ v]
    congr 1
    funext r'
    rw [coulomb_shift]
    unfold gaussCharge
    simp
  · rw [if_neg h, if_neg h, coulomb_shift]

theorem potInt_potential (ζ : ℝ) (C : Pt) : PotInt (potential ζ C) := fun _ P q hp => (int_pg_potential hp ζ P C q).1

/-- moving the charge is moving the functions the other way -/
theorem braketV_moved (ζ : ℝ) (C : Pt) (f g : Pt → ℝ) (k : Fin 3) (t : ℝ) :
    braketV (potential ζ (moved k t C)) f g = ∫ r, f (moved k t r) * potential ζ C r * g (moved k t r) := by
  unfold braketV
  rw [← integral_add_right_eq_self (μ := volume) _ (Pi.single k t)]
  congr 1
  funext r
  rw [moved_add, potential_shift, moved_add]

theorem elL_mul {a b : ℝ} (hab : a + b ≠ 0) (A B O : ℝ) (q q' : ℝ[X]) :
    elL (a+b) ((a*A+b*B)/(a+b)) O .d (q*q') = elL a A O .d q * q' + q * elL b B O .d q' := by
  show derivative (q*q') - C (2*(a+b)) * (X - C ((a*A+b*B)/(a+b))) * (q*q') =
    (derivative q - C (2*a) * (X - C A) * q) * q' + q * (derivative q' - C (2*b) * (X - C B) * q')
  have h : C (2*(a+b)) * (X - C ((a*A+b*B)/(a+b))) = C (2*a) * (X - C A) + C (2*b) * (X - C B) := by
    rw [mul_sub, mul_sub, mul_sub, ← C_mul, ← C_mul, ← C_mul,
      show 2*(a+b) * ((a*A+b*B)/(a+b)) = 2*a*A + 2*b*B by field_simp, show 2*(a+b) = 2*a + 2*b by ring, C_add, C_add]
    ring
  rw [h, derivative_mul]
  ring

/-- the elementary derivative of a Gaussian times a polynomial -/
noncomputable def dG (a : ℝ) (A : Pt) (k : Fin 3) (q : Fin 3 → ℝ[X]) : Fin 3 → ℝ[X] := Function.update q k (elL a (A k) 0 .d (q k))

theorem pg_update_add (p : ℝ) (P : Pt) (q : Fin 3 → ℝ[X]) (k : Fin 3) (u v : ℝ[X]) (r : Pt) :
    pg p P (Function.update q k (u + v)) r = pg p P (Function.update q k u) r + pg p P (Function.update q k v) r := by
  have h : ∀ w : ℝ[X], pg p P (Function.update q k w) r = (w.eval (r k) * Real.exp (-p*(r k-P k)^2)) *
      ∏ k' ∈ Finset.univ.erase k, ((q k').eval (r k') * Real.exp (-p*(r k'-P k')^2)) := by
    intro w
    have := pg_split p P (Function.update q k w) r k (r k)
    rw [Function.update_eq_self] at this
    rw [this, Function.update_self]
    congr 1
    refine Finset.prod_congr rfl (fun k' hk' => ?_)
    rw [Function.update_of_ne (Finset.ne_of_mem_erase hk')]
  rw [h, h, h, eval_add]
  ring

theorem update_mul (q q' : Fin 3 → ℝ[X]) (k : Fin 3) (u : ℝ[X]) :
    (fun j => Function.update q k u j * q' j) = Function.update (fun j => q j * q' j) k (u * q' k) := by
  funext j
  rcases eq_or_ne j k with rfl | h
  · simp
  · simp [h]

theorem update_mul' (q q' : Fin 3 → ℝ[X]) (k : Fin 3) (u : ℝ[X]) :
    (fun j => q j * Function.update q' k u j) = Function.update (fun j => q j * q' j) k (q k * u) := by
  funext j
  rcases eq_or_ne j k with rfl | h
  · simp
  · simp [h]

/-- the derivative with respect to the position of the charge -/
theorem braketV_hasDeriv {a b : ℝ} (hab : 0 < a + b) (ζ : ℝ) (C A B : Pt) (q q' : Fin 3 → ℝ[X]) (k : Fin 3) :
    HasDerivAt (fun t => braketV (potential ζ (moved k t C)) (gP a A q) (gP b B q'))
      (braketV (potential ζ C) (gP a A (dG a A k q)) (gP b B q') + braketV (potential ζ C) (gP a A q) (gP b B (dG b B k q'))) 0 := by
  have hV := potInt_potential ζ C
  have h1 := (int_pg_hasDeriv hab (fun k => (a*A k+b*B k)/(a+b)) (fun k => q k * q' k) k hV).const_mul
    (Real.exp (-(a*b/(a+b)) * ∑ k, (A k - B k)^2))
  refine (h1.congr_of_eventuallyEq (Filter.Eventually.of_forall fun t => ?_)).congr_deriv ?_
  · dsimp only
    rw [braketV_moved, ← integral_const_mul]
    congr 1
    funext r
    have := gP_mul hab.ne' A B q q' (moved k t r)
    linear_combination potential ζ C r * this
  · rw [(integrable_gP_pot hab A B _ _ hV).2, (integrable_gP_pot hab A B _ _ hV).2, ← mul_add]
    congr 1
    unfold potInt
    rw [← integral_add (hV _ _ _ hab) (hV _ _ _ hab)]
    congr 1
    funext r
    rw [← add_mul]
    congr 1
    unfold dPoly dG
    rw [update_mul, update_mul', ← pg_update_add, elL_mul hab.ne']

/-! ### Operators -/

theorem wordE_d (O a A : ℝ) (q : ℝ[X]) : elL a A O .d q = elL a A 0 .d q := rfl

theorem act_d (O A : Pt) (k : Fin 3) (w : Word) (a : ℝ) (q : Fin 3 → ℝ[X]) :
    Word.act O A ((.d, k) :: w) (gP a A q) = gP a A (dG a A k fun j => wordE a (A j) (O j) (along j w) (q j)) := by
  rw [act_gP]
  congr 1
  funext j
  unfold dG
  rw [along_cons]
  rcases eq_or_ne j k with rfl | h
  · rw [Function.update_self, if_pos rfl]; rfl
  · rw [Function.update_of_ne h, if_neg (fun e => h e.symm)]

theorem term_grad (O A B C : Pt) (ζ a b : ℝ) (n m : Fin 3 → ℕ) (hab : 0 < a + b) (k : Fin 3) (t : Term) :
    HasDerivAt (fun x => Term.valV (potential ζ (moved k x C)) O A B (gto a A n) (gto b B m) t)
      (Op.valV (potential ζ C) O A B (gto a A n) (gto b B m) (Op.grad k [t])) 0 := by
  unfold Op.grad Op.valV Term.valV
  simp only [List.flatMap_cons, List.flatMap_nil, List.append_nil, List.map_cons, List.map_nil, List.sum_cons, List.sum_nil, add_zero]
  rw [← mul_add]
  refine HasDerivAt.const_mul _ ?_
  rw [← Complex.ofReal_add, ← mul_add]
  refine HasDerivAt.ofReal_comp (HasDerivAt.const_mul _ ?_)
  rw [gto_gP, gto_gP]
  simp only [act_d]
  simp only [act_gP]
  exact braketV_hasDeriv hab ζ C A B _ _ k

theorem op_grad (O A B C : Pt) (ζ a b : ℝ) (n m : Fin 3 → ℕ) (hab : 0 < a + b) (k : Fin 3) (P : Op) :
    HasDerivAt (fun x => Op.valV (potential ζ (moved k x C)) O A B (gto a A n) (gto b B m) P)
      (Op.valV (potential ζ C) O A B (gto a A n) (gto b B m) (Op.grad k P)) 0 := by
  induction P with
  | nil => exact hasDerivAt_const _ _
  | cons t P ih =>
    have h := (term_grad O A B C ζ a b n m hab k t).add ih
    refine (h.congr_of_eventuallyEq (Filter.Eventually.of_forall fun x => ?_)).congr_deriv ?_
    · simp [Op.valV]
    · simp [Op.valV, Op.grad, add_assoc]

end Verif.Lemmas
