import Verif.Lemmas.Gauss
import Mathlib.MeasureTheory.Integral.Prod
import Mathlib.Analysis.SpecialFunctions.Sqrt
import Mathlib.Topology.Algebra.Polynomial

/-! Moments of two coupled Gaussians: one direction of the two-electron integrals. -/
namespace Verif.Lemmas
open Verif.Spec MeasureTheory Polynomial

/-- `e^(-a(x-P)²) e^(-b(y-Q)²) e^(-V(x-y)²)` -/
noncomputable def bw (a b V P Q : ℝ) (z : ℝ × ℝ) : ℝ :=
  Real.exp (-a*(z.1-P)^2) * Real.exp (-b*(z.2-Q)^2) * Real.exp (-V*(z.1-z.2)^2)

/-- the moment of `f(x) g(y)` -/
noncomputable def mom2 (a b V P Q : ℝ) (f g : ℝ[X]) : ℝ := ∫ z : ℝ × ℝ, f.eval z.1 * g.eval z.2 * bw a b V P Q z

theorem integrable_mom2 {a b V : ℝ} (ha : 0 < a) (hb : 0 < b) (hV : 0 ≤ V) (P Q : ℝ) (f g : ℝ[X]) :
    Integrable fun z : ℝ × ℝ => f.eval z.1 * g.eval z.2 * bw a b V P Q z := by
  have h1 := (integrable_poly_gauss ha P f).mul_prod (integrable_poly_gauss hb Q g)
  have h2 : Integrable (fun z : ℝ × ℝ => Real.exp (-V*(z.1-z.2)^2) *
      (f.eval z.1 * Real.exp (-a*(z.1-P)^2) * (g.eval z.2 * Real.exp (-b*(z.2-Q)^2)))) := by
    refine h1.bdd_mul (c := 1) ?_ ?_
    · exact (Continuous.aestronglyMeasurable (by fun_prop))
    · refine Filter.Eventually.of_forall fun z => ?_
      rw [Real.norm_eq_abs, abs_of_pos (Real.exp_pos _), Real.exp_le_one_iff]
      have := sq_nonneg (z.1 - z.2)
      nlinarith
  refine h2.congr (Filter.Eventually.of_forall fun z => ?_)
  unfold bw
  ring

theorem mom2_swap (a b V P Q : ℝ) (f g : ℝ[X]) : mom2 a b V P Q f g = mom2 b a V Q P g f := by
  unfold mom2
  have := integral_prod_swap (μ := (volume : Measure ℝ)) (ν := (volume : Measure ℝ))
    (fun z : ℝ × ℝ => f.eval z.1 * g.eval z.2 * bw a b V P Q z)
  rw [← Measure.volume_eq_prod] at this
  rw [← this]
  congr 1
  funext z
  unfold bw
  simp only [Prod.fst_swap, Prod.snd_swap]
  rw [show (z.2 - z.1)^2 = (z.1 - z.2)^2 by ring]
  ring

section
variable {a b V : ℝ} (ha : 0 < a) (hb : 0 < b) (hV : 0 ≤ V) (P Q : ℝ)
include ha hb hV

theorem mom2_add_left (f f' g : ℝ[X]) : mom2 a b V P Q (f + f') g = mom2 a b V P Q f g + mom2 a b V P Q f' g := by
  unfold mom2
  rw [← integral_add (integrable_mom2 ha hb hV P Q f g) (integrable_mom2 ha hb hV P Q f' g)]
  congr 1
  funext z
  rw [eval_add]
  ring

theorem mom2_add_right (f g g' : ℝ[X]) : mom2 a b V P Q f (g + g') = mom2 a b V P Q f g + mom2 a b V P Q f g' := by
  rw [mom2_swap, mom2_add_left hb ha hV, mom2_swap, mom2_swap b]
end

theorem mom2_C_left (a b V P Q c : ℝ) (f g : ℝ[X]) : mom2 a b V P Q (C c * f) g = c * mom2 a b V P Q f g := by
  unfold mom2
  rw [← integral_const_mul]
  congr 1
  funext z
  rw [eval_mul, eval_C]
  ring

theorem mom2_C_right (a b V P Q c : ℝ) (f g : ℝ[X]) : mom2 a b V P Q f (C c * g) = c * mom2 a b V P Q f g := by
  rw [mom2_swap, mom2_C_left, mom2_swap b]

theorem bw_product {a V : ℝ} (h : a + V ≠ 0) (b P Q x y : ℝ) : bw a b V P Q (x, y) =
    Real.exp (-b*(y-Q)^2) * Real.exp (-(a*V/(a+V))*(P-y)^2) * Real.exp (-(a+V)*(x-(a*P+V*y)/(a+V))^2) := by
  have := gauss_product h P y x
  unfold bw
  dsimp only
  linear_combination Real.exp (-b*(y-Q)^2) * this

/-- integration by parts -/
theorem mom2_parts {a b V : ℝ} (ha : 0 < a) (hb : 0 < b) (hV : 0 ≤ V) (P Q : ℝ) (f g : ℝ[X]) :
    mom2 a b V P Q (derivative f) g = 2*(a+V) * mom2 a b V P Q (X*f) g - 2*V * mom2 a b V P Q f (X*g) -
      2*a*P * mom2 a b V P Q f g := by
  have hs : 0 < a + V := by linarith
  have i1 := integrable_mom2 ha hb hV P Q (derivative f) g
  have i2 := (integrable_mom2 ha hb hV P Q (X*f) g).const_mul (2*(a+V))
  have i3 := (integrable_mom2 ha hb hV P Q f (X*g)).const_mul (2*V)
  have i4 := (integrable_mom2 ha hb hV P Q f g).const_mul (2*a*P)
  have hI := ((i1.sub i2).add i3).add i4
  have hz : ∫ z : ℝ × ℝ, ((derivative f).eval z.1 * g.eval z.2 * bw a b V P Q z -
      2*(a+V) * ((X*f).eval z.1 * g.eval z.2 * bw a b V P Q z) +
      2*V * (f.eval z.1 * (X*g).eval z.2 * bw a b V P Q z)) + 2*a*P * (f.eval z.1 * g.eval z.2 * bw a b V P Q z) = 0 := by
    rw [Measure.volume_eq_prod, integral_prod_symm _ (by rw [← Measure.volume_eq_prod]; exact hI)]
    refine integral_eq_zero_of_ae (Filter.Eventually.of_forall fun y => ?_)
    have key := moment_parts hs ((a*P+V*y)/(a+V)) f
    have hm : moment (a+V) ((a*P+V*y)/(a+V)) (derivative f + C (-(2*(a+V))) * ((X - C ((a*P+V*y)/(a+V))) * f)) = 0 := by
      rw [moment_add hs, moment_C_mul, key]
      field_simp
      ring
    have hc : (∫ x, g.eval y * Real.exp (-b*(y-Q)^2) * Real.exp (-(a*V/(a+V))*(P-y)^2) *
        ((derivative f + C (-(2*(a+V))) * ((X - C ((a*P+V*y)/(a+V))) * f)).eval x *
          Real.exp (-(a+V)*(x-(a*P+V*y)/(a+V))^2))) = 0 := by
      rw [integral_const_mul]
      have : (∫ x, (derivative f + C (-(2*(a+V))) * ((X - C ((a*P+V*y)/(a+V))) * f)).eval x *
          Real.exp (-(a+V)*(x-(a*P+V*y)/(a+V))^2)) = 0 := hm
      rw [this, mul_zero]
    show (∫ x, _) = (0:ℝ)
    rw [← hc]
    congr 1
    funext x
    rw [bw_product hs.ne' b P Q x y]
    simp only [eval_add, eval_mul, eval_C, eval_X, eval_sub]
    field_simp
    ring
  have e : ∫ z : ℝ × ℝ, ((derivative f).eval z.1 * g.eval z.2 * bw a b V P Q z -
      2*(a+V) * ((X*f).eval z.1 * g.eval z.2 * bw a b V P Q z) +
      2*V * (f.eval z.1 * (X*g).eval z.2 * bw a b V P Q z)) + 2*a*P * (f.eval z.1 * g.eval z.2 * bw a b V P Q z) =
      mom2 a b V P Q (derivative f) g - 2*(a+V) * mom2 a b V P Q (X*f) g + 2*V * mom2 a b V P Q f (X*g) +
      2*a*P * mom2 a b V P Q f g := by
    unfold mom2
    rw [← integral_const_mul, ← integral_const_mul, ← integral_const_mul]
    have e1 := integral_add ((i1.sub i2).add i3) i4
    have e2 := integral_add (i1.sub i2) i3
    have e3 := integral_sub i1 i2
    simp only [Pi.add_apply, Pi.sub_apply] at e1 e2
    rw [e1, e2, e3]
  rw [hz] at e
  linear_combination -e

/-- the other coordinate -/
theorem mom2_parts' {a b V : ℝ} (ha : 0 < a) (hb : 0 < b) (hV : 0 ≤ V) (P Q : ℝ) (f g : ℝ[X]) :
    mom2 a b V P Q f (derivative g) = 2*(b+V) * mom2 a b V P Q f (X*g) - 2*V * mom2 a b V P Q (X*f) g -
      2*b*Q * mom2 a b V P Q f g := by
  rw [mom2_swap, mom2_parts hb ha hV, mom2_swap b, mom2_swap b, mom2_swap b]

/-- both together: multiplication by a coordinate in terms of derivatives -/
theorem mom2_stein {a b V : ℝ} (ha : 0 < a) (hb : 0 < b) (hV : 0 ≤ V) (P Q : ℝ) (f g : ℝ[X]) :
    mom2 a b V P Q (X*f) g = (V+b)/(2*(V*(a+b)+a*b)) * mom2 a b V P Q (derivative f) g +
      V/(2*(V*(a+b)+a*b)) * mom2 a b V P Q f (derivative g) +
      (P - V*b/(V*(a+b)+a*b)*(P-Q)) * mom2 a b V P Q f g := by
  have hD : 0 < V*(a+b)+a*b := by positivity
  have h1 := mom2_parts ha hb hV P Q f g
  have h2 := mom2_parts' ha hb hV P Q f g
  rw [h1, h2]
  field_simp
  ring

theorem mom2_stein' {a b V : ℝ} (ha : 0 < a) (hb : 0 < b) (hV : 0 ≤ V) (P Q : ℝ) (f g : ℝ[X]) :
    mom2 a b V P Q f (X*g) = (V+a)/(2*(V*(a+b)+a*b)) * mom2 a b V P Q f (derivative g) +
      V/(2*(V*(a+b)+a*b)) * mom2 a b V P Q (derivative f) g +
      (Q + V*a/(V*(a+b)+a*b)*(P-Q)) * mom2 a b V P Q f g := by
  rw [mom2_swap, mom2_stein hb ha hV, mom2_swap b, mom2_swap b, mom2_swap b, add_comm b a, mul_comm b a]
  ring

/-- the norm -/
theorem mom2_one {a b V : ℝ} (ha : 0 < a) (hb : 0 < b) (hV : 0 ≤ V) (P Q : ℝ) :
    mom2 a b V P Q 1 1 = Real.pi / Real.sqrt (V*(a+b)+a*b) * Real.exp (-(a*b*V/(V*(a+b)+a*b))*(P-Q)^2) := by
  have hs : 0 < a + V := by linarith
  have hD : 0 < V*(a+b)+a*b := by positivity
  have hc : 0 ≤ a*V/(a+V) := by positivity
  have hsum : b + a*V/(a+V) = (V*(a+b)+a*b)/(a+V) := by field_simp; ring
  have hne : b + a*V/(a+V) ≠ 0 := by rw [hsum]; positivity
  unfold mom2
  rw [Measure.volume_eq_prod, integral_prod_symm _ (by
    rw [← Measure.volume_eq_prod]; exact integrable_mom2 ha hb hV P Q 1 1)]
  have h1 : ∀ y : ℝ, ∫ x, (1:ℝ[X]).eval x * (1:ℝ[X]).eval y * bw a b V P Q (x,y) =
      Real.sqrt (Real.pi/(a+V)) * Real.exp (-(b*(a*V/(a+V))/(b+a*V/(a+V)))*(Q-P)^2) *
        Real.exp (-(b+a*V/(a+V))*(y-(b*Q+a*V/(a+V)*P)/(b+a*V/(a+V)))^2) := by
    intro y
    have hg := gauss_product hne Q P y
    have h2 : ∀ x : ℝ, (1:ℝ[X]).eval x * (1:ℝ[X]).eval y * bw a b V P Q (x,y) =
        Real.exp (-b*(y-Q)^2) * Real.exp (-(a*V/(a+V))*(P-y)^2) *
          ((1:ℝ[X]).eval x * Real.exp (-(a+V)*(x-(a*P+V*y)/(a+V))^2)) := by
      intro x
      rw [bw_product hs.ne']
      simp only [eval_one]
      ring
    simp_rw [h2]
    rw [integral_const_mul]
    have h3 := moment_one (p := a+V) ((a*P+V*y)/(a+V))
    unfold moment at h3
    rw [h3]
    rw [show (P-y)^2 = (y-P)^2 by ring]
    linear_combination Real.sqrt (Real.pi/(a+V)) * hg
  dsimp only
  simp_rw [h1]
  rw [integral_const_mul]
  have h4 := moment_one (p := b+a*V/(a+V)) ((b*Q+a*V/(a+V)*P)/(b+a*V/(a+V)))
  unfold moment at h4
  simp only [eval_one, one_mul] at h4
  rw [h4]
  have e1 : b*(a*V/(a+V))/(b+a*V/(a+V)) = a*b*V/(V*(a+b)+a*b) := by
    rw [hsum]; field_simp
  have e2 : Real.sqrt (Real.pi/(a+V)) * Real.sqrt (Real.pi/(b+a*V/(a+V))) = Real.pi / Real.sqrt (V*(a+b)+a*b) := by
    rw [← Real.sqrt_mul (by positivity), hsum]
    have : Real.pi/(a+V) * (Real.pi/((V*(a+b)+a*b)/(a+V))) = Real.pi^2/(V*(a+b)+a*b) := by
      field_simp
    rw [this, Real.sqrt_div (by positivity), Real.sqrt_sq Real.pi_pos.le]
  rw [e1, show (Q-P)^2 = (P-Q)^2 by ring, ← e2]
  ring

/-! ### The moments as polynomials in `ρ`, `V = ab/(a+b) ρ/(1-ρ)` -/

section
variable (a b P Q : ℝ)

noncomputable def pB00 : ℝ[X] := C (1/(2*(a+b))) * X
noncomputable def pB10 : ℝ[X] := C (1/(2*a)) * (1 - C (b/(a+b)) * X)
noncomputable def pB01 : ℝ[X] := C (1/(2*b)) * (1 - C (a/(a+b)) * X)
noncomputable def pM1 : ℝ[X] := C P - C (b/(a+b)*(P-Q)) * X
noncomputable def pM2 : ℝ[X] := C Q + C (a/(a+b)*(P-Q)) * X

/-- normalised moments of `y^m` -/
noncomputable def redPow0 : ℕ → ℝ[X]
  | 0 => 1
  | 1 => pM2 a b P Q
  | m+2 => C ((m+1 : ℕ) : ℝ) * pB01 a b * redPow0 m + pM2 a b P Q * redPow0 (m+1)

/-- normalised moments of `x^n y^m` -/
noncomputable def redPow2 : ℕ → ℕ → ℝ[X]
  | 0, m => redPow0 a b P Q m
  | 1, m => C (m : ℝ) * pB00 a b * redPow0 a b P Q (m-1) + pM1 a b P Q * redPow0 a b P Q m
  | n+2, m => C ((n+1 : ℕ) : ℝ) * pB10 a b * redPow2 n m + C (m : ℝ) * pB00 a b * redPow2 (n+1) (m-1) +
      pM1 a b P Q * redPow2 (n+1) m

theorem redPow0_succ (m : ℕ) : redPow0 a b P Q (m+1) =
    C (m : ℝ) * pB01 a b * redPow0 a b P Q (m-1) + pM2 a b P Q * redPow0 a b P Q m := by
  cases m with
  | zero => simp [redPow0]
  | succ m => rw [redPow0]; rfl

theorem redPow2_succ (n m : ℕ) : redPow2 a b P Q (n+1) m =
    C (n : ℝ) * pB10 a b * redPow2 a b P Q (n-1) m + C (m : ℝ) * pB00 a b * redPow2 a b P Q n (m-1) +
      pM1 a b P Q * redPow2 a b P Q n m := by
  cases n with
  | zero => simp [redPow2]
  | succ n => rw [redPow2]; rfl

theorem redPow0_degree (m : ℕ) : (redPow0 a b P Q m).natDegree ≤ m := by
  have h1 : (pM2 a b P Q).natDegree ≤ 1 := by
    unfold pM2
    refine (natDegree_add_le _ _).trans (max_le (by simp) ?_)
    exact (natDegree_C_mul_le _ _).trans (by simp)
  have h2 : ∀ c : ℝ, (C c * pB01 a b).natDegree ≤ 1 := by
    intro c
    unfold pB01
    refine (natDegree_C_mul_le _ _).trans ((natDegree_C_mul_le _ _).trans ((natDegree_sub_le _ _).trans ?_))
    refine max_le (by simp) ((natDegree_C_mul_le _ _).trans (by simp))
  induction m using Nat.strong_induction_on with
  | _ m ih =>
    cases m with
    | zero => simp [redPow0]
    | succ m =>
      rw [redPow0_succ]
      have i1 := ih m (by omega)
      refine (natDegree_add_le _ _).trans (max_le ?_ ?_)
      · cases m with
        | zero => simp
        | succ m =>
          have := ih m (by omega)
          refine natDegree_mul_le.trans ?_
          have := h2 ((m+1 : ℕ) : ℝ)
          simp only [Nat.add_sub_cancel] at *
          omega
      · refine natDegree_mul_le.trans ?_
        omega

theorem redPow2_degree (n m : ℕ) : (redPow2 a b P Q n m).natDegree ≤ n + m := by
  have h1 : (pM1 a b P Q).natDegree ≤ 1 := by
    unfold pM1
    refine (natDegree_sub_le _ _).trans (max_le (by simp) ?_)
    exact (natDegree_C_mul_le _ _).trans (by simp)
  have h2 : ∀ c : ℝ, (C c * pB10 a b).natDegree ≤ 1 := by
    intro c
    unfold pB10
    refine (natDegree_C_mul_le _ _).trans ((natDegree_C_mul_le _ _).trans ((natDegree_sub_le _ _).trans ?_))
    refine max_le (by simp) ((natDegree_C_mul_le _ _).trans (by simp))
  have h3 : ∀ c : ℝ, (C c * pB00 a b).natDegree ≤ 1 := by
    intro c
    unfold pB00
    exact (natDegree_C_mul_le _ _).trans ((natDegree_C_mul_le _ _).trans (by simp))
  induction n using Nat.strong_induction_on generalizing m with
  | _ n ih =>
    cases n with
    | zero => rw [redPow2]; have := redPow0_degree a b P Q m; omega
    | succ n =>
      rw [redPow2_succ]
      have i1 := ih n (by omega) m
      have i2 := ih n (by omega) (m-1)
      refine (natDegree_add_le _ _).trans (max_le ((natDegree_add_le _ _).trans (max_le ?_ ?_)) ?_)
      · cases n with
        | zero => simp
        | succ n =>
          have := ih n (by omega) m
          refine natDegree_mul_le.trans ?_
          have := h2 ((n+1 : ℕ) : ℝ)
          simp only [Nat.add_sub_cancel] at *
          omega
      · cases m with
        | zero => simp
        | succ m =>
          refine natDegree_mul_le.trans ?_
          have := h3 ((m+1 : ℕ) : ℝ)
          simp only [Nat.add_sub_cancel] at *
          omega
      · refine natDegree_mul_le.trans ?_
        omega

/-- the same for polynomials -/
noncomputable def red2 (f g : ℝ[X]) : ℝ[X] :=
  ∑ n ∈ Finset.range (f.natDegree + 1), ∑ m ∈ Finset.range (g.natDegree + 1),
    C (f.coeff n * g.coeff m) * redPow2 a b P Q n m

theorem red2_degree (f g : ℝ[X]) : (red2 a b P Q f g).natDegree ≤ f.natDegree + g.natDegree := by
  refine natDegree_sum_le_of_forall_le _ _ (fun n hn => natDegree_sum_le_of_forall_le _ _ (fun m hm => ?_))
  rw [Finset.mem_range] at hn hm
  exact (natDegree_C_mul_le _ _).trans ((redPow2_degree a b P Q n m).trans (by omega))

theorem red2_one : red2 a b P Q 1 1 = 1 := by
  unfold red2
  simp [redPow2, redPow0]
end

section
variable {a b V : ℝ} (ha : 0 < a) (hb : 0 < b) (hV : 0 ≤ V) (P Q : ℝ)
include ha hb hV

theorem mom2_sum_left {ι : Type} (s : Finset ι) (f : ι → ℝ[X]) (g : ℝ[X]) :
    mom2 a b V P Q (∑ i ∈ s, f i) g = ∑ i ∈ s, mom2 a b V P Q (f i) g := by
  classical
  induction s using Finset.induction_on with
  | empty => simp [mom2]
  | insert i s hi ih => rw [Finset.sum_insert hi, Finset.sum_insert hi, mom2_add_left ha hb hV, ih]

theorem mom2_sum_right {ι : Type} (s : Finset ι) (f : ℝ[X]) (g : ι → ℝ[X]) :
    mom2 a b V P Q f (∑ i ∈ s, g i) = ∑ i ∈ s, mom2 a b V P Q f (g i) := by
  rw [mom2_swap, mom2_sum_left hb ha hV]
  exact Finset.sum_congr rfl fun i _ => mom2_swap _ _ _ _ _ _ _
end

theorem rho_coeffs {a b ρ : ℝ} (ha : 0 < a) (hb : 0 < b) (hρ : ρ < 1) {V : ℝ} (hV : V = a*b/(a+b)*ρ/(1-ρ)) :
    V*(a+b)+a*b = a*b/(1-ρ) ∧ (V+b)/(2*(V*(a+b)+a*b)) = (pB10 a b).eval ρ ∧
      (V+a)/(2*(V*(a+b)+a*b)) = (pB01 a b).eval ρ ∧ V/(2*(V*(a+b)+a*b)) = (pB00 a b).eval ρ ∧
      (∀ P Q : ℝ, P - V*b/(V*(a+b)+a*b)*(P-Q) = (pM1 a b P Q).eval ρ) ∧
      (∀ P Q : ℝ, Q + V*a/(V*(a+b)+a*b)*(P-Q) = (pM2 a b P Q).eval ρ) ∧
      a*b*V/(V*(a+b)+a*b) = a*b/(a+b)*ρ := by
  have h1 : 0 < 1 - ρ := by linarith
  have hs : 0 < a + b := by positivity
  have hD : V*(a+b)+a*b = a*b/(1-ρ) := by subst hV; field_simp; ring
  refine ⟨hD, ?_, ?_, ?_, fun P Q => ?_, fun P Q => ?_, ?_⟩
  all_goals rw [hD]
  all_goals subst hV
  all_goals try simp only [pB10, pB01, pB00, pM1, pM2, eval_mul, eval_C, eval_sub, eval_add, eval_one, eval_X]
  all_goals field_simp
  all_goals try ring

theorem mom2_redPow {a b ρ : ℝ} (ha : 0 < a) (hb : 0 < b) (h0 : 0 ≤ ρ) (hρ : ρ < 1) (P Q : ℝ) (n m : ℕ) :
    mom2 a b (a*b/(a+b)*ρ/(1-ρ)) P Q (X^n) (X^m) =
      mom2 a b (a*b/(a+b)*ρ/(1-ρ)) P Q 1 1 * (redPow2 a b P Q n m).eval ρ := by
  have h1 : 0 < 1 - ρ := by linarith
  have hV : 0 ≤ a*b/(a+b)*ρ/(1-ρ) := by positivity
  obtain ⟨hD, e10, e01, e00, eM1, eM2, _⟩ := rho_coeffs ha hb hρ rfl
  have d : ∀ k : ℕ, derivative (X^k : ℝ[X]) = C (k:ℝ) * X^(k-1) := fun k => derivative_X_pow k
  have d1 : derivative (1 : ℝ[X]) = C 0 * 1 := by simp
  have hy : ∀ m, mom2 a b (a*b/(a+b)*ρ/(1-ρ)) P Q 1 (X^m) =
      mom2 a b (a*b/(a+b)*ρ/(1-ρ)) P Q 1 1 * (redPow0 a b P Q m).eval ρ := by
    intro m
    induction m using Nat.strong_induction_on with
    | _ m ih =>
      cases m with
      | zero => simp [redPow0]
      | succ m =>
        rw [pow_succ', mom2_stein' ha hb hV, d, d1, mom2_C_right, mom2_C_left, ih m (by omega), ih (m-1) (by omega),
          redPow0_succ, e01, eM2]
        simp only [eval_add, eval_mul, eval_C]
        ring
  induction n using Nat.strong_induction_on generalizing m with
  | _ n ih =>
    cases n with
    | zero => rw [pow_zero, hy m, redPow2]
    | succ n =>
      rw [pow_succ', mom2_stein ha hb hV, d, d, mom2_C_right, mom2_C_left, ih n (by omega), ih (n-1) (by omega), ih n (by omega),
        redPow2_succ, e10, e00, eM1]
      simp only [eval_add, eval_mul, eval_C]
      ring

theorem mom2_red2 {a b ρ : ℝ} (ha : 0 < a) (hb : 0 < b) (h0 : 0 ≤ ρ) (hρ : ρ < 1) (P Q : ℝ) (f g : ℝ[X]) :
    mom2 a b (a*b/(a+b)*ρ/(1-ρ)) P Q f g =
      mom2 a b (a*b/(a+b)*ρ/(1-ρ)) P Q 1 1 * (red2 a b P Q f g).eval ρ := by
  have h1 : 0 < 1 - ρ := by linarith
  have hV : 0 ≤ a*b/(a+b)*ρ/(1-ρ) := by positivity
  conv_lhs => rw [f.as_sum_range_C_mul_X_pow, g.as_sum_range_C_mul_X_pow]
  rw [mom2_sum_left ha hb hV]
  unfold red2
  rw [eval_finset_sum, Finset.mul_sum]
  refine Finset.sum_congr rfl (fun n _ => ?_)
  rw [mom2_sum_right ha hb hV, eval_finset_sum, Finset.mul_sum]
  refine Finset.sum_congr rfl (fun m _ => ?_)
  rw [mom2_C_left, mom2_C_right, mom2_redPow ha hb h0 hρ, eval_mul, eval_C]
  ring

/-- the norm in terms of `ρ` -/
theorem mom2_one_rho {a b ρ : ℝ} (ha : 0 < a) (hb : 0 < b) (h0 : 0 ≤ ρ) (hρ : ρ < 1) (P Q : ℝ) :
    mom2 a b (a*b/(a+b)*ρ/(1-ρ)) P Q 1 1 =
      Real.pi / Real.sqrt (a*b) * Real.sqrt (1-ρ) * Real.exp (-(a*b/(a+b)*ρ)*(P-Q)^2) := by
  have h1 : 0 < 1 - ρ := by linarith
  have hV : 0 ≤ a*b/(a+b)*ρ/(1-ρ) := by positivity
  obtain ⟨hD, _, _, _, _, _, ee⟩ := rho_coeffs ha hb hρ rfl
  rw [mom2_one ha hb hV, ee, hD, Real.sqrt_div (by positivity)]
  have := Real.sqrt_pos.2 h1
  field_simp

end Verif.Lemmas
