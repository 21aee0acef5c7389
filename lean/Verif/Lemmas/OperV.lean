import Verif.Lemmas.OperEval
import Verif.Lemmas.OperRys
import Verif.Lemmas.OperVKey
import Verif.Props.Nuc

/-! The generated one-electron integrals with a potential evaluate sums of operators. -/
namespace Verif.Lemmas
open Verif Verif.Model Verif.Spec Verif.Prog Verif.Props MeasureTheory Polynomial

/-! ### Degrees -/

theorem elL_degree (a A O : ℝ) (e : El) (q : ℝ[X]) : (elL a A O e q).natDegree ≤ q.natDegree + 1 := by
  have hX : ∀ c : ℝ, ((X - C c) * q).natDegree ≤ q.natDegree + 1 := fun c => by
    refine natDegree_mul_le.trans ?_
    rw [natDegree_X_sub_C, Nat.add_comm]
  cases e with
  | d =>
    show (derivative q - C (2*a) * (X - C A) * q).natDegree ≤ _
    refine (natDegree_sub_le _ _).trans (max_le ?_ ?_)
    · exact (natDegree_derivative_le q).trans (by omega)
    · rw [mul_assoc]
      exact (natDegree_C_mul_le _ _).trans (hX A)
  | r0 =>
    show (X * q).natDegree ≤ _
    have := hX 0
    rwa [C_0, sub_zero] at this
  | rc => exact hX O
  | ro => exact hX A

theorem wordE_degree (a A O : ℝ) (w : List El) (q : ℝ[X]) : (wordE a A O w q).natDegree ≤ q.natDegree + w.length := by
  induction w with
  | nil => exact le_refl _
  | cons e w ih =>
    rw [wordE_cons]
    refine (elL_degree _ _ _ _ _).trans ?_
    rw [List.length_cons]
    omega

theorem onIdx_length (w : List (GOp × Fin 4)) : (onIdx 0 w).length + (onIdx 1 w).length ≤ w.length := by
  induction w with
  | nil => exact le_refl _
  | cons o w ih =>
    rw [onIdx_cons, onIdx_cons, List.length_cons]
    by_cases h0 : o.2 = 0
    · rw [if_pos h0, if_neg (by rw [h0]; decide), List.length_append]
      simp only [List.length_cons, List.length_nil]
      omega
    · rw [if_neg h0]
      split
      · rw [List.length_append]; simp only [List.length_cons, List.length_nil]; omega
      · omega

/-! ### Values of keys -/

/-- the polynomials of the product of two primitives with operators on them -/
noncomputable def PairOf.poly (S : PairOf) (bra ket : List (List El)) (k : Fin 3) : ℝ[X] :=
  wordE S.a (S.A k) (S.O k) (bra.getD k []) ((X - C (S.A k))^S.n k) *
    wordE S.b (S.B k) (S.O k) (ket.getD k []) ((X - C (S.B k))^S.m k)

/-- the value of a key, for a functional of the three polynomials -/
noncomputable def PairOf.keyV (S : PairOf) (I : (Fin 3 → ℝ[X]) → ℝ) (K : Key) : ℝ :=
  S.geo K.geo * I (S.poly K.bra K.ket)

theorem gP_mul {a b : ℝ} (hab : a + b ≠ 0) (A B : Pt) (q q' : Fin 3 → ℝ[X]) (r : Pt) :
    gP a A q r * gP b B q' r = Real.exp (-(a*b/(a+b)) * ∑ k, (A k - B k)^2) *
      pg (a+b) (fun k => (a*A k+b*B k)/(a+b)) (fun k => q k * q' k) r := by
  have h1 : ∀ (a : ℝ) (A : Pt) (q : Fin 3 → ℝ[X]) r, gP a A q r = ∏ k', ((q k').eval (r k') * Real.exp (-a*(r k'-A k')^2)) := by
    intro a A q r
    unfold gP
    rw [Finset.prod_mul_distrib, ← Real.exp_sum, Finset.mul_sum]
  rw [h1, h1, ← Finset.prod_mul_distrib, Finset.mul_sum, Real.exp_sum, pg, ← Finset.prod_mul_distrib]
  refine Finset.prod_congr rfl (fun k _ => ?_)
  have := gauss_product hab (A k) (B k) (r k)
  simp only [eval_mul]
  linear_combination (q k).eval (r k) * (q' k).eval (r k) * this

/-- the integral of a Gaussian times a polynomial with the potential of a list of charges -/
noncomputable def srcInt (l : List (Src ℝ)) (p : ℝ) (P : Pt) (q : Fin 3 → ℝ[X]) : ℝ :=
  (l.map fun S => S.q * ∫ r, pg p P q r * potential S.zeta (fun k => S.r k) r).sum

theorem integrable_gP_src {a b : ℝ} (hab : 0 < a + b) (A B : Pt) (q q' : Fin 3 → ℝ[X]) (l : List (Src ℝ)) :
    Integrable (fun r => gP a A q r * srcPotential l r * gP b B q' r) ∧
    braketV (srcPotential l) (gP a A q) (gP b B q') =
      Real.exp (-(a*b/(a+b)) * ∑ k, (A k - B k)^2) *
        srcInt l (a+b) (fun k => (a*A k+b*B k)/(a+b)) (fun k => q k * q' k) := by
  have hsingle : ∀ S : Src ℝ, Integrable (fun r => gP a A q r * potential S.zeta (fun k => S.r k) r * gP b B q' r) := by
    intro S
    have := (int_pg_potential hab S.zeta (fun k => (a*A k+b*B k)/(a+b)) (fun k => S.r k) (fun k => q k * q' k)).1.const_mul
      (Real.exp (-(a*b/(a+b)) * ∑ k, (A k - B k)^2))
    refine this.congr (Filter.Eventually.of_forall fun r => ?_)
    have := gP_mul hab.ne' A B q q' r
    dsimp only
    linear_combination -potential S.zeta (fun k => S.r k) r * this
  unfold srcInt
  induction l with
  | nil =>
    have : (fun r => gP a A q r * srcPotential [] r * gP b B q' r) = fun _ => 0 := by
      funext r; simp [srcPotential]
    refine ⟨by rw [this]; exact integrable_zero _ _ _, ?_⟩
    unfold braketV
    rw [this]
    simp
  | cons S l ih =>
    obtain ⟨i1, i2⟩ := ih
    have h0 := (hsingle S).const_mul S.q
    have he : (fun r => gP a A q r * srcPotential (S::l) r * gP b B q' r) = fun r =>
        S.q * (gP a A q r * potential S.zeta (fun k => S.r k) r * gP b B q' r) +
          gP a A q r * srcPotential l r * gP b B q' r := by
      funext r
      simp only [srcPotential, List.map_cons, List.sum_cons]
      ring
    refine ⟨by rw [he]; exact h0.add i1, ?_⟩
    unfold braketV at i2 ⊢
    rw [he, integral_add h0 i1, i2, List.map_cons, List.sum_cons, mul_add]
    congr 1
    rw [integral_const_mul, ← mul_assoc, mul_comm (Real.exp _), mul_assoc]
    congr 1
    rw [← integral_const_mul]
    congr 1
    funext r
    have := gP_mul hab.ne' A B q q' r
    linear_combination potential S.zeta (fun k => S.r k) r * this

/-- the centre of the product Gaussian -/
noncomputable def PairOf.cen (S : PairOf) : Pt := fun k => (S.a*S.A k+S.b*S.B k)/(S.a+S.b)

theorem term_valV (S : PairOf) (h : 0 < S.a + S.b) (l : List (Src ℝ)) (t : Term) :
    Term.valV (srcPotential l) S.O S.A S.B (gto S.a S.A S.n) (gto S.b S.B S.m) t =
      ((t.re : ℂ) + Complex.I * (t.im : ℂ)) * ((S.pre * S.keyV (srcInt l (S.a+S.b) S.cen) (termKey t) : ℝ) : ℂ) := by
  unfold Term.valV
  congr 2
  rw [gto_gP, gto_gP, act_gP, act_gP, (integrable_gP_src h _ _ _ _ _).2, S.geo_list]
  unfold PairOf.keyV PairOf.pre
  have hp : (fun k => wordE S.a (S.A k) (S.O k) (along k t.bra) ((X - C (S.A k))^S.n k) *
      wordE S.b (S.B k) (S.O k) (along k t.ket) ((X - C (S.B k))^S.m k)) = S.poly (termKey t).bra (termKey t).ket := by
    funext k
    fin_cases k <;> rfl
  rw [hp]
  exact mul_left_comm _ _ _

theorem op_valV (S : PairOf) (h : 0 < S.a + S.b) (l : List (Src ℝ)) (P : Op) :
    Op.valV (srcPotential l) S.O S.A S.B (gto S.a S.A S.n) (gto S.b S.B S.m) P =
      ((S.pre * sumVal (S.keyV (srcInt l (S.a+S.b) S.cen)) (opRe P) : ℝ) : ℂ) +
        Complex.I * ((S.pre * sumVal (S.keyV (srcInt l (S.a+S.b) S.cen)) (opIm P) : ℝ) : ℂ) := by
  induction P with
  | nil => simp [Op.valV, sumVal, opRe, opIm]
  | cons t P ih =>
    have h1 : Op.valV (srcPotential l) S.O S.A S.B (gto S.a S.A S.n) (gto S.b S.B S.m) (t :: P) =
        Term.valV (srcPotential l) S.O S.A S.B (gto S.a S.A S.n) (gto S.b S.B S.m) t +
          Op.valV (srcPotential l) S.O S.A S.B (gto S.a S.A S.n) (gto S.b S.B S.m) P := by
      simp [Op.valV]
    have h2 : ∀ v : Key → ℝ, sumVal v (opRe (t :: P)) = (t.re : ℝ) * v (termKey t) + sumVal v (opRe P) := by
      intro v; simp [sumVal, opRe]
    have h3 : ∀ v : Key → ℝ, sumVal v (opIm (t :: P)) = (t.im : ℝ) * v (termKey t) + sumVal v (opIm P) := by
      intro v; simp [sumVal, opIm]
    rw [h1, ih, term_valV S h, h2, h3]
    push_cast
    ring

theorem braketV_sum {ι κ : Type} (s : Finset ι) (s' : Finset κ) (c a : ι → ℝ) (c' b : κ → ℝ) (A B : Pt)
    (q : ι → Fin 3 → ℝ[X]) (q' : κ → Fin 3 → ℝ[X]) (l : List (Src ℝ)) (h : ∀ i ∈ s, ∀ j ∈ s', 0 < a i + b j) :
    braketV (srcPotential l) (fun r => ∑ i ∈ s, c i * gP (a i) A (q i) r) (fun r => ∑ j ∈ s', c' j * gP (b j) B (q' j) r) =
      ∑ j ∈ s', ∑ i ∈ s, c' j * (c i * braketV (srcPotential l) (gP (a i) A (q i)) (gP (b j) B (q' j))) := by
  unfold braketV
  simp_rw [← integral_const_mul]
  have hint : ∀ j ∈ s', ∀ i ∈ s, Integrable fun r => c' j * (c i * (gP (a i) A (q i) r * srcPotential l r * gP (b j) B (q' j) r)) :=
    fun j hj i hi => ((integrable_gP_src (h i hi j hj) A B (q i) (q' j) l).1.const_mul _).const_mul _
  have h2 : ∀ j ∈ s', (∑ i ∈ s, ∫ r, c' j * (c i * (gP (a i) A (q i) r * srcPotential l r * gP (b j) B (q' j) r))) =
      ∫ r, ∑ i ∈ s, c' j * (c i * (gP (a i) A (q i) r * srcPotential l r * gP (b j) B (q' j) r)) :=
    fun j hj => (integral_finsetSum _ (hint j hj)).symm
  rw [Finset.sum_congr rfl h2, ← integral_finsetSum _ (fun j hj => integrable_finsetSum _ (hint j hj))]
  congr 1
  funext r
  rw [Finset.sum_mul, Finset.sum_mul_sum, Finset.sum_comm]
  refine Finset.sum_congr rfl (fun j _ => Finset.sum_congr rfl (fun i _ => ?_))
  ring

/-- the integral over contracted functions is the contraction of the integrals over primitives -/
theorem op_valV_cgto {O A B : Pt} {ni nj : ℕ} {ai ci aj cj : ℕ → ℝ} {n m : Fin 3 → ℕ} {ic jc : ℕ} (l : List (Src ℝ)) (P : Op)
    (h : ∀ ip jp, ip < ni → jp < nj → 0 < ai ip + aj jp) :
    Op.valV (srcPotential l) O A B (cgto ni ai ci A ic n) (cgto nj aj cj B jc m) P =
      ∑ jp ∈ Finset.range nj, ∑ ip ∈ Finset.range ni, ((cj (nj*jc+jp) : ℝ) : ℂ) * (((ci (ni*ic+ip) : ℝ) : ℂ) *
        Op.valV (srcPotential l) O A B (gto (ai ip) A n) (gto (aj jp) B m) P) := by
  have hc : ∀ (np : ℕ) (a c : ℕ → ℝ) (R : Pt) (ic : ℕ) (n : Fin 3 → ℕ), cgto np a c R ic n =
      fun r => ∑ ip ∈ Finset.range np, c (np*ic+ip) * gP (a ip) R (fun k => (X - C (R k))^n k) r := by
    intro np a c R ic n
    funext r
    unfold cgto
    simp_rw [gto_gP]
  have ht : ∀ t : Term, Term.valV (srcPotential l) O A B (cgto ni ai ci A ic n) (cgto nj aj cj B jc m) t =
      ∑ jp ∈ Finset.range nj, ∑ ip ∈ Finset.range ni, ((cj (nj*jc+jp) : ℝ) : ℂ) * (((ci (ni*ic+ip) : ℝ) : ℂ) *
        Term.valV (srcPotential l) O A B (gto (ai ip) A n) (gto (aj jp) B m) t) := by
    intro t
    unfold Term.valV
    rw [hc, hc, act_sum, act_sum, braketV_sum _ _ _ _ _ _ _ _ _ _ _ (fun i hi j hj => h i j (Finset.mem_range.1 hi) (Finset.mem_range.1 hj))]
    simp_rw [gto_gP, act_gP]
    push_cast
    simp_rw [Finset.mul_sum]
    refine Finset.sum_congr rfl (fun j _ => Finset.sum_congr rfl (fun i _ => ?_))
    ring
  induction P with
  | nil => simp [Op.valV]
  | cons t P ih =>
    have h1 : ∀ f g, Op.valV (srcPotential l) O A B f g (t :: P) = Term.valV (srcPotential l) O A B f g t +
        Op.valV (srcPotential l) O A B f g P := by
      intro f g; simp [Op.valV]
    simp_rw [h1]
    rw [ih, ht]
    simp_rw [mul_add, Finset.sum_add_distrib]

/-! ### Quadrature -/

/-- moments of the Gaussian of a root as a linear functional -/
noncomputable def rootL (p P c ρ : ℝ) : ℝ[X] →ₗ[ℝ] ℝ :=
  if h : 0 < p/(1-ρ) then (1/Real.sqrt (Real.pi/(p/(1-ρ)))) • momentL h (P + ρ*(c-P)) else 0

theorem rootL_apply {p P c ρ : ℝ} (hp : 0 < p) (hρ : ρ < 1) (q : ℝ[X]) : rootL p P c ρ q = rootMom p P c ρ q := by
  have h : 0 < p/(1-ρ) := div_pos hp (by linarith)
  unfold rootL rootMom
  rw [dif_pos h, LinearMap.smul_apply, smul_eq_mul, one_div_mul_eq_div]
  rfl

/-- the intermediates as functionals of the polynomials of the functions -/
noncomputable def nucL (F : Nat → ℝ) (p : ℝ) (P c ρ : Nat → ℝ) (k r : Nat) :
    MultilinearMap ℝ (fun _ : Fin 4 => ℝ[X]) ℝ :=
  (nucFac F k r • rootL p (P k) (c k) (ρ r)).compMultilinearMap (MultilinearMap.mkPiAlgebra ℝ (Fin 4) ℝ[X])

theorem nucL_apply (F : Nat → ℝ) {p : ℝ} (hp : 0 < p) (P c ρ : Nat → ℝ) (k r : Nat) (hρ : ρ r < 1) (q : Fin 4 → ℝ[X]) :
    nucL F p P c ρ k r q = nucFac F k r * rootMom p (P k) (c k) (ρ r) (q 0 * q 1 * q 2 * q 3) := by
  unfold nucL
  rw [LinearMap.compMultilinearMap_apply, MultilinearMap.mkPiAlgebra_apply, Fin.prod_univ_four, LinearMap.smul_apply,
    rootL_apply hp hρ]
  rfl

end Verif.Lemmas
