import Verif.Lemmas.GridsPot
import Verif.Lemmas.GridsEval

/-! The primitive integrals of int1e_grids are integrals with the potential of a charge at the grid point. -/
namespace Verif.Lemmas
open Verif Verif.Model Verif.Spec Verif.Prog Verif.Props MeasureTheory Polynomial

theorem vrrSol_mom {p P c U A : ℝ} (hp : 0 < p) (hU : U < 1) : ∀ i : ℕ,
    vrrSol (1/2/p*(1-U)) ((P - A) + U*(c-P)) i = rootMom p P c U ((X - C A)^i) := by
  have h1 : 0 < 1 - U := by linarith
  have hp' : 0 < p/(1-U) := div_pos hp h1
  have h2 : 1/(2*(p/(1-U))) = 1/2/p*(1-U) := by field_simp
  have h0 : rootMom p P c U ((X - C A)^0) = 1 := by
    unfold rootMom
    rw [pow_zero, moment_one]
    exact div_self (Real.sqrt_pos.2 (div_pos Real.pi_pos hp')).ne'
  have hs : ∀ i : ℕ, rootMom p P c U ((X - C A)^(i+1)) = (i:ℝ) * (1/2/p*(1-U)) * rootMom p P c U ((X - C A)^(i-1)) +
      ((P - A) + U*(c-P)) * rootMom p P c U ((X - C A)^i) := by
    intro i
    unfold rootMom
    rw [moment_vrr hp', h2]
    ring
  intro i
  induction i using Nat.strong_induction_on with
  | _ i ih =>
    cases i with
    | zero => rw [h0]; rfl
    | succ i =>
      rw [vrrSol_succ, hs, ih i (Nat.lt_succ_self i), ih (i-1) (by omega)]

theorem hrrSol_mom {p P c U A B : ℝ} (hp : 0 < p) (hU : U < 1) : ∀ j i : ℕ,
    hrrSol (1/2/p*(1-U)) ((P - A) + U*(c-P)) (A-B) i j = rootMom p P c U (pq A B i j)
  | 0, i => by
    unfold hrrSol pq
    rw [pow_zero, mul_one]
    exact vrrSol_mom hp hU i
  | j+1, i => by
    have h1 : 0 < 1 - U := by linarith
    show hrrSol _ _ _ (i+1) j + (A-B) * hrrSol _ _ _ i j = _
    rw [hrrSol_mom hp hU j (i+1), hrrSol_mom hp hU j i]
    unfold rootMom
    rw [moment_hrr (div_pos hp h1)]
    ring

theorem gridM_mom {e : EnvG} {d : G1 ℝ} {r : Nat → ℝ} {U : ℝ} (hp : 0 < d.ai + d.aj) (hU : U < 1) (c a b : Nat) :
    gridM e d r U c a b = rootMom (d.ai + d.aj) (d.rij c) (r c) U (pq (d.ri c) (d.rj c) a b) := by
  unfold gridM gridE rirj baseR
  by_cases hi : ibase e
  · simp only [if_pos hi]
    exact hrrSol_mom hp hU b a
  · simp only [if_neg hi]
    rw [hrrSol_mom hp hU a b]
    unfold rootMom
    rw [moment_pq_comm]

/-- exponents of the charge and the interaction combined with that of the pair: `1/(1/p + 1/ζ + 1/ω²)` -/
noncomputable def redExp (p omega ζ : ℝ) : ℝ := p * effExp omega ζ/(p + effExp omega ζ)

/-- exponent of the Gaussian whose potential is computed when nothing is subtracted -/
noncomputable def effOf (A : GridArgs ℝ) : ℝ := if A.omega = 0 then A.zeta else effExp A.omega A.zeta

theorem effOf_pos {A : GridArgs ℝ} (hz : 0 ≤ A.zeta) (h0 : ¬ (A.omega = 0 ∧ A.zeta = 0)) : 0 < effOf A := by
  unfold effOf effExp
  by_cases o : A.omega = 0
  · rw [if_pos o]
    exact lt_of_le_of_ne hz (fun h => h0 ⟨o, h.symm⟩)
  · rw [if_neg o]
    have h : 0 < A.omega^2 := by positivity
    split
    · exact h
    · rename_i h'
      have : 0 < A.zeta := lt_of_le_of_ne hz (Ne.symm h')
      positivity

/-- a point takes part in the sum over primitives: always, unless the interaction is short-ranged and the point far away -/
def PointKept (A : GridArgs ℝ) (p rr : ℝ) : Prop := 0 ≤ A.omega ∨ redExp p A.omega A.zeta * rr ≤ min A.cutoff 40

theorem lt_one_of_root {u θ : ℝ} (hu : 0 ≤ u) (h1 : θ ≤ 1) : u/(u+1)*θ < 1 := by
  have a : u/(u+1) < 1 := (div_lt_one (by linarith)).2 (by linarith)
  have b : 0 ≤ u/(u+1) := div_nonneg hu (by linarith)
  nlinarith

/-- `τ²` of the charge -/
noncomputable def tau2 (p ζ : ℝ) : ℝ := if ζ = 0 then 1 else ζ/(ζ+p)

theorem tau2_bounds {p ζ : ℝ} (hp : 0 < p) (hz : 0 ≤ ζ) : 0 < tau2 p ζ ∧ tau2 p ζ ≤ 1 := by
  unfold tau2
  split
  · exact ⟨one_pos, le_rfl⟩
  · rename_i h
    have h0 : 0 < ζ := lt_of_le_of_ne hz (Ne.symm h)
    exact ⟨by positivity, (div_le_one (by positivity)).2 (by linarith)⟩

theorem tau2_sqrt {p ζ : ℝ} (hz : 0 ≤ ζ) : Real.sqrt (tau2 p ζ) = nucTau p ζ := by
  unfold tau2 nucTau
  by_cases h : ζ = 0
  · rw [if_pos h, if_neg (by rw [h]; exact lt_irrefl _), Real.sqrt_one]
  · rw [if_neg h, if_pos (lt_of_le_of_ne hz (Ne.symm h)), add_comm]

/-- `θ` of the interaction -/
noncomputable def thetaSR (p omega ζ : ℝ) : ℝ := omega*omega/(omega*omega + p*tau2 p ζ)

section
variable {p omega ζ : ℝ} (hp : 0 < p) (hz : 0 ≤ ζ) (ho : omega ≠ 0)
include hp hz ho

theorem effExp_pos : 0 < effExp omega ζ := by
  have h : 0 < omega^2 := by positivity
  unfold effExp
  split
  · exact h
  · rename_i h'
    have h0 : 0 < ζ := lt_of_le_of_ne hz (Ne.symm h')
    positivity

theorem thetaSR_bounds : 0 < thetaSR p omega ζ ∧ thetaSR p omega ζ < 1 := by
  have h : 0 < omega*omega := mul_self_pos.2 ho
  have h2 := (tau2_bounds hp hz).1
  unfold thetaSR
  exact ⟨by positivity, (div_lt_one (by positivity)).2 (by nlinarith)⟩

theorem tau2_thetaSR : tau2 p ζ * thetaSR p omega ζ = effExp omega ζ/(p + effExp omega ζ) := by
  have h : 0 < omega^2 := by positivity
  unfold thetaSR tau2 effExp
  by_cases h' : ζ = 0
  · simp only [if_pos h']
    rw [one_mul, mul_one, ← sq, add_comm]
  · simp only [if_neg h']
    have h0 : 0 < ζ := lt_of_le_of_ne hz (Ne.symm h')
    field_simp
    ring

theorem tau2_thetaSR_sqrt : Real.sqrt (tau2 p ζ) * Real.sqrt (thetaSR p omega ζ) = nucTau p (effExp omega ζ) := by
  rw [← Real.sqrt_mul (tau2_bounds hp hz).1.le, tau2_thetaSR hp hz ho]
  unfold nucTau
  rw [if_pos (effExp_pos hp hz ho)]
end

/-- the roots and weights for a short-range interaction -/
theorem gridUW_sr {R : Rys2 ℝ} {ro n : Nat} {A : GridArgs ℝ} {p rr : ℝ} (ho : A.omega < 0) (i : Nat) :
    gridUW R realK ro n A p 1 rr i =
      if thetaSR p A.omega A.zeta * (p * tau2 p A.zeta * rr) > min A.cutoff 40 then (0, 0)
      else if ro = n then
        (R.sru n (p * tau2 p A.zeta * rr) (Real.sqrt (thetaSR p A.omega A.zeta)) i /
          (R.sru n (p * tau2 p A.zeta * rr) (Real.sqrt (thetaSR p A.omega A.zeta)) i + 1) * tau2 p A.zeta,
        R.srw n (p * tau2 p A.zeta * rr) (Real.sqrt (thetaSR p A.omega A.zeta)) i * (1/p * Real.sqrt (tau2 p A.zeta)))
      else if i < ro then
        (R.u ro (p * tau2 p A.zeta * rr) i / (R.u ro (p * tau2 p A.zeta * rr) i + 1) * tau2 p A.zeta,
        R.w ro (p * tau2 p A.zeta * rr) i * (1/p * Real.sqrt (tau2 p A.zeta)))
      else
        (R.u ro (thetaSR p A.omega A.zeta * (p * tau2 p A.zeta * rr)) (i-ro) /
          (R.u ro (thetaSR p A.omega A.zeta * (p * tau2 p A.zeta * rr)) (i-ro) + 1) * (tau2 p A.zeta * thetaSR p A.omega A.zeta),
        R.w ro (thetaSR p A.omega A.zeta * (p * tau2 p A.zeta * rr)) (i-ro) *
          (1/p * Real.sqrt (tau2 p A.zeta) * -Real.sqrt (thetaSR p A.omega A.zeta))) := by
  unfold gridUW
  rw [if_neg (fun h => ho.ne h.1), if_pos ho]
  by_cases hz : A.zeta = 0
  · have ht : tau2 p A.zeta = 1 := if_pos hz
    simp only [if_pos hz, thetaSR, ht, mul_one, Real.sqrt_one, realK]
  · have ht : tau2 p A.zeta = A.zeta/(A.zeta + p) := if_neg hz
    simp only [if_neg hz, thetaSR, ht, realK]

/-- `θ` for a long-range interaction or a Gaussian charge -/
theorem gridUW_lr {R : Rys2 ℝ} {ro n : Nat} {A : GridArgs ℝ} {p rr : ℝ} (hp : 0 < p) (hz : 0 ≤ A.zeta) (ho : ¬ A.omega < 0) :
    ∃ θ, 0 < θ ∧ θ ≤ 1 ∧ Real.sqrt θ = nucTau p (if A.omega = 0 then A.zeta else effExp A.omega A.zeta) ∧
    ∀ i, gridUW R realK ro n A p 1 rr i =
      (R.u n (p*θ*rr) i/(R.u n (p*θ*rr) i + 1) * θ, R.w n (p*θ*rr) i * (1/p * Real.sqrt θ)) := by
  by_cases h0 : A.omega = 0 ∧ A.zeta = 0
  · refine ⟨1, one_pos, le_rfl, ?_, fun i => ?_⟩
    · rw [if_pos h0.1, h0.2, Real.sqrt_one]
      unfold nucTau
      rw [if_neg (lt_irrefl _)]
    · unfold gridUW
      rw [if_pos h0, mul_one, mul_one, Real.sqrt_one, mul_one]
  · refine ⟨effOf A/(p + effOf A), ?_, ?_, ?_, fun i => ?_⟩
    · have := effOf_pos hz h0
      positivity
    · have := effOf_pos hz h0
      exact (div_le_one (by positivity)).2 (by linarith)
    · have := effOf_pos hz h0
      show _ = nucTau p (effOf A)
      unfold nucTau
      rw [if_pos this]
    · have ht : effOf A/(p + effOf A) = if A.zeta = 0 then A.omega*A.omega / (A.omega*A.omega + p)
          else if A.omega = 0 then A.zeta / (A.zeta + p)
          else A.omega*A.omega*A.zeta / (A.omega*A.omega*A.zeta + (A.zeta+A.omega*A.omega)*p) := by
        unfold effOf effExp
        by_cases hz0 : A.zeta = 0
        · have : A.omega ≠ 0 := fun h => h0 ⟨h, hz0⟩
          simp only [if_pos hz0, if_neg this]
          rw [← sq, add_comm]
        · have hzp : 0 < A.zeta := lt_of_le_of_ne hz (Ne.symm hz0)
          by_cases ho0 : A.omega = 0
          · simp only [if_pos ho0, if_neg hz0]
            rw [add_comm]
          · simp only [if_neg ho0, if_neg hz0]
            have : 0 < A.omega^2 := by positivity
            field_simp
            ring
      rw [ht]
      unfold gridUW
      rw [if_neg h0, if_neg ho]
      rfl

section
variable {p : ℝ} (hp : 0 < p) {A : GridArgs ℝ} (hz : 0 ≤ A.zeta) {R : Rys2 ℝ} {ro n : Nat}
  (hn : n = ro ∨ A.omega < 0 ∧ n = 2*ro) (hR : Rys2OK R n) {rr : ℝ} (hrr : 0 ≤ rr)
include hp hz hn hR hrr

theorem gridUW_lt (i : Nat) (hi : i < n) : (gridUW R realK ro n A p 1 rr i).1 < 1 := by
  by_cases ho : A.omega < 0
  · have t := tau2_bounds hp hz
    have th := thetaSR_bounds hp hz ho.ne
    have x0 : 0 ≤ p * tau2 p A.zeta * rr := mul_nonneg (mul_nonneg hp.le t.1.le) hrr
    have s1 : Real.sqrt (thetaSR p A.omega A.zeta) < 1 := by
      rw [← Real.sqrt_one]; exact Real.sqrt_lt_sqrt th.1.le th.2
    rw [gridUW_sr ho]
    split
    · exact one_pos
    split
    · exact lt_one_of_root ((hR.part _ _ x0 (Real.sqrt_nonneg _) s1).nonneg i hi) t.2
    split
    · exact lt_one_of_root ((hR.full _ (by omega) _ x0).nonneg i (by omega)) t.2
    · exact lt_one_of_root ((hR.full _ (by omega) _ (mul_nonneg th.1.le x0)).nonneg _ (by omega)) (by nlinarith)
  · obtain ⟨θ, h0, h1, _, h⟩ := gridUW_lr (R := R) (ro := ro) (n := n) (rr := rr) hp hz ho
    rw [h]
    exact lt_one_of_root ((hR.full _ le_rfl _ (mul_nonneg (mul_nonneg hp.le h0.le) hrr)).nonneg i hi) h1

theorem gridUW_sum (F : ℝ[X]) (hF : F.natDegree < 2*ro) :
    ∑ i ∈ Finset.range n, (gridUW R realK ro n A p 1 rr i).2 * F.eval (gridUW R realK ro n A p 1 rr i).1 =
      open Classical in if PointKept A p rr then 1/p * gridQuad p A.omega A.zeta F (p*rr) else 0 := by
  have hF' : F.natDegree < 2*n := by omega
  by_cases ho : A.omega < 0
  · have t := tau2_bounds hp hz
    have th := thetaSR_bounds hp hz ho.ne
    have x0 : 0 ≤ p * tau2 p A.zeta * rr := mul_nonneg (mul_nonneg hp.le t.1.le) hrr
    have s1 : Real.sqrt (thetaSR p A.omega A.zeta) < 1 := by
      rw [← Real.sqrt_one]; exact Real.sqrt_lt_sqrt th.1.le th.2
    have hcut : thetaSR p A.omega A.zeta * (p * tau2 p A.zeta * rr) = redExp p A.omega A.zeta * rr := by
      have := tau2_thetaSR hp hz ho.ne
      unfold redExp
      rw [mul_div_assoc, ← this]
      ring
    have hk : PointKept A p rr ↔ ¬ thetaSR p A.omega A.zeta * (p * tau2 p A.zeta * rr) > min A.cutoff 40 := by
      rw [hcut, gt_iff_lt, not_lt]
      unfold PointKept
      exact ⟨fun h => h.resolve_left (not_le.2 ho), Or.inr⟩
    by_cases hc : thetaSR p A.omega A.zeta * (p * tau2 p A.zeta * rr) > min A.cutoff 40
    · rw [if_neg (fun h => hk.1 h hc)]
      refine Finset.sum_eq_zero fun i _ => ?_
      rw [gridUW_sr ho, if_pos hc, zero_mul]
    rw [if_pos (hk.2 hc)]
    unfold gridQuad
    rw [if_neg ho.ne, if_pos ho, ← tau2_thetaSR_sqrt hp hz ho.ne, ← tau2_sqrt hz]
    have hx : p * tau2 p A.zeta * rr = p*rr * tau2 p A.zeta := by ring
    by_cases hro : ro = n
    · have H := hR.part _ _ x0 (Real.sqrt_nonneg _) s1
      rw [hx] at H
      rw [← theta_sumSR t.1 H F hF', Finset.mul_sum]
      refine Finset.sum_congr rfl fun i _ => ?_
      rw [gridUW_sr ho, if_neg hc, if_pos hro]
      dsimp only
      rw [hx]
      ring
    · have hn2 : n = ro + ro := by omega
      have H1 := hR.full ro (by omega) _ x0
      have H2 := hR.full ro (by omega) _ (mul_nonneg th.1.le x0)
      have hx2 : thetaSR p A.omega A.zeta * (p * tau2 p A.zeta * rr) = p*rr * (tau2 p A.zeta * thetaSR p A.omega A.zeta) := by ring
      rw [hx] at H1
      rw [hx2] at H2
      rw [← Real.sqrt_mul t.1.le, ← theta_sum t.1.le H1 F hF, ← theta_sum (mul_nonneg t.1.le th.1.le) H2 F hF]
      conv_lhs => rw [hn2, Finset.sum_range_add]
      rw [mul_sub, sub_eq_add_neg, Finset.mul_sum, Finset.mul_sum, ← Finset.sum_neg_distrib]
      congr 1
      · refine Finset.sum_congr rfl fun i hi => ?_
        rw [Finset.mem_range] at hi
        rw [← hn2, gridUW_sr ho, if_neg hc, if_neg hro, if_pos hi]
        dsimp only
        rw [hx]
        ring
      · refine Finset.sum_congr rfl fun i hi => ?_
        rw [← hn2, gridUW_sr ho, if_neg hc, if_neg hro, if_neg (by omega), Nat.add_sub_cancel_left]
        dsimp only
        rw [hx2, Real.sqrt_mul t.1.le]
        ring
  · rw [if_pos (show PointKept A p rr from Or.inl (not_lt.1 ho))]
    obtain ⟨θ, h0, h1, hs, h⟩ := gridUW_lr (R := R) (ro := ro) (n := n) (rr := rr) hp hz ho
    have H := hR.full n le_rfl _ (mul_nonneg (mul_nonneg hp.le h0.le) hrr)
    have hx : p*θ*rr = p*rr*θ := by ring
    have hq : gridQuad p A.omega A.zeta F (p*rr) = quadT F (p*rr) (Real.sqrt θ) := by
      unfold gridQuad
      rw [hs]
      by_cases o0 : A.omega = 0
      · rw [if_pos o0, if_pos o0]
      · rw [if_neg o0, if_neg ho, if_neg o0]
    rw [hx] at H
    rw [hq, ← theta_sum h0.le H F hF', Finset.mul_sum]
    refine Finset.sum_congr rfl fun i _ => ?_
    rw [h]
    dsimp only
    rw [hx]
    ring
end

/-- the primitive integral of a pair at a point -/
theorem gridW_eq {R : Rys2 ℝ} {e : EnvG} {d : G1 ℝ} {A : GridArgs ℝ} {r : Nat → ℝ} {n : Nat} (hp : 0 < d.ai + d.aj) (hz : 0 ≤ A.zeta)
    (hn : e.nrys_roots = e.rys_order ∨ A.omega < 0 ∧ e.nrys_roots = 2*e.rys_order) (hR : Rys2OK R e.nrys_roots)
    (hro : e.i_l + e.j_l < 2*e.rys_order) (hi : n % e.nfi < ncart e.i_l) (hj : n / e.nfi < ncart e.j_l) :
    2 * Real.pi * gridW R realK e d A r n =
      open Classical in if PointKept A (d.ai + d.aj) (gridRR d r) then
        ∫ x, pg (d.ai + d.aj) (fun k => d.rij k) (fun k => pq (d.ri k) (d.rj k) (pw e.i_l k (n % e.nfi)) (pw e.j_l k (n / e.nfi))) x *
          gridPotential A.omega A.zeta (fun k => r k) x
      else 0 := by
  let q : Fin 3 → ℝ[X] := fun k => pq (d.ri k) (d.rj k) (pw e.i_l k (n % e.nfi)) (pw e.j_l k (n / e.nfi))
  let F : ℝ[X] := ∏ k : Fin 3, red (d.ai + d.aj) (d.rij k) (r k) (q k)
  have hrr : 0 ≤ gridRR d r := by
    unfold gridRR
    nlinarith [mul_self_nonneg (r 0 - d.rij 0), mul_self_nonneg (r 1 - d.rij 1), mul_self_nonneg (r 2 - d.rij 2)]
  have hF : F.natDegree < 2*e.rys_order := by
    refine lt_of_le_of_lt ?_ hro
    refine (natDegree_prod_le _ _).trans ?_
    refine (Finset.sum_le_sum fun k _ => (red_degree _ _ _ _).trans (pq_natDegree _ _ _ _)).trans ?_
    have h1 : pw e.i_l 0 (n % e.nfi) + pw e.i_l 1 (n % e.nfi) + pw e.i_l 2 (n % e.nfi) = e.i_l := psum hi
    have h2 : pw e.j_l 0 (n / e.nfi) + pw e.j_l 1 (n / e.nfi) + pw e.j_l 2 (n / e.nfi) = e.j_l := psum hj
    rw [Fin.sum_univ_three]
    simp only [Fin.val_zero, Fin.val_one, Fin.val_two]
    omega
  have hs : gridW R realK e d A r n = ∑ i ∈ Finset.range e.nrys_roots,
      (gridUW R realK e.rys_order e.nrys_roots A (d.ai + d.aj) 1 (gridRR d r) i).2 *
        F.eval (gridUW R realK e.rys_order e.nrys_roots A (d.ai + d.aj) 1 (gridRR d r) i).1 := by
    unfold gridW
    refine Finset.sum_congr rfl fun i hi => ?_
    have hU := gridUW_lt hp hz hn hR hrr i (Finset.mem_range.1 hi)
    unfold gridUW1
    rw [gridM_mom hp hU, gridM_mom hp hU, gridM_mom hp hU, rootMom_red hp hU, rootMom_red hp hU, rootMom_red hp hU,
      eval_prod, Fin.prod_univ_three]
    rfl
  rw [hs, gridUW_sum hp hz hn hR hrr F hF]
  by_cases hk : PointKept A (d.ai + d.aj) (gridRR d r)
  · rw [if_pos hk, if_pos hk, (int_pg_grid hp hz _ _ _).2]
    have e1 : ∑ k : Fin 3, (d.rij k - r k)^2 = gridRR d r := by
      unfold gridRR
      rw [Fin.sum_univ_three]
      simp only [Fin.val_zero, Fin.val_one, Fin.val_two]
      ring
    rw [e1]
    ring
  · rw [if_neg hk, if_neg hk, mul_zero]

end Verif.Lemmas
