import Verif.Lemmas.OperGridsEval
import Verif.Lemmas.GridsVal
import Verif.Lemmas.OperV

/-! The generated integrals on grids evaluate sums of operators. -/
namespace Verif.Lemmas
open Verif Verif.Model Verif.Spec Verif.Prog Verif.Props MeasureTheory Polynomial

/-! ### Any potential that has integrals with Gaussians -/

def PotInt (V : Pt → ℝ) : Prop := ∀ (p : ℝ) (P : Pt) (q : Fin 3 → ℝ[X]), 0 < p → Integrable fun r => pg p P q r * V r

/-- the integral of a Gaussian times a polynomial with a potential -/
noncomputable def potInt (V : Pt → ℝ) (p : ℝ) (P : Pt) (q : Fin 3 → ℝ[X]) : ℝ := ∫ r, pg p P q r * V r

theorem potInt_grid {omega ζ : ℝ} (hz : 0 ≤ ζ) (c : Pt) : PotInt (gridPotential omega ζ c) :=
  fun _ P q hp => (int_pg_grid hp hz P c q).1

theorem integrable_gP_pot {a b : ℝ} (hab : 0 < a + b) (A B : Pt) (q q' : Fin 3 → ℝ[X]) {V : Pt → ℝ} (hV : PotInt V) :
    Integrable (fun r => gP a A q r * V r * gP b B q' r) ∧
    braketV V (gP a A q) (gP b B q') =
      Real.exp (-(a*b/(a+b)) * ∑ k, (A k - B k)^2) *
        potInt V (a+b) (fun k => (a*A k+b*B k)/(a+b)) (fun k => q k * q' k) := by
  have he : (fun r => gP a A q r * V r * gP b B q' r) = fun r => Real.exp (-(a*b/(a+b)) * ∑ k, (A k - B k)^2) *
      (pg (a+b) (fun k => (a*A k+b*B k)/(a+b)) (fun k => q k * q' k) r * V r) := by
    funext r
    have := gP_mul hab.ne' A B q q' r
    linear_combination V r * this
  unfold braketV potInt
  rw [he]
  exact ⟨(hV _ _ _ hab).const_mul _, integral_const_mul _ _⟩

theorem term_valP (S : PairOf) (h : 0 < S.a + S.b) {V : Pt → ℝ} (hV : PotInt V) (t : Term) :
    Term.valV V S.O S.A S.B (gto S.a S.A S.n) (gto S.b S.B S.m) t =
      ((t.re : ℂ) + Complex.I * (t.im : ℂ)) * ((S.pre * S.keyV (potInt V (S.a+S.b) S.cen) (termKey t) : ℝ) : ℂ) := by
  unfold Term.valV
  congr 2
  rw [gto_gP, gto_gP, act_gP, act_gP, (integrable_gP_pot h _ _ _ _ hV).2, S.geo_list]
  unfold PairOf.keyV PairOf.pre
  have hp : (fun k => wordE S.a (S.A k) (S.O k) (along k t.bra) ((X - C (S.A k))^S.n k) *
      wordE S.b (S.B k) (S.O k) (along k t.ket) ((X - C (S.B k))^S.m k)) = S.poly (termKey t).bra (termKey t).ket := by
    funext k
    fin_cases k <;> rfl
  rw [hp]
  exact mul_left_comm _ _ _

theorem op_valP (S : PairOf) (h : 0 < S.a + S.b) {V : Pt → ℝ} (hV : PotInt V) (P : Op) :
    Op.valV V S.O S.A S.B (gto S.a S.A S.n) (gto S.b S.B S.m) P =
      ((S.pre * sumVal (S.keyV (potInt V (S.a+S.b) S.cen)) (opRe P) : ℝ) : ℂ) +
        Complex.I * ((S.pre * sumVal (S.keyV (potInt V (S.a+S.b) S.cen)) (opIm P) : ℝ) : ℂ) := by
  induction P with
  | nil => simp [Op.valV, sumVal, opRe, opIm]
  | cons t P ih =>
    have h1 : Op.valV V S.O S.A S.B (gto S.a S.A S.n) (gto S.b S.B S.m) (t :: P) =
        Term.valV V S.O S.A S.B (gto S.a S.A S.n) (gto S.b S.B S.m) t +
          Op.valV V S.O S.A S.B (gto S.a S.A S.n) (gto S.b S.B S.m) P := by
      simp [Op.valV]
    have h2 : ∀ v : Key → ℝ, sumVal v (opRe (t :: P)) = (t.re : ℝ) * v (termKey t) + sumVal v (opRe P) := by
      intro v; simp [sumVal, opRe]
    have h3 : ∀ v : Key → ℝ, sumVal v (opIm (t :: P)) = (t.im : ℝ) * v (termKey t) + sumVal v (opIm P) := by
      intro v; simp [sumVal, opIm]
    rw [h1, ih, term_valP S h hV, h2, h3]
    push_cast
    ring

theorem braketP_sum {ι κ : Type} (s : Finset ι) (s' : Finset κ) (c a : ι → ℝ) (c' b : κ → ℝ) (A B : Pt)
    (q : ι → Fin 3 → ℝ[X]) (q' : κ → Fin 3 → ℝ[X]) {V : Pt → ℝ} (hV : PotInt V) (h : ∀ i ∈ s, ∀ j ∈ s', 0 < a i + b j) :
    braketV V (fun r => ∑ i ∈ s, c i * gP (a i) A (q i) r) (fun r => ∑ j ∈ s', c' j * gP (b j) B (q' j) r) =
      ∑ j ∈ s', ∑ i ∈ s, c' j * (c i * braketV V (gP (a i) A (q i)) (gP (b j) B (q' j))) := by
  unfold braketV
  simp_rw [← integral_const_mul]
  have hint : ∀ j ∈ s', ∀ i ∈ s, Integrable fun r => c' j * (c i * (gP (a i) A (q i) r * V r * gP (b j) B (q' j) r)) :=
    fun j hj i hi => ((integrable_gP_pot (h i hi j hj) A B (q i) (q' j) hV).1.const_mul _).const_mul _
  have h2 : ∀ j ∈ s', (∑ i ∈ s, ∫ r, c' j * (c i * (gP (a i) A (q i) r * V r * gP (b j) B (q' j) r))) =
      ∫ r, ∑ i ∈ s, c' j * (c i * (gP (a i) A (q i) r * V r * gP (b j) B (q' j) r)) :=
    fun j hj => (integral_finsetSum _ (hint j hj)).symm
  rw [Finset.sum_congr rfl h2, ← integral_finsetSum _ (fun j hj => integrable_finsetSum _ (hint j hj))]
  congr 1
  funext r
  rw [Finset.sum_mul, Finset.sum_mul_sum, Finset.sum_comm]
  refine Finset.sum_congr rfl (fun j _ => Finset.sum_congr rfl (fun i _ => ?_))
  ring

/-- the integral over contracted functions is the contraction of the integrals over primitives -/
theorem op_valP_cgto {O A B : Pt} {ni nj : ℕ} {ai ci aj cj : ℕ → ℝ} {n m : Fin 3 → ℕ} {ic jc : ℕ} {V : Pt → ℝ} (hV : PotInt V) (P : Op)
    (h : ∀ ip jp, ip < ni → jp < nj → 0 < ai ip + aj jp) :
    Op.valV V O A B (cgto ni ai ci A ic n) (cgto nj aj cj B jc m) P =
      ∑ jp ∈ Finset.range nj, ∑ ip ∈ Finset.range ni, ((cj (nj*jc+jp) : ℝ) : ℂ) * (((ci (ni*ic+ip) : ℝ) : ℂ) *
        Op.valV V O A B (gto (ai ip) A n) (gto (aj jp) B m) P) := by
  have hc : ∀ (np : ℕ) (a c : ℕ → ℝ) (R : Pt) (ic : ℕ) (n : Fin 3 → ℕ), cgto np a c R ic n =
      fun r => ∑ ip ∈ Finset.range np, c (np*ic+ip) * gP (a ip) R (fun k => (X - C (R k))^n k) r := by
    intro np a c R ic n
    funext r
    unfold cgto
    simp_rw [gto_gP]
  have ht : ∀ t : Term, Term.valV V O A B (cgto ni ai ci A ic n) (cgto nj aj cj B jc m) t =
      ∑ jp ∈ Finset.range nj, ∑ ip ∈ Finset.range ni, ((cj (nj*jc+jp) : ℝ) : ℂ) * (((ci (ni*ic+ip) : ℝ) : ℂ) *
        Term.valV V O A B (gto (ai ip) A n) (gto (aj jp) B m) t) := by
    intro t
    unfold Term.valV
    rw [hc, hc, act_sum, act_sum, braketP_sum _ _ _ _ _ _ _ _ _ _ hV (fun i hi j hj => h i j (Finset.mem_range.1 hi) (Finset.mem_range.1 hj))]
    simp_rw [gto_gP, act_gP]
    push_cast
    simp_rw [Finset.mul_sum]
    refine Finset.sum_congr rfl (fun j _ => Finset.sum_congr rfl (fun i _ => ?_))
    ring
  induction P with
  | nil => simp [Op.valV]
  | cons t P ih =>
    have h1 : ∀ f g, Op.valV V O A B f g (t :: P) = Term.valV V O A B f g t +
        Op.valV V O A B f g P := by
      intro f g; simp [Op.valV]
    simp_rw [h1]
    rw [ih, ht]
    simp_rw [mul_add, Finset.sum_add_distrib]


/-! ### Quadrature -/

theorem gridGen_eq {G : Gen1e} {ws : List (Nat → List (GOp × Fin 4))} (hG : Gen1e.OKG G ws) {R : Rys2 ℝ} {e : EnvG} {d : G1 ℝ}
    {A : GridArgs ℝ} {r : Nat → ℝ} {M : Nat} (hp : 0 < d.ai + d.aj) (hz : 0 ≤ A.zeta)
    (hn : e.nrys_roots = e.rys_order ∨ A.omega < 0 ∧ e.nrys_roots = 2*e.rys_order) (hR : Rys2OK R e.nrys_roots)
    (hro : e.i_l + e.j_l + (G.ng.i + G.ng.j) < 2*e.rys_order) (hi : M / G.nComp % e.nfi < ncart e.i_l)
    (hj : M / G.nComp / e.nfi < ncart e.j_l) :
    2 * Real.pi * gridGenW G ws R realK e d A r M =
      open Classical in if PointKept A (d.ai + d.aj) (gridRR d r) then
        sumVal ((pairOf d (fun _ => 0) (fun k => pw e.i_l k (M / G.nComp % e.nfi)) (fun k => pw e.j_l k (M / G.nComp / e.nfi))).keyV
          (potInt (gridPotential A.omega A.zeta (fun k => r k)) (d.ai + d.aj) (fun k => d.rij k)))
          (progSum ws (G.flat.comps.getD (M % G.nComp) []))
      else 0 := by
  classical
  obtain ⟨n, hnd⟩ : ∃ n : Nat → Nat, n = fun k => pw e.i_l k (M / G.nComp % e.nfi) := ⟨_, rfl⟩
  obtain ⟨m, hmd⟩ : ∃ m : Nat → Nat, m = fun k => pw e.j_l k (M / G.nComp / e.nfi) := ⟨_, rfl⟩
  let T := pairOf d (fun _ => 0) (fun k => n k) (fun k => m k)
  have hnm : n 0 + n 1 + n 2 = e.i_l ∧ m 0 + m 1 + m 2 = e.j_l := by
    rw [hnd, hmd]; exact ⟨psum hi, psum hj⟩
  have hrr : 0 ≤ gridRR d r := by
    unfold gridRR
    nlinarith [mul_self_nonneg (r 0 - d.rij 0), mul_self_nonneg (r 1 - d.rij 1), mul_self_nonneg (r 2 - d.rij 2)]
  have hk : M % G.nComp < G.flat.comps.length := by rw [G.flat_length, hG.ncomp]; exact Nat.mod_lt _ (Nat.pos_of_ne_zero hG.pos)
  have hmem : G.flat.comps.getD (M % G.nComp) [] ∈ G.flat.comps := by
    rw [List.getD_eq_getElem?_getD, List.getElem?_eq_getElem hk]; exact List.getElem_mem hk
  have ht := hG.terms _ hmem
  obtain ⟨terms, htd⟩ : ∃ terms, terms = G.flat.comps.getD (M % G.nComp) [] := ⟨_, rfl⟩
  let uw := fun i => gridUW R realK e.rys_order e.nrys_roots A (d.ai + d.aj) 1 (gridRR d r) i
  unfold gridGenW goutVal
  rw [← htd] at ht ⊢
  show _ * (∑ i ∈ Finset.range e.nrys_roots, compVal (opData d fun _ => 0) terms fun i' => (ws.map fun W =>
      symVal (opData d fun _ => 0) (gridTab R realK e d A r) (W 0) 0 (pows (fun c => pw e.i_l c (M / G.nComp % e.nfi)) (fun c => pw e.j_l c (M / G.nComp / e.nfi)) 0) i *
      symVal (opData d fun _ => 0) (gridTab R realK e d A r) (W 1) 1 (pows (fun c => pw e.i_l c (M / G.nComp % e.nfi)) (fun c => pw e.j_l c (M / G.nComp / e.nfi)) 1) i *
      symVal (opData d fun _ => 0) (gridTab R realK e d A r) (W 2) 2 (pows (fun c => pw e.i_l c (M / G.nComp % e.nfi)) (fun c => pw e.j_l c (M / G.nComp / e.nfi)) 2) i).getD i' 0) = _
  rw [← hnd, ← hmd]
  have hT : pairOf d (fun _ => 0) (fun k => pw e.i_l k (M / G.nComp % e.nfi)) (fun k => pw e.j_l k (M / G.nComp / e.nfi)) = T := by
    simp only [T, hnd, hmd]
  rw [hT]
  clear htd hmem
  unfold compVal sumVal progSum
  induction terms with
  | nil => simp
  | cons t l ih =>
    have ih := ih (fun t ht' => ht t (List.mem_cons_of_mem _ ht'))
    simp only [List.map_cons, List.sum_cons] at ih ⊢
    rw [Finset.sum_add_distrib, mul_add, ih]
    clear ih
    obtain ⟨h3, h4⟩ := ht t List.mem_cons_self
    obtain ⟨c, geo, i⟩ := t
    dsimp only at h3 h4 ⊢
    have hw : ws.getD i (fun _ => []) = ws[i] := by
      rw [List.getD_eq_getElem?_getD, List.getElem?_eq_getElem h3]; rfl
    have hg : (geo.map (geoFac (opData d fun _ => 0))).prod = T.geo (geoCount (geo.map toFin3)) := by
      rw [← PairOf.geo_list, List.map_map]
      congr 1
      refine List.map_congr_left (fun x hx => ?_)
      have := h4 x hx
      unfold geoFac
      rw [if_pos this]
      show d.ri x - d.rj x = d.ri (toFin3 x) - d.rj (toFin3 x)
      have : ((toFin3 x : Fin 3) : Nat) = x := by
        unfold toFin3
        rcases x with _ | _ | _ | x <;> simp <;> omega
      rw [this]
    have hm : ws[i] ∈ ws := List.getElem_mem h3
    have htw : twoIdx ws[i] = true := (List.all_eq_true.1 hG.two) _ hm
    let Λ := nucL (fun i => (uw i).2) (d.ai + d.aj) d.rij r (fun i => (uw i).1)
    have hU : ∀ i, i < e.nrys_roots → (uw i).1 < 1 := fun i hi => gridUW_lt hp hz hn hR hrr i hi
    let q := T.poly (progKey geo ws[i]).bra (progKey geo ws[i]).ket
    have key : ∀ (c : Fin 3) r', r' < e.nrys_roots → symVal (opData d fun _ => 0) (gridTab R realK e d A r) (ws[i] c) c (pows n m c) r' =
        nucFac (fun i => (uw i).2) c r' *
          rootMom (d.ai + d.aj) (d.rij c) (r c) (uw r').1 (q c) := by
      intro c r' hr
      have htc := twoIdx_mem htw c c.isLt
      rw [symVal_scale (k := 1) (v' := powTab Λ (opData d fun _ => 0).R) (r' := r') htc (fun m' m2 m3 => ?_) _ rfl rfl, one_mul, symVal_poly]
      · unfold wordTab
        rw [nucL_apply _ hp _ _ _ _ _ (hU r' hr)]
        have e2 : onIdx 2 (ws[i] c) = [] := onIdx_none (fun o ho h => by rcases htc o ho with h' | h' <;> rw [h'] at h <;> exact absurd h (by decide))
        have e3 : onIdx 3 (ws[i] c) = [] := onIdx_none (fun o ho h => by rcases htc o ho with h' | h' <;> rw [h'] at h <;> exact absurd h (by decide))
        rw [e2, e3]
        show _ * rootMom _ _ _ _ (wordE d.ai (d.ri c) 0 _ ((X - C (d.ri c))^n c) * wordE d.aj (d.rj c) 0 _ ((X - C (d.rj c))^m c) *
          (X - C 0)^0 * (X - C 0)^0) = _
        rw [pow_zero, mul_one, mul_one]
        congr 2
        fin_cases c <;> rfl
      · unfold powTab
        rw [nucL_apply _ hp _ _ _ _ _ (hU r' hr), m2, m3, pow_zero, pow_zero, mul_one, mul_one, one_mul]
        unfold gridTab
        show _ * gridM e d r (uw r').1 c (m' 0) (m' 1) = _
        rw [gridM_mom hp (hU r' hr)]
        congr 1
    let F : ℝ[X] := ∏ k : Fin 3, red (d.ai + d.aj) (d.rij k) (r k) (q k)
    have hF : F.natDegree < 2*e.rys_order := by
      refine lt_of_le_of_lt (natDegree_prod_le _ _) ?_
      refine lt_of_le_of_lt (Finset.sum_le_sum fun k _ => red_degree _ _ _ _) ?_
      refine lt_of_le_of_lt (poly_degree T ws[i] geo) (lt_of_le_of_lt (Nat.add_le_add_left (hG.len _ hm) _) ?_)
      rw [Fin.sum_univ_three, Fin.sum_univ_three]
      show (n 0 + n 1 + n 2) + (m 0 + m 1 + m 2) + (G.ng.i + G.ng.j) < _
      rw [hnm.1, hnm.2]
      exact hro
    have hterm : ∀ r' ∈ Finset.range e.nrys_roots, (c : ℝ) * (geo.map (geoFac (opData d fun _ => 0))).prod * (ws.map fun W =>
        symVal (opData d fun _ => 0) (gridTab R realK e d A r) (W 0) 0 (pows n m 0) r' *
        symVal (opData d fun _ => 0) (gridTab R realK e d A r) (W 1) 1 (pows n m 1) r' *
        symVal (opData d fun _ => 0) (gridTab R realK e d A r) (W 2) 2 (pows n m 2) r').getD i 0 =
        (c * T.geo (geoCount (geo.map toFin3))) * ((uw r').2 * F.eval (uw r').1) := by
      intro r' hr
      rw [Finset.mem_range] at hr
      rw [List.getD_eq_getElem?_getD, List.getElem?_map, List.getElem?_eq_getElem h3]
      have k0 := key 0 r' hr; have k1 := key 1 r' hr; have k2 := key 2 r' hr
      simp only [Fin.val_zero, Fin.val_one, Fin.val_two] at k0 k1 k2
      simp only [Option.map_some, Option.getD_some]
      rw [k0, k1, k2, hg, eval_prod, Fin.prod_univ_three]
      have hh := hU r' hr
      rw [rootMom_red hp hh, rootMom_red hp hh, rootMom_red hp hh]
      have f0 : ∀ F : Nat → ℝ, nucFac F 0 r' = 1 := fun _ => rfl
      have f1 : ∀ F : Nat → ℝ, nucFac F 1 r' = 1 := fun _ => rfl
      have f2 : ∀ F : Nat → ℝ, nucFac F 2 r' = F r' := fun _ => rfl
      rw [f0, f1, f2]
      simp only [Fin.val_zero, Fin.val_one, Fin.val_two]
      ring
    rw [Finset.sum_congr rfl hterm, ← Finset.mul_sum, gridUW_sum hp hz hn hR hrr F hF]
    by_cases hkp : PointKept A (d.ai + d.aj) (gridRR d r)
    · rw [if_pos hkp, if_pos hkp, if_pos hkp]
      congr 1
      unfold PairOf.keyV potInt
      show _ = (c : ℝ) * (T.geo (geoCount (geo.map toFin3)) * ∫ x, pg _ _ (T.poly (progKey geo (ws.getD i fun _ => [])).bra
        (progKey geo (ws.getD i fun _ => [])).ket) x * _)
      rw [hw, (int_pg_grid hp hz _ _ _).2]
      have e1 : ∑ k : Fin 3, (d.rij k - r k)^2 = gridRR d r := by
        unfold gridRR
        rw [Fin.sum_univ_three]
        simp only [Fin.val_zero, Fin.val_one, Fin.val_two]
        ring
      rw [e1]
      ring
    · rw [if_neg hkp, if_neg hkp, if_neg hkp, mul_zero, mul_zero, add_zero]

end Verif.Lemmas
