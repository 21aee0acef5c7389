import Verif.Lemmas.OperPoly

/-! Formal sums of operators and their values. -/
namespace Verif.Lemmas
open Verif Verif.Model Verif.Spec MeasureTheory Polynomial

/-! ### Sums -/

def sumVal {κ : Type} (v : κ → ℝ) (l : List (Int × κ)) : ℝ := (l.map fun x => (x.1 : ℝ) * v x.2).sum

theorem sumVal_total {κ : Type} [DecidableEq κ] (v : κ → ℝ) (l : List (Int × κ)) (S : Finset κ) (hS : ∀ x ∈ l, x.2 ∈ S) :
    sumVal v l = ∑ k ∈ S, (total k l : ℝ) * v k := by
  induction l with
  | nil => simp [sumVal, total]
  | cons x l ih =>
    have h1 : sumVal v (x :: l) = (x.1 : ℝ) * v x.2 + sumVal v l := by simp [sumVal]
    have h2 : ∀ k, (total k (x :: l) : ℝ) = (if k = x.2 then (x.1 : ℝ) else 0) + total k l := by
      intro k
      unfold total
      rw [List.filter_cons]
      by_cases h : x.2 = k
      · simp [h]
      · have h' : ¬ k = x.2 := fun e => h e.symm
        simp [h, h']
    rw [h1, ih (fun y hy => hS y (List.mem_cons_of_mem _ hy))]
    simp_rw [h2, add_mul]
    rw [Finset.sum_add_distrib]
    congr 1
    simp only [ite_mul, zero_mul]
    rw [Finset.sum_ite_eq' S x.2, if_pos (hS x List.mem_cons_self)]

theorem sameSum_val {κ : Type} [DecidableEq κ] {l m : List (Int × κ)} (h : sameSum l m = true) (v : κ → ℝ) : sumVal v l = sumVal v m := by
  have hS : ∀ x ∈ l ++ m, x.2 ∈ ((l ++ m).map (·.2)).toFinset := fun x hx => by
    rw [List.mem_toFinset]; exact List.mem_map_of_mem hx
  rw [sumVal_total v l _ fun x hx => hS x (List.mem_append_left _ hx),
    sumVal_total v m _ fun x hx => hS x (List.mem_append_right _ hx)]
  refine Finset.sum_congr rfl (fun k hk => ?_)
  rw [List.mem_toFinset, List.mem_map] at hk
  obtain ⟨x, hx, rfl⟩ := hk
  unfold sameSum at h
  rw [List.all_eq_true] at h
  have := h x hx
  simp only [decide_eq_true_eq] at this
  rw [this]

/-! ### Values of keys -/

/-- two primitives with operators on them -/
structure PairOf where
  a : ℝ
  b : ℝ
  A : Pt
  B : Pt
  O : Pt
  n : Fin 3 → ℕ
  m : Fin 3 → ℕ

/-- the factor of one direction -/
noncomputable def PairOf.dir (S : PairOf) (μ : Fin 3 → ℝ[X] → ℝ) (k : Fin 3) (w v : List El) : ℝ :=
  μ k (wordE S.a (S.A k) (S.O k) w ((X - C (S.A k))^S.n k) * wordE S.b (S.B k) (S.O k) v ((X - C (S.B k))^S.m k))

noncomputable def PairOf.geo (S : PairOf) (g : Nat × Nat × Nat) : ℝ :=
  (S.A 0 - S.B 0)^g.1 * (S.A 1 - S.B 1)^g.2.1 * (S.A 2 - S.B 2)^g.2.2

noncomputable def PairOf.key (S : PairOf) (μ : Fin 3 → ℝ[X] → ℝ) (K : Key) : ℝ :=
  S.geo K.geo * (S.dir μ 0 (K.bra.getD 0 []) (K.ket.getD 0 []) * S.dir μ 1 (K.bra.getD 1 []) (K.ket.getD 1 []) *
    S.dir μ 2 (K.bra.getD 2 []) (K.ket.getD 2 []))

theorem PairOf.geo_list (S : PairOf) (l : List (Fin 3)) :
    (l.map fun k => S.A k - S.B k).prod = S.geo (geoCount l) := by
  induction l with
  | nil => simp [PairOf.geo, geoCount]
  | cons k l ih =>
    rw [List.map_cons, List.prod_cons, ih]
    unfold PairOf.geo geoCount
    simp only [List.count_cons]
    fin_cases k <;> simp <;> ring

/-- integration by parts holds for the functional -/
def Parts (S : PairOf) (μ : Fin 3 → ℝ[X] → ℝ) : Prop :=
  ∀ k q q', μ k (elL S.a (S.A k) (S.O k) .d q * q') = - μ k (q * elL S.b (S.B k) (S.O k) .d q')

theorem dir_byParts {S : PairOf} {μ : Fin 3 → ℝ[X] → ℝ} (hμ : Parts S μ) (k : Fin 3) :
    ∀ w v, S.dir μ k w v = ((byParts w v).1 : ℝ) * S.dir μ k (byParts w v).2.1 (byParts w v).2.2 := by
  intro w
  induction w with
  | nil => intro v; simp [byParts]
  | cons e w ih =>
    intro v
    cases e with
    | d =>
      have : byParts (.d :: w) v = (-(byParts w (.d :: v)).1, (byParts w (.d :: v)).2) := rfl
      rw [this]
      dsimp only
      rw [Int.cast_neg, neg_mul, ← ih (.d :: v)]
      unfold PairOf.dir
      rw [wordE_cons, wordE_cons]
      exact hμ k _ _
    | r0 => simp [byParts]
    | rc => simp [byParts]
    | ro => simp [byParts]

/-- three directions -/
def Key.Full (K : Key) : Prop := ∃ x y z u v w, K.bra = [x, y, z] ∧ K.ket = [u, v, w]

theorem canonKey_val {S : PairOf} {μ : Fin 3 → ℝ[X] → ℝ} (hμ : Parts S μ) (c : Int) (K : Key) (hK : K.Full) :
    ((canonKey (c, K)).1 : ℝ) * S.key μ (canonKey (c, K)).2 = (c : ℝ) * S.key μ K := by
  obtain ⟨geo, bra, ket⟩ := K
  obtain ⟨x, y, z, u, v, w, h1, h2⟩ := hK
  dsimp only at h1 h2
  subst h1 h2
  unfold PairOf.key
  show ((c * ([(byParts x u).1, (byParts y v).1, (byParts z w).1]).prod : Int) : ℝ) * (S.geo geo *
    (S.dir μ 0 (byParts x u).2.1 (byParts x u).2.2 * S.dir μ 1 (byParts y v).2.1 (byParts y v).2.2 *
      S.dir μ 2 (byParts z w).2.1 (byParts z w).2.2)) = c * (S.geo geo * (S.dir μ 0 x u * S.dir μ 1 y v * S.dir μ 2 z w))
  rw [dir_byParts hμ 0 x u, dir_byParts hμ 1 y v, dir_byParts hμ 2 z w]
  simp only [List.prod_cons, List.prod_nil, mul_one]
  push_cast
  ring

theorem sameInt_val {S : PairOf} {μ : Fin 3 → ℝ[X] → ℝ} (hμ : Parts S μ) {l m : List (Int × Key)}
    (hl : ∀ x ∈ l, x.2.Full) (hm : ∀ x ∈ m, x.2.Full) (h : sameInt l m = true) :
    sumVal (S.key μ) l = sumVal (S.key μ) m := by
  have key : ∀ l : List (Int × Key), (∀ x ∈ l, x.2.Full) → sumVal (S.key μ) (l.map canonKey) = sumVal (S.key μ) l := by
    intro l hl
    unfold sumVal
    rw [List.map_map]
    congr 1
    refine List.map_congr_left (fun x hx => ?_)
    exact canonKey_val hμ x.1 x.2 (hl x hx)
  rw [← key l hl, ← key m hm]
  exact sameSum_val h _

theorem termKey_full (t : Term) : (termKey t).Full := ⟨_, _, _, _, _, _, rfl, rfl⟩
theorem progKey_full (geo : List Nat) (W : Nat → List (GOp × Fin 4)) : (progKey geo W).Full := ⟨_, _, _, _, _, _, rfl, rfl⟩

/-! ### Terms of the definitions -/

/-- moments of the product Gaussian -/
noncomputable def PairOf.mu (S : PairOf) (k : Fin 3) (q : ℝ[X]) : ℝ :=
  moment (S.a+S.b) ((S.a*S.A k+S.b*S.B k)/(S.a+S.b)) q

noncomputable def PairOf.pre (S : PairOf) : ℝ := Real.exp (-(S.a*S.b/(S.a+S.b)) * ∑ k, (S.A k - S.B k)^2)

theorem parts_mu {S : PairOf} (h : 0 < S.a + S.b) : Parts S S.mu := by
  intro k q q'
  unfold PairOf.mu
  have e : elL S.a (S.A k) (S.O k) .d q * q' = C (-1) * (q * elL S.b (S.B k) (S.O k) .d q') +
      (derivative (q*q') + C (-(2*(S.a+S.b))) * ((X - C ((S.a*S.A k+S.b*S.B k)/(S.a+S.b))) * (q*q'))) := by
    show (derivative q - C (2*S.a) * (X - C (S.A k)) * q) * q' = C (-1) * (q * (derivative q' - C (2*S.b) * (X - C (S.B k)) * q')) + _
    have h2 : C (-(2*(S.a+S.b))) * (X - C ((S.a*S.A k+S.b*S.B k)/(S.a+S.b))) =
        -(C (2*S.a) * (X - C (S.A k)) + C (2*S.b) * (X - C (S.B k))) := by
      have : (-(2*(S.a+S.b))) * ((S.a*S.A k+S.b*S.B k)/(S.a+S.b)) = -(2*S.a*S.A k + 2*S.b*S.B k) := by
        field_simp
      rw [mul_sub, ← C_mul, this]
      simp only [C_neg, C_add, C_mul]
      ring
    rw [derivative_mul, C_neg (a := (1:ℝ)), C_1]
    linear_combination -(q*q') * h2
  rw [e, moment_add h, moment_C_mul, moment_add h, moment_C_mul, moment_parts h]
  field_simp
  ring

theorem term_val (S : PairOf) (h : 0 < S.a + S.b) (t : Term) :
    Term.val S.O S.A S.B (gto S.a S.A S.n) (gto S.b S.B S.m) t =
      ((t.re : ℂ) + Complex.I * (t.im : ℂ)) * ((S.pre * S.key S.mu (termKey t) : ℝ) : ℂ) := by
  unfold Term.val
  congr 2
  rw [gto_gP, gto_gP, act_gP, act_gP, braket_gP h.ne', S.geo_list]
  rw [Fin.prod_univ_three]
  unfold PairOf.key PairOf.dir PairOf.pre
  show _ = _ * (S.geo (geoCount t.geo) * (S.mu 0 _ * S.mu 1 _ * S.mu 2 _))
  unfold PairOf.mu
  show S.geo (geoCount t.geo) * (_ * _) = _ * (S.geo (geoCount t.geo) * _)
  exact mul_left_comm _ _ _

theorem op_val (S : PairOf) (h : 0 < S.a + S.b) (P : Op) :
    Op.val S.O S.A S.B (gto S.a S.A S.n) (gto S.b S.B S.m) P =
      ((S.pre * sumVal (S.key S.mu) (opRe P) : ℝ) : ℂ) + Complex.I * ((S.pre * sumVal (S.key S.mu) (opIm P) : ℝ) : ℂ) := by
  induction P with
  | nil => simp [Op.val, sumVal, opRe, opIm]
  | cons t P ih =>
    have h1 : Op.val S.O S.A S.B (gto S.a S.A S.n) (gto S.b S.B S.m) (t :: P) =
        Term.val S.O S.A S.B (gto S.a S.A S.n) (gto S.b S.B S.m) t + Op.val S.O S.A S.B (gto S.a S.A S.n) (gto S.b S.B S.m) P := by
      simp [Op.val]
    have h2 : sumVal (S.key S.mu) (opRe (t :: P)) = (t.re : ℝ) * S.key S.mu (termKey t) + sumVal (S.key S.mu) (opRe P) := by
      simp [sumVal, opRe]
    have h3 : sumVal (S.key S.mu) (opIm (t :: P)) = (t.im : ℝ) * S.key S.mu (termKey t) + sumVal (S.key S.mu) (opIm P) := by
      simp [sumVal, opIm]
    rw [h1, ih, term_val S h, h2, h3]
    push_cast
    ring

/-! ### Linearity in the functions -/

theorem braket_sum {ι κ : Type} (s : Finset ι) (s' : Finset κ) (c a : ι → ℝ) (c' b : κ → ℝ) (A B : Pt)
    (q : ι → Fin 3 → ℝ[X]) (q' : κ → Fin 3 → ℝ[X]) (h : ∀ i ∈ s, ∀ j ∈ s', 0 < a i + b j) :
    braket (fun r => ∑ i ∈ s, c i * gP (a i) A (q i) r) (fun r => ∑ j ∈ s', c' j * gP (b j) B (q' j) r) =
      ∑ j ∈ s', ∑ i ∈ s, c' j * (c i * braket (gP (a i) A (q i)) (gP (b j) B (q' j))) := by
  unfold braket
  simp_rw [← integral_const_mul]
  have hint : ∀ j ∈ s', ∀ i ∈ s, Integrable fun r => c' j * (c i * (gP (a i) A (q i) r * gP (b j) B (q' j) r)) :=
    fun j hj i hi => ((integrable_gP (h i hi j hj) A B (q i) (q' j)).const_mul _).const_mul _
  have h2 : ∀ j ∈ s', (∑ i ∈ s, ∫ r, c' j * (c i * (gP (a i) A (q i) r * gP (b j) B (q' j) r))) =
      ∫ r, ∑ i ∈ s, c' j * (c i * (gP (a i) A (q i) r * gP (b j) B (q' j) r)) :=
    fun j hj => (integral_finsetSum _ (hint j hj)).symm
  rw [Finset.sum_congr rfl h2, ← integral_finsetSum _ (fun j hj => integrable_finsetSum _ (hint j hj))]
  congr 1
  funext r
  rw [Finset.sum_mul_sum, Finset.sum_comm]
  refine Finset.sum_congr rfl (fun j _ => Finset.sum_congr rfl (fun i _ => ?_))
  ring

/-- the integral over contracted functions is the contraction of the integrals over primitives -/
theorem op_val_cgto {O A B : Pt} {ni nj : ℕ} {ai ci aj cj : ℕ → ℝ} {n m : Fin 3 → ℕ} {ic jc : ℕ} (P : Op)
    (h : ∀ ip jp, ip < ni → jp < nj → 0 < ai ip + aj jp) :
    Op.val O A B (cgto ni ai ci A ic n) (cgto nj aj cj B jc m) P =
      ∑ jp ∈ Finset.range nj, ∑ ip ∈ Finset.range ni, ((cj (nj*jc+jp) : ℝ) : ℂ) * (((ci (ni*ic+ip) : ℝ) : ℂ) *
        Op.val O A B (gto (ai ip) A n) (gto (aj jp) B m) P) := by
  have hc : ∀ (np : ℕ) (a c : ℕ → ℝ) (R : Pt) (ic : ℕ) (n : Fin 3 → ℕ), cgto np a c R ic n =
      fun r => ∑ ip ∈ Finset.range np, c (np*ic+ip) * gP (a ip) R (fun k => (X - C (R k))^n k) r := by
    intro np a c R ic n
    funext r
    unfold cgto
    simp_rw [gto_gP]
  have ht : ∀ t : Term, Term.val O A B (cgto ni ai ci A ic n) (cgto nj aj cj B jc m) t =
      ∑ jp ∈ Finset.range nj, ∑ ip ∈ Finset.range ni, ((cj (nj*jc+jp) : ℝ) : ℂ) * (((ci (ni*ic+ip) : ℝ) : ℂ) *
        Term.val O A B (gto (ai ip) A n) (gto (aj jp) B m) t) := by
    intro t
    unfold Term.val
    rw [hc, hc, act_sum, act_sum, braket_sum _ _ _ _ _ _ _ _ _ _ (fun i hi j hj => h i j (Finset.mem_range.1 hi) (Finset.mem_range.1 hj))]
    simp_rw [gto_gP, act_gP]
    push_cast
    simp_rw [Finset.mul_sum]
    refine Finset.sum_congr rfl (fun j _ => Finset.sum_congr rfl (fun i _ => ?_))
    ring
  induction P with
  | nil => simp [Op.val]
  | cons t P ih =>
    have h1 : ∀ f g, Op.val O A B f g (t :: P) = Term.val O A B f g t + Op.val O A B f g P := by
      intro f g; simp [Op.val]
    simp_rw [h1]
    rw [ih, ht]
    simp_rw [mul_add, Finset.sum_add_distrib]

end Verif.Lemmas
