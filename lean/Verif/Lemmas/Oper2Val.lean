import Verif.Lemmas.Oper2Key
import Verif.Lemmas.OperVEval
import Verif.Props.EriExact

/-! Values of sums of products of operators on two electrons. -/
namespace Verif.Lemmas
open Verif Verif.Model Verif.Spec Verif.Prog Verif.Props MeasureTheory Polynomial

/-! ### Comparison -/

theorem sumVal_nonzero {κ : Type} (v : κ → ℝ) (l : List (Int × κ)) : sumVal v (l.filter fun x => x.1 ≠ 0) = sumVal v l := by
  unfold sumVal
  induction l with
  | nil => rfl
  | cons x l ih =>
    rw [List.filter_cons]
    by_cases h : x.1 = 0
    · simp [h] at ih ⊢
      exact ih
    · simp [h] at ih ⊢
      exact ih

theorem sameQ_val {κ : Type} [DecidableEq κ] {l m : List (Int × κ)} (h : sameQ l m = true) (v : κ → ℝ) :
    sumVal v l = sumVal v m := by
  unfold sameQ at h
  rw [Bool.or_eq_true] at h
  rcases h with h | h
  · rw [List.isPerm_iff] at h
    rw [← sumVal_nonzero v l, ← sumVal_nonzero v m]
    exact (h.map _).sum_eq
  · exact sameSum_val h v

theorem zeroQ_val {κ : Type} [DecidableEq κ] {m : List (Int × κ)} (h : zeroQ m = true) (v : κ → ℝ) : sumVal v m = 0 := by
  unfold zeroQ at h
  rw [Bool.or_eq_true] at h
  rcases h with h | h
  · unfold sumVal
    refine List.sum_eq_zero fun y hy => ?_
    obtain ⟨t, ht, rfl⟩ := List.mem_map.1 hy
    have := List.all_eq_true.1 h t ht
    rw [decide_eq_true_eq] at this
    rw [this]
    simp
  · rw [← sameSum_val h]
    rfl

/-! ### Values of keys -/

/-- the value of a key, for a functional of the polynomials of the two electrons -/
noncomputable def keyV2 (S T : PairOf) (I : (Fin 3 → ℝ[X]) → (Fin 3 → ℝ[X]) → ℝ) (K : Key × Key) : ℝ :=
  S.geo K.1.geo * T.geo K.2.geo * I (S.poly K.1.bra K.1.ket) (T.poly K.2.bra K.2.ket)

/-- the repulsion of two Gaussians times polynomials -/
noncomputable def eriInt2 (omega p q : ℝ) (P Q : Pt) (f g : Fin 3 → ℝ[X]) : ℝ :=
  repulsion (interaction omega) (pg p P f) (pg q Q g)

theorem poly_term (S : PairOf) (t : Term) (r : Pt) (h : 0 < S.a + S.b) :
    Word.act S.O S.A t.bra (gto S.a S.A S.n) r * Word.act S.O S.B t.ket (gto S.b S.B S.m) r =
      S.pre * pg (S.a+S.b) S.cen (S.poly (termKey t).bra (termKey t).ket) r := by
  rw [gto_gP, gto_gP, act_gP, act_gP, gP_mul h.ne']
  unfold PairOf.pre
  congr 2
  funext k
  fin_cases k <;> rfl

theorem term_val2 (S T : PairOf) (h : 0 < S.a + S.b) (h' : 0 < T.a + T.b) (hO : S.O = T.O) (omega : ℝ) (x : Term × Term) :
    Op2.valT (interaction omega) S.O S.A S.B T.A T.B (gto S.a S.A S.n) (gto S.b S.B S.m) (gto T.a T.A T.n) (gto T.b T.B T.m) x =
      x.1.coef * x.2.coef *
        ((S.pre * T.pre * keyV2 S T (eriInt2 omega (S.a+S.b) (T.a+T.b) S.cen T.cen) (termKey2 x) : ℝ) : ℂ) := by
  unfold Op2.valT
  congr 2
  have e1 := fun r => poly_term S x.1 r h
  have e2 := fun r => poly_term T x.2 r h'
  rw [hO] at e1
  rw [hO]
  simp only [e1, e2]
  rw [repulsion_smul, S.geo_list, T.geo_list]
  unfold keyV2 eriInt2 termKey2
  show S.geo (geoCount x.1.geo) * T.geo (geoCount x.2.geo) * (S.pre * T.pre * _) =
    S.pre * T.pre * (S.geo (geoCount x.1.geo) * T.geo (geoCount x.2.geo) * _)
  ring

theorem op_val2 (S T : PairOf) (h : 0 < S.a + S.b) (h' : 0 < T.a + T.b) (hO : S.O = T.O) (omega : ℝ) (P : Op2) :
    Op2.val (interaction omega) S.O S.A S.B T.A T.B (gto S.a S.A S.n) (gto S.b S.B S.m) (gto T.a T.A T.n) (gto T.b T.B T.m) P =
      ((S.pre * T.pre * sumVal (keyV2 S T (eriInt2 omega (S.a+S.b) (T.a+T.b) S.cen T.cen)) (opRe2 P) : ℝ) : ℂ) +
        Complex.I * ((S.pre * T.pre * sumVal (keyV2 S T (eriInt2 omega (S.a+S.b) (T.a+T.b) S.cen T.cen)) (opIm2 P) : ℝ) : ℂ) := by
  induction P with
  | nil => simp [Op2.val, sumVal, opRe2, opIm2]
  | cons x P ih =>
    have h1 : ∀ V O A B C D f g h k, Op2.val V O A B C D f g h k (x :: P) = Op2.valT V O A B C D f g h k x +
        Op2.val V O A B C D f g h k P := by
      intro V O A B C D f g h k; simp [Op2.val]
    have h2 : ∀ v : Key × Key → ℝ, sumVal v (opRe2 (x :: P)) =
        ((x.1.re*x.2.re - x.1.im*x.2.im : Int) : ℝ) * v (termKey2 x) + sumVal v (opRe2 P) := by
      intro v; simp [sumVal, opRe2]
    have h3 : ∀ v : Key × Key → ℝ, sumVal v (opIm2 (x :: P)) =
        ((x.1.re*x.2.im + x.1.im*x.2.re : Int) : ℝ) * v (termKey2 x) + sumVal v (opIm2 P) := by
      intro v; simp [sumVal, opIm2]
    rw [h1, ih, term_val2 S T h h' hO, h2, h3]
    unfold Term.coef
    generalize keyV2 S T _ _ = v
    generalize sumVal _ _ = v1
    generalize sumVal _ _ = v2
    push_cast
    linear_combination (x.1.im * x.2.im * (S.pre * T.pre * v) : ℂ) * Complex.I_mul_I

/-! ### Linearity in the functions -/

/-- the product of two contracted functions with operators on them -/
theorem act_cgto_mul {O A B : Pt} {ni nj : ℕ} {ai ci aj cj : ℕ → ℝ} {n m : Fin 3 → ℕ} {ic jc : ℕ} (v w : Word) (r : Pt) :
    Word.act O A v (cgto ni ai ci A ic n) r * Word.act O B w (cgto nj aj cj B jc m) r =
      ∑ p ∈ Finset.range ni ×ˢ Finset.range nj, (ci (ni*ic+p.1) * cj (nj*jc+p.2)) *
        (Word.act O A v (gto (ai p.1) A n) r * Word.act O B w (gto (aj p.2) B m) r) := by
  have hc : ∀ (np : ℕ) (a c : ℕ → ℝ) (R : Pt) (ic : ℕ) (n : Fin 3 → ℕ), cgto np a c R ic n =
      fun r => ∑ ip ∈ Finset.range np, c (np*ic+ip) * gP (a ip) R (fun k => (X - C (R k))^n k) r := by
    intro np a c R ic n
    funext r
    unfold cgto
    simp_rw [gto_gP]
  rw [hc, hc, act_sum, act_sum]
  dsimp only
  rw [Finset.sum_mul_sum, Finset.sum_product]
  refine Finset.sum_congr rfl fun i _ => Finset.sum_congr rfl fun j _ => ?_
  rw [gto_gP, gto_gP, act_gP, act_gP]
  ring

theorem integrable_act {a b c d : ℝ} (h1 : 0 < a + b) (h2 : 0 < c + d) (O A B C D : Pt) (n m p q : Fin 3 → ℕ) (v w v' w' : Word)
    (omega : ℝ) : Integrable fun z : Pt × Pt => (Word.act O A v (gto a A n) z.1 * Word.act O B w (gto b B m) z.1) *
      interaction omega z.1 z.2 * (Word.act O C v' (gto c C p) z.2 * Word.act O D w' (gto d D q) z.2) := by
  let S : PairOf := { a := a, b := b, A := A, B := B, O := O, n := n, m := m }
  let T : PairOf := { a := c, b := d, A := C, B := D, O := O, n := p, m := q }
  have e1 := fun r => poly_term S ⟨1, 0, [], v, w⟩ r h1
  have e2 := fun r => poly_term T ⟨1, 0, [], v', w'⟩ r h2
  have := (integrable_pg_int h1 h2 S.cen T.cen (S.poly (termKey ⟨1, 0, [], v, w⟩).bra (termKey ⟨1, 0, [], v, w⟩).ket)
    (T.poly (termKey ⟨1, 0, [], v', w'⟩).bra (termKey ⟨1, 0, [], v', w'⟩).ket) omega).const_mul (S.pre * T.pre)
  refine this.congr (Filter.Eventually.of_forall fun z => ?_)
  have a1 := e1 z.1
  have a2 := e2 z.2
  dsimp only [S, T] at a1 a2 ⊢
  rw [a1, a2]
  ring

/-- the integral over contracted functions is the contraction of the integrals over primitives -/
theorem op_val2_cgto {O A B C D : Pt} {ni nj nk nl : ℕ} {ai ci aj cj ak ck al cl : ℕ → ℝ} {n m p q : Fin 3 → ℕ} {ic jc kc lc : ℕ}
    (omega : ℝ) (P : Op2) (h : ∀ ip jp, ip < ni → jp < nj → 0 < ai ip + aj jp) (h' : ∀ kp lp, kp < nk → lp < nl → 0 < ak kp + al lp) :
    Op2.val (interaction omega) O A B C D (cgto ni ai ci A ic n) (cgto nj aj cj B jc m) (cgto nk ak ck C kc p) (cgto nl al cl D lc q) P =
      contract4C ni nj nk nl ci cj ck cl (fun ip jp kp lp =>
        Op2.val (interaction omega) O A B C D (gto (ai ip) A n) (gto (aj jp) B m) (gto (ak kp) C p) (gto (al lp) D q) P) ic jc kc lc := by
  have ht : ∀ x : Term × Term, Op2.valT (interaction omega) O A B C D (cgto ni ai ci A ic n) (cgto nj aj cj B jc m)
      (cgto nk ak ck C kc p) (cgto nl al cl D lc q) x =
      contract4C ni nj nk nl ci cj ck cl (fun ip jp kp lp =>
        Op2.valT (interaction omega) O A B C D (gto (ai ip) A n) (gto (aj jp) B m) (gto (ak kp) C p) (gto (al lp) D q) x) ic jc kc lc := by
    intro x
    unfold Op2.valT
    simp_rw [act_cgto_mul]
    rw [(repulsion_sum (V := interaction omega) _ _ _ _ (fun a ha b hb => by
      rw [Finset.mem_product, Finset.mem_range, Finset.mem_range] at ha hb
      exact integrable_act (h _ _ ha.1 ha.2) (h' _ _ hb.1 hb.2) O A B C D n m p q x.1.bra x.1.ket x.2.bra x.2.ket omega)).2]
    unfold contract4C
    rw [Finset.sum_comm, Finset.sum_product_right]
    push_cast
    rw [Finset.mul_sum, Finset.mul_sum]
    refine Finset.sum_congr rfl fun lp _ => ?_
    rw [Finset.mul_sum, Finset.mul_sum]
    refine Finset.sum_congr rfl fun kp _ => ?_
    rw [Finset.sum_product_right, Finset.mul_sum, Finset.mul_sum]
    refine Finset.sum_congr rfl fun jp _ => ?_
    rw [Finset.mul_sum, Finset.mul_sum]
    refine Finset.sum_congr rfl fun ip _ => ?_
    ring
  induction P with
  | nil => simp [Op2.val, contract4C]
  | cons x P ih =>
    have h1 : ∀ f g h k, Op2.val (interaction omega) O A B C D f g h k (x :: P) = Op2.valT (interaction omega) O A B C D f g h k x +
        Op2.val (interaction omega) O A B C D f g h k P := by
      intro f g h k; simp [Op2.val]
    simp_rw [h1]
    rw [ih, ht]
    unfold contract4C
    simp_rw [mul_add, Finset.sum_add_distrib]

/-! ### Products of the program -/

theorem onIdx_length4 (w : List (GOp × Fin 4)) :
    (onIdx 0 w).length + (onIdx 1 w).length + ((onIdx 2 w).length + (onIdx 3 w).length) = w.length := by
  induction w with
  | nil => rfl
  | cons o w ih =>
    obtain ⟨a, t⟩ := o
    simp only [onIdx_cons, List.length_cons]
    fin_cases t <;> simp <;> omega

theorem pairPoly_degree (S : PairOf) (K : Key) (k : Fin 3) : (S.poly K.bra K.ket k).natDegree ≤
    S.n k + S.m k + ((K.bra.getD k []).length + (K.ket.getD k []).length) := by
  unfold PairOf.poly
  refine natDegree_mul_le.trans ?_
  have h1 := wordE_degree S.a (S.A k) (S.O k) (K.bra.getD k []) ((X - C (S.A k))^S.n k)
  have h2 := wordE_degree S.b (S.B k) (S.O k) (K.ket.getD k []) ((X - C (S.B k))^S.m k)
  have h4 : ∀ (c : ℝ) (n : ℕ), ((X - C c)^n : ℝ[X]).natDegree ≤ n := fun c n =>
    natDegree_pow_le.trans (by rw [natDegree_X_sub_C, Nat.mul_one])
  have h5 := h4 (S.A k) (S.n k)
  have h6 := h4 (S.B k) (S.m k)
  omega

theorem poly_degree2 (S T : PairOf) (W : Nat → List (GOp × Fin 4)) (geo : List Nat) :
    ∑ k, ((S.poly (progKey2 geo W).1.bra (progKey2 geo W).1.ket k).natDegree +
      (T.poly (progKey2 geo W).2.bra (progKey2 geo W).2.ket k).natDegree) ≤
      (∑ k, S.n k + ∑ k, S.m k) + (∑ k, T.n k + ∑ k, T.m k) + wordsLen W := by
  have h : ∀ k : Fin 3, (S.poly (progKey2 geo W).1.bra (progKey2 geo W).1.ket k).natDegree +
      (T.poly (progKey2 geo W).2.bra (progKey2 geo W).2.ket k).natDegree ≤ S.n k + S.m k + (T.n k + T.m k) + (W k).length := by
    intro k
    have h1 := pairPoly_degree S (progKey2 geo W).1 k
    have h2 := pairPoly_degree T (progKey2 geo W).2 k
    have h3 := onIdx_length4 (W k)
    have e : ((progKey2 geo W).1.bra.getD k []).length + ((progKey2 geo W).1.ket.getD k []).length +
        (((progKey2 geo W).2.bra.getD k []).length + ((progKey2 geo W).2.ket.getD k []).length) = (W k).length := by
      rw [← h3]
      fin_cases k <;> rfl
    omega
  refine (Finset.sum_le_sum fun k _ => h k).trans ?_
  simp only [Fin.sum_univ_three]
  unfold wordsLen
  simp only [Fin.val_zero, Fin.val_one, Fin.val_two]
  omega

/-- the geometric factors of both electrons -/
theorem geo_prod2 (S T : PairOf) (D : OpData ℝ) (hA : ∀ k : Fin 3, D.R 0 k - D.R 1 k = S.A k - S.B k)
    (hB : ∀ k : Fin 3, D.R 2 k - D.R 3 k = T.A k - T.B k) (W : Nat → List (GOp × Fin 4)) (geo : List Nat) (h : ∀ n ∈ geo, n < 6) :
    (geo.map (geoFac D)).prod = S.geo (progKey2 geo W).1.geo * T.geo (progKey2 geo W).2.geo := by
  unfold progKey2
  rw [← PairOf.geo_list, ← PairOf.geo_list, List.map_map, List.map_map]
  induction geo with
  | nil => simp
  | cons x l ih =>
    have ih := ih fun n hn => h n (List.mem_cons_of_mem _ hn)
    have hx := h x List.mem_cons_self
    have e3 : ∀ y, y < 3 → ((toFin3 y : Fin 3) : Nat) = y := by
      intro y hy
      unfold toFin3
      rcases y with _ | _ | _ | y <;> simp <;> omega
    rw [List.map_cons, List.prod_cons, ih, List.filter_cons, List.filter_cons]
    by_cases hc : x < 3
    · have : geoFac D x = S.A (toFin3 x) - S.B (toFin3 x) := by
        unfold geoFac
        rw [if_pos hc, ← hA, e3 x hc]
      simp only [hc, decide_true, if_true, not_true_eq_false, decide_false, if_false, List.map_cons, List.prod_cons, Bool.false_eq_true]
      rw [this, mul_assoc]
      rfl
    · have : geoFac D x = T.A (toFin3 (x-3)) - T.B (toFin3 (x-3)) := by
        unfold geoFac
        rw [if_neg hc, ← hB, e3 (x-3) (by omega)]
      simp only [hc, decide_true, if_true, not_false_eq_true, decide_false, if_false, List.map_cons, List.prod_cons, Bool.false_eq_true]
      rw [this, mul_left_comm]
      rfl

end Verif.Lemmas
