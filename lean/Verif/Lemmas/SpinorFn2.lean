import Verif.Lemmas.SpinorFn
import Verif.Spec.SpinorFn2

/-! The components of operators with spin on two electrons make up their matrix in both spin spaces. -/
namespace Verif.Lemmas
open Verif Verif.Model Verif.Spec

/-- what depends linearly on an operator built from a spin operator -/
structure LinOp (Φ : (Quat → Op) → ℂ) : Prop where
  add : ∀ a b, Φ (fun q => a q ++ b q) = Φ a + Φ b
  nil : Φ (fun _ => []) = 0
  cst : ∀ (re im : Int) a, Φ (fun q => Op.mul (.cst re im) (a q)) = ((re : ℂ) + Complex.I * (im : ℂ)) * Φ a

theorem spinParts_length (spin imag : Bool) : (spinParts spin imag).length = if spin then 4 else 1 := by
  unfold spinParts; cases spin <;> rfl

theorem mul_cst_nil (re im : Int) : Op.mul (.cst re im) [] = [] := by unfold Op.mul; simp

/-- the components of the factor of one electron make up its matrix -/
theorem spinMat_parts {Φ : (Quat → Op) → ℂ} (hΦ : LinOp Φ) (spin imag : Bool) (v : Nat → Cx ℝ)
    (hv : ∀ c (hc : c < (spinParts spin imag).length), (v c).toC = Φ (spinParts spin imag)[c]) (σ τ : Bool) :
    (if imag then Complex.I else 1) * (spinMat spin v σ τ).toC =
      Φ (fun q => (if spin then q else .sf q.one).entry σ τ) := by
  have hI := Complex.I_mul_I
  have c1 : ∀ a, Φ (fun q => Op.mul (.cst 1 0) (a q)) = Φ a := by intro a; rw [hΦ.cst]; push_cast; ring
  have ci : ∀ a, Φ (fun q => Op.mul (.cst 0 (-1)) (a q)) = -Complex.I * Φ a := by intro a; rw [hΦ.cst]; push_cast; ring
  have cp : ∀ a, Φ (fun q => Op.mul (.cst 0 1) (a q)) = Complex.I * Φ a := by intro a; rw [hΦ.cst]; push_cast; ring
  have cm : ∀ a, Φ (fun q => Op.mul (.cst (-1) 0) (a q)) = -Φ a := by intro a; rw [hΦ.cst]; push_cast; ring
  cases spin
  · have h0 := hv 0 (by rw [spinParts_length]; decide)
    have e0 : (if imag then Complex.I else 1) * (v 0).toC = Φ (fun q => q.one) := by
      rw [h0]
      unfold spinParts
      cases imag
      · simp only [Bool.false_eq_true, if_false, List.getElem_cons_zero, one_mul]
        exact c1 _
      · simp only [Bool.false_eq_true, if_false, if_true, List.getElem_cons_zero]
        rw [ci]
        linear_combination (-Φ (fun q => q.one)) * hI
    unfold spinMat scalar2
    cases σ <;> cases τ <;> simp only [Bool.false_eq_true, if_false, Quat.entry, Quat.sf, List.append_nil, List.nil_append, mul_cst_nil,
      toC_zero, mul_zero, hΦ.nil] <;> exact e0
  · have hc : ∀ c (hc : c < 4), (if imag then Complex.I else 1) * (v c).toC =
        Φ ([fun q : Quat => Op.mul (.cst 0 (-1)) q.x, fun q => Op.mul (.cst 0 (-1)) q.y, fun q => Op.mul (.cst 0 (-1)) q.z,
          fun q => q.one][c]'(by simpa using hc)) := by
      intro c hc4
      rw [hv c (by rw [spinParts_length]; exact hc4)]
      unfold spinParts
      have hcc : c = 0 ∨ c = 1 ∨ c = 2 ∨ c = 3 := by omega
      cases imag
      · rcases hcc with rfl | rfl | rfl | rfl <;>
          simp only [Bool.false_eq_true, if_true, if_false, List.getElem_cons_zero, List.getElem_cons_succ, one_mul] <;> exact c1 _
      · rcases hcc with rfl | rfl | rfl | rfl <;>
          simp only [if_true, List.getElem_cons_zero, List.getElem_cons_succ, ci]
        · linear_combination (Complex.I * Φ (fun q => q.x)) * hI
        · linear_combination (Complex.I * Φ (fun q => q.y)) * hI
        · linear_combination (Complex.I * Φ (fun q => q.z)) * hI
        · linear_combination (-Φ (fun q => q.one)) * hI
    have h0 := hc 0 (by decide)
    have h1 := hc 1 (by decide)
    have h2 := hc 2 (by decide)
    have h3 := hc 3 (by decide)
    simp only [List.getElem_cons_zero, List.getElem_cons_succ, ci] at h0 h1 h2 h3
    generalize (if imag = true then Complex.I else 1) = e at h0 h1 h2 h3 ⊢
    unfold spinMat
    simp only [if_true]
    cases σ <;> cases τ <;> simp only [pauli, Quat.entry, toC_add, toC_sub, toC_mul, toC_i, hΦ.add, ci, cp, cm]
    · linear_combination h3 + Complex.I * h2 - Φ (fun q => q.z) * hI
    · linear_combination Complex.I * h0 - Complex.I * Complex.I * h1 - Φ (fun q => q.x) * hI + Complex.I * Φ (fun q => q.y) * hI
    · linear_combination Complex.I * h0 + Complex.I * Complex.I * h1 - Φ (fun q => q.x) * hI - Complex.I * Φ (fun q => q.y) * hI
    · linear_combination h3 - Complex.I * h2 + Φ (fun q => q.z) * hI

theorem LinOp.smul {Φ : (Quat → Op) → ℂ} (h : LinOp Φ) (w : ℂ) : LinOp fun a => w * Φ a :=
  ⟨fun a b => by rw [h.add, mul_add], by rw [h.nil, mul_zero], fun re im a => by rw [h.cst]; ring⟩

theorem LinOp.smul_right {Φ : (Quat → Op) → ℂ} (h : LinOp Φ) (w : ℂ) : LinOp fun a => Φ a * w :=
  ⟨fun a b => by rw [h.add, add_mul], by rw [h.nil, zero_mul], fun re im a => by rw [h.cst]; ring⟩

theorem LinOp.sum {ι : Type} (s : Finset ι) {Φ : ι → (Quat → Op) → ℂ} (h : ∀ i, LinOp (Φ i)) : LinOp fun a => ∑ i ∈ s, Φ i a :=
  ⟨fun a b => by rw [← Finset.sum_add_distrib]; exact Finset.sum_congr rfl fun i _ => (h i).add a b,
   Finset.sum_eq_zero fun i _ => (h i).nil,
   fun re im a => by rw [Finset.mul_sum]; exact Finset.sum_congr rfl fun i _ => (h i).cst re im a⟩

section
variable (V : Pt → Pt → ℝ) (O A B C E : Pt) (f g h k : Pt → ℝ)

theorem val_times (P Q : Op) : Op2.val V O A B C E f g h k (P.times Q) =
    (P.map fun s => (Q.map fun t => Op2.valT V O A B C E f g h k (s, t)).sum).sum := by
  unfold Op2.val Op.times
  induction P with
  | nil => rfl
  | cons s P ih =>
    rw [List.flatMap_cons, List.map_append, List.sum_append, ih, List.map_cons, List.sum_cons, List.map_map]
    rfl

theorem val_flatMap (qs : List (Quat × Quat)) (F : Quat × Quat → Op2) : Op2.val V O A B C E f g h k (qs.flatMap F) =
    (qs.map fun q => Op2.val V O A B C E f g h k (F q)).sum := by
  induction qs with
  | nil => rfl
  | cons q qs ih =>
    rw [List.flatMap_cons, List.map_cons, List.sum_cons, ← ih]
    unfold Op2.val
    rw [List.map_append, List.sum_append]

theorem coef_mul (re im : Int) (t : Term) : (Term.mul ⟨re, im, [], [], []⟩ t).coef = ((re : ℂ) + Complex.I * (im : ℂ)) * t.coef := by
  unfold Term.mul Term.coef
  push_cast
  have := Complex.I_mul_I
  linear_combination (-(im : ℂ) * t.im) * this

theorem mul_cst_eq (re im : Int) (P : Op) : Op.mul (.cst re im) P = P.map (Term.mul ⟨re, im, [], [], []⟩) := by
  unfold Op.mul Op.cst
  rw [List.flatMap_singleton]

theorem lin_left (qs : List (Quat × Quat)) (b : Quat → Op) :
    LinOp fun a => (qs.map fun q => Op2.val V O A B C E f g h k ((a q.1).times (b q.2))).sum := by
  refine ⟨fun a a' => ?_, ?_, fun re im a => ?_⟩
  · rw [← List.sum_map_add]
    refine congrArg List.sum (List.map_congr_left fun q _ => ?_)
    rw [val_times, val_times, val_times, List.map_append, List.sum_append]
  · refine List.sum_eq_zero fun x hx => ?_
    obtain ⟨q, _, rfl⟩ := List.mem_map.1 hx
    rfl
  · rw [← List.sum_map_mul_left]
    refine congrArg List.sum (List.map_congr_left fun q _ => ?_)
    rw [val_times, val_times]
    beta_reduce
    rw [mul_cst_eq, List.map_map, ← List.sum_map_mul_left]
    refine congrArg List.sum (List.map_congr_left fun s _ => ?_)
    rw [← List.sum_map_mul_left]
    refine congrArg List.sum (List.map_congr_left fun t _ => ?_)
    unfold Op2.valT
    dsimp only
    rw [coef_mul]
    unfold Term.mul
    simp only [List.nil_append]
    ring

theorem lin_right (qs : List (Quat × Quat)) (a : Quat → Op) :
    LinOp fun b => (qs.map fun q => Op2.val V O A B C E f g h k ((a q.1).times (b q.2))).sum := by
  refine ⟨fun b b' => ?_, ?_, fun re im b => ?_⟩
  · rw [← List.sum_map_add]
    refine congrArg List.sum (List.map_congr_left fun q _ => ?_)
    rw [val_times, val_times, val_times, ← List.sum_map_add]
    refine congrArg List.sum (List.map_congr_left fun s _ => ?_)
    rw [List.map_append, List.sum_append]
  · refine List.sum_eq_zero fun x hx => ?_
    obtain ⟨q, _, rfl⟩ := List.mem_map.1 hx
    rw [val_times]
    refine List.sum_eq_zero fun x hx => ?_
    obtain ⟨s, _, rfl⟩ := List.mem_map.1 hx
    rfl
  · rw [← List.sum_map_mul_left]
    refine congrArg List.sum (List.map_congr_left fun q _ => ?_)
    rw [val_times, val_times, ← List.sum_map_mul_left]
    refine congrArg List.sum (List.map_congr_left fun s _ => ?_)
    beta_reduce
    rw [mul_cst_eq, List.map_map, ← List.sum_map_mul_left]
    refine congrArg List.sum (List.map_congr_left fun t _ => ?_)
    dsimp only [Function.comp]
    unfold Op2.valT
    dsimp only
    rw [coef_mul]
    unfold Term.mul
    simp only [List.nil_append]
    ring

end

/-- position of the product of component `c1` of electron 1 and `c2` of electron 2 -/
theorem out2_getElem (D : Def2e) {T c1 c2 : Nat} (hT : T < D.comps.length) (h2 : c2 < (spinParts D.spin2 D.imag2).length)
    (h1 : c1 < (spinParts D.spin1 D.imag1).length) :
    ∃ hm : (T * (if D.spin2 then 4 else 1) + c2) * (if D.spin1 then 4 else 1) + c1 < D.out.length,
      D.out[(T * (if D.spin2 then 4 else 1) + c2) * (if D.spin1 then 4 else 1) + c1] = D.comps[T].flatMap fun q =>
        ((spinParts D.spin1 D.imag1)[c1] q.1).times ((spinParts D.spin2 D.imag2)[c2] q.2) := by
  have l1 : (spinParts D.spin1 D.imag1).length = if D.spin1 then 4 else 1 := spinParts_length _ _
  have l2 : (spinParts D.spin2 D.imag2).length = if D.spin2 then 4 else 1 := spinParts_length _ _
  let F : List (Quat × Quat) → List (List (Quat × Quat) × (Quat → Op)) := fun qs => (spinParts D.spin2 D.imag2).map fun c => (qs, c)
  let G : List (Quat × Quat) × (Quat → Op) → List Op2 := fun y => (spinParts D.spin1 D.imag1).map fun c1 =>
    y.1.flatMap fun q => (c1 q.1).times (y.2 q.2)
  have e : D.out = (D.comps.flatMap F).flatMap G := by
    unfold Def2e.out
    rw [List.flatMap_assoc]
    refine congrArg (fun H => List.flatMap H D.comps) (funext fun qs => ?_)
    rw [List.flatMap_map]
    rfl
  have hF : ∀ qs, (F qs).length = if D.spin2 then 4 else 1 := fun qs => by rw [List.length_map, l2]
  have hG : ∀ y, (G y).length = if D.spin1 then 4 else 1 := fun y => by rw [List.length_map, l1]
  have hlF : (D.comps.flatMap F).length = D.comps.length * (if D.spin2 then 4 else 1) := by
    rw [List.length_flatMap]; simp [hF]
  have hlG : ((D.comps.flatMap F).flatMap G).length = D.comps.length * (if D.spin2 then 4 else 1) * (if D.spin1 then 4 else 1) := by
    rw [List.length_flatMap, ← hlF]; simp [hG]
  rw [l1] at h1
  rw [l2] at h2
  have b2 : T * (if D.spin2 then 4 else 1) + c2 < (D.comps.flatMap F).length := by
    rw [hlF]
    have := Nat.mul_le_mul_right (if D.spin2 then 4 else 1) (show T+1 ≤ D.comps.length from hT)
    rw [Nat.add_mul, Nat.one_mul] at this
    exact lt_of_lt_of_le (Nat.add_lt_add_left h2 _) this
  have b1 : (T * (if D.spin2 then 4 else 1) + c2) * (if D.spin1 then 4 else 1) + c1 < ((D.comps.flatMap F).flatMap G).length := by
    rw [hlG, ← hlF]
    have := Nat.mul_le_mul_right (if D.spin1 then 4 else 1) (show (T * (if D.spin2 then 4 else 1) + c2)+1 ≤ _ from b2)
    rw [Nat.add_mul, Nat.one_mul] at this
    exact lt_of_lt_of_le (Nat.add_lt_add_left h1 _) this
  refine ⟨by rw [e]; exact b1, ?_⟩
  have g1 := flatMap_getElem G _ hG (D.comps.flatMap F) _ c1 b2 h1 b1 (by rw [hG]; exact h1)
  have g2 := flatMap_getElem F _ hF D.comps T c2 hT h2 b2 (by rw [hF]; exact h2)
  rw [List.getElem_of_eq e, g1]
  simp only [G, List.getElem_map, g2, F]

theorem out2_length (D : Def2e) : D.out.length = (if D.spin1 then 4 else 1) * (if D.spin2 then 4 else 1) * D.ops.length := by
  unfold Def2e.out Def2e.ops
  rw [List.length_map, List.length_flatMap]
  have : ∀ qs : List (Quat × Quat), ((spinParts D.spin2 D.imag2).flatMap fun c2 => (spinParts D.spin1 D.imag1).map fun c1 =>
      qs.flatMap fun q => (c1 q.1).flatMap fun s => (c2 q.2).map fun t => (s, t)).length =
      (if D.spin1 then 4 else 1) * (if D.spin2 then 4 else 1) := by
    intro qs
    rw [List.length_flatMap]
    simp only [List.length_map, spinParts_length, List.map_const', List.sum_replicate, smul_eq_mul]
    exact Nat.mul_comm _ _
  simp only [this, List.map_const', List.sum_replicate, smul_eq_mul]
  exact Nat.mul_comm _ _

/-- The transformation with the tables of both electrons gives the matrix of the operator between the spin functions. -/
theorem two_spin (D : Def2e) (V : Pt → Pt → ℝ) (O A B C E : Pt) (f g h k : Nat → Pt → ℝ) (k1 k2 k3 k4 : Int) (l1 l2 l3 l4 : Nat)
    (T : Nat) (hT : T < D.comps.length) (x : Nat → Nat → Nat → Nat → Nat → ℝ) (w : ℂ)
    (hx : ∀ m a b c d (hm : m < D.out.length), a < ncart l1 → b < ncart l2 → c < ncart l3 → d < ncart l4 →
      (x m a b c d : ℂ) = w * Op2.val V O A B C E (f a) (g b) (h c) (k d) D.out[m]) (i j i' j' : Nat) :
    (spinor2 D.spin2 D.imag2 k3 k4 l3 l4 (fun c2 c d => spinor2 D.spin1 D.imag1 k1 k2 l1 l2 (fun c1 a b =>
        Cx.ofR (x ((T * (if D.spin2 then 4 else 1) + c2) * (if D.spin1 then 4 else 1) + c1) a b c d)) i j) i' j').toC =
      w * ∑ c ∈ Finset.range (ncart l3), ∑ d ∈ Finset.range (ncart l4), ∑ σ' : Bool, ∑ τ' : Bool,
        ∑ a ∈ Finset.range (ncart l1), ∑ b ∈ Finset.range (ncart l2), ∑ σ : Bool, ∑ τ : Bool,
        star (cjCoef k1 l1 i σ a : Cx ℝ).toC * (cjCoef k2 l2 j τ b : Cx ℝ).toC *
          (star (cjCoef k3 l3 i' σ' c : Cx ℝ).toC * (cjCoef k4 l4 j' τ' d : Cx ℝ).toC) *
          Op2.val V O A B C E (f a) (g b) (h c) (k d)
            (matrix2 (D.ops[T]'(by unfold Def2e.ops; rw [List.length_map]; exact hT)) σ τ σ' τ') := by
  rw [toC_spinor2, Finset.mul_sum]
  refine Finset.sum_congr rfl fun c hc => ?_
  rw [Finset.mul_sum]
  refine Finset.sum_congr rfl fun d hd => ?_
  rw [Finset.mul_sum]
  refine Finset.sum_congr rfl fun σ' _ => ?_
  rw [Finset.mul_sum]
  refine Finset.sum_congr rfl fun τ' _ => ?_
  rw [Finset.mem_range] at hc hd
  let E1 : Bool → Bool → Quat → Op := fun σ τ q => (if D.spin1 then q else .sf q.one).entry σ τ
  let Ψ : (Quat → Op) → ℂ := fun u => ∑ a ∈ Finset.range (ncart l1), ∑ b ∈ Finset.range (ncart l2), ∑ σ : Bool, ∑ τ : Bool,
    star (cjCoef k1 l1 i σ a : Cx ℝ).toC * (w * (D.comps[T].map fun q => Op2.val V O A B C E (f a) (g b) (h c) (k d)
      ((E1 σ τ q.1).times (u q.2))).sum) * (cjCoef k2 l2 j τ b : Cx ℝ).toC
  have hΨ : LinOp Ψ := LinOp.sum _ fun a => LinOp.sum _ fun b => LinOp.sum _ fun σ => LinOp.sum _ fun τ =>
    (((lin_right V O A B C E (f a) (g b) (h c) (k d) D.comps[T] (E1 σ τ)).smul w).smul _).smul_right _
  have key := spinMat_parts hΨ D.spin2 D.imag2 (fun c2 => spinor2 D.spin1 D.imag1 k1 k2 l1 l2 (fun c1 a b =>
        Cx.ofR (x ((T * (if D.spin2 then 4 else 1) + c2) * (if D.spin1 then 4 else 1) + c1) a b c d)) i j) (fun c2 h2 => by
    rw [toC_spinor2]
    refine Finset.sum_congr rfl fun a ha => Finset.sum_congr rfl fun b hb => Finset.sum_congr rfl fun σ _ =>
      Finset.sum_congr rfl fun τ _ => ?_
    rw [Finset.mem_range] at ha hb
    refine congrArg₂ (· * ·) (congrArg₂ (· * ·) rfl ?_) rfl
    refine spinMat_parts ((lin_left V O A B C E (f a) (g b) (h c) (k d) D.comps[T] (spinParts D.spin2 D.imag2)[c2]).smul w) D.spin1 D.imag1
      _ (fun c1 h1 => ?_) σ τ
    obtain ⟨hm, e⟩ := out2_getElem D hT h2 h1
    rw [toC_ofR, hx _ a b c d hm ha hb hc hd, e, val_flatMap]) σ' τ'
  rw [key, Finset.mul_sum, Finset.mul_sum, Finset.sum_mul]
  refine Finset.sum_congr rfl fun a ha => ?_
  rw [Finset.mul_sum, Finset.mul_sum, Finset.sum_mul]
  refine Finset.sum_congr rfl fun b hb => ?_
  rw [Finset.mul_sum, Finset.mul_sum, Finset.sum_mul]
  refine Finset.sum_congr rfl fun σ _ => ?_
  rw [Finset.mul_sum, Finset.mul_sum, Finset.sum_mul]
  refine Finset.sum_congr rfl fun τ _ => ?_
  have hmat : Op2.val V O A B C E (f a) (g b) (h c) (k d) (matrix2 (D.ops[T]'(by unfold Def2e.ops; rw [List.length_map]; exact hT)) σ τ σ' τ') =
      (D.comps[T].map fun q => Op2.val V O A B C E (f a) (g b) (h c) (k d)
        ((E1 σ τ q.1).times ((if D.spin2 then q.2 else .sf q.2.one).entry σ' τ'))).sum := by
    unfold matrix2
    rw [val_flatMap]
    simp only [Def2e.ops, List.getElem_map, List.map_map]
    rfl
  rw [hmat]
  ring

end Verif.Lemmas
