import Verif.Spec.SpinorFn
import Mathlib.Tactic.Ring
import Mathlib.Tactic.LinearCombination

/-! The numbers `Cx ℝ` are the complex numbers; the components of an operator with spin are its matrix. -/
namespace Verif.Lemmas
open Verif Verif.Model Verif.Spec

theorem toC_mul (a b : Cx ℝ) : (a * b).toC = a.toC * b.toC := by
  apply Complex.ext
  · simp [Cx.toC, QuadraticAlgebra.re_mul, sub_eq_add_neg]
  · simp [Cx.toC, QuadraticAlgebra.im_mul]

theorem toC_add (a b : Cx ℝ) : (a + b).toC = a.toC + b.toC := rfl

theorem toC_sub (a b : Cx ℝ) : (a - b).toC = a.toC - b.toC := rfl

theorem toC_zero : (0 : Cx ℝ).toC = 0 := rfl

theorem toC_star (a : Cx ℝ) : (star a).toC = star a.toC := by
  apply Complex.ext <;> simp [Cx.toC, QuadraticAlgebra.re_star, QuadraticAlgebra.im_star]

theorem toC_ofR (x : ℝ) : (Cx.ofR x).toC = (x : ℂ) := rfl

theorem toC_i : (Cx.i : Cx ℝ).toC = Complex.I := rfl

theorem toC_sum {ι : Type} (s : Finset ι) (f : ι → Cx ℝ) : (∑ a ∈ s, f a).toC = ∑ a ∈ s, (f a).toC := by
  classical
  induction s using Finset.induction_on with
  | empty => rfl
  | insert a s h ih => rw [Finset.sum_insert h, Finset.sum_insert h, toC_add, ih]

theorem toC_inj {a b : Cx ℝ} (h : a.toC = b.toC) : a = b := by
  have h1 := congrArg Complex.re h
  have h2 := congrArg Complex.im h
  exact QuadraticAlgebra.ext h1 h2

theorem toC_spinor2 (si ph : Bool) (k1 k2 : Int) (l1 l2 : Nat) (x : Nat → Nat → Nat → Cx ℝ) (i j : Nat) :
    (spinor2 si ph k1 k2 l1 l2 x i j).toC = ∑ m ∈ Finset.range (ncart l1), ∑ n ∈ Finset.range (ncart l2), ∑ s : Bool, ∑ t : Bool,
      star (cjCoef k1 l1 i s m : Cx ℝ).toC * ((if ph then Complex.I else 1) * (spinMat si (fun c => x c m n) s t).toC) *
        (cjCoef k2 l2 j t n : Cx ℝ).toC := by
  unfold spinor2 phase
  cases ph
  · simp only [Bool.false_eq_true, if_false, one_mul, toC_sum, toC_mul, toC_star]
  · simp only [if_true, toC_sum, toC_mul, toC_star, toC_i, Finset.mul_sum]
    refine Finset.sum_congr rfl fun _ _ => Finset.sum_congr rfl fun _ _ => Finset.sum_congr rfl fun _ _ =>
      Finset.sum_congr rfl fun _ _ => ?_
    ring

theorem val_append (O A B : Pt) (f g : Pt → ℝ) (P Q : Op) : Op.val O A B f g (P ++ Q) = Op.val O A B f g P + Op.val O A B f g Q := by
  unfold Op.val
  rw [List.map_append, List.sum_append]

theorem val_nil (O A B : Pt) (f g : Pt → ℝ) : Op.val O A B f g [] = 0 := rfl

theorem val_cst (O A B : Pt) (f g : Pt → ℝ) (re im : Int) (P : Op) : Op.val O A B f g (Op.mul (.cst re im) P) =
    ((re : ℂ) + Complex.I * (im : ℂ)) * Op.val O A B f g P := by
  unfold Op.val Op.mul Op.cst
  rw [List.flatMap_singleton, List.map_map, ← List.sum_map_mul_left]
  congr 1
  refine List.map_congr_left fun t _ => ?_
  unfold Term.mul Term.val
  simp only [Function.comp, List.nil_append, Complex.ofReal_mul]
  push_cast
  have := Complex.I_mul_I
  linear_combination (-(im : ℂ) * t.im * (((t.geo.map fun k => A k - B k).prod : ℝ) * (braket (Word.act O A t.bra f) (Word.act O B t.ket g) : ℝ))) * this

theorem mul_nil (P : Op) : Op.mul P [] = [] := by unfold Op.mul; simp
theorem nil_mul (P : Op) : Op.mul [] P = [] := rfl

theorem flatMap_getElem {β γ : Type} (f : β → List γ) (n : Nat) (hf : ∀ b, (f b).length = n) (l : List β) (T c : Nat) (hT : T < l.length)
    (hc : c < n) (h : T*n + c < (l.flatMap f).length) (h' : c < (f l[T]).length) : (l.flatMap f)[T*n+c] = (f l[T])[c] := by
  induction l generalizing T with
  | nil => simp at hT
  | cons b l ih =>
    cases T with
    | zero =>
      simp only [Nat.zero_mul, Nat.zero_add, List.flatMap_cons, List.getElem_cons_zero]
      rw [List.getElem_append_left]
    | succ T =>
      simp only [List.flatMap_cons, List.getElem_cons_succ]
      have e : (T+1)*n + c = (f b).length + (T*n + c) := by rw [hf]; ring
      have h2 : T*n + c < (l.flatMap f).length := by
        rw [List.flatMap_cons, List.length_append, e] at h
        omega
      rw [List.getElem_append_right (by omega)]
      rw [← ih T (by simpa using hT) h2 (by rw [hf]; exact hc)]
      congr 1
      omega

theorem out_length (D : Def1e) : D.out.length = (if D.spin then 4 else 1) * D.ops.length := by
  unfold Def1e.out Def1e.ops
  rw [List.length_map]
  cases hs : D.spin
  · simp [List.length_flatMap]
  · simp [List.length_flatMap, Nat.mul_comm]

theorem out_index (D : Def1e) {T c : Nat} (hT : T < D.ops.length) (hc : c < if D.spin then 4 else 1) :
    T*(if D.spin then 4 else 1)+c < D.out.length := by
  rw [out_length, Nat.mul_comm (if D.spin then 4 else 1)]
  have := Nat.mul_le_mul_right (if D.spin then 4 else 1) (show T+1 ≤ D.ops.length from hT)
  rw [Nat.add_mul, Nat.one_mul] at this
  exact lt_of_lt_of_le (Nat.add_lt_add_left hc _) this

/-- multiplication with -i -/
theorem minus_i (O A B : Pt) (f g : Pt → ℝ) (q : Quat) :
    Op.val O A B f g (Quat.cst 0 (-1) * q).one = -Complex.I * Op.val O A B f g q.one ∧
    Op.val O A B f g (Quat.cst 0 (-1) * q).x = -Complex.I * Op.val O A B f g q.x ∧
    Op.val O A B f g (Quat.cst 0 (-1) * q).y = -Complex.I * Op.val O A B f g q.y ∧
    Op.val O A B f g (Quat.cst 0 (-1) * q).z = -Complex.I * Op.val O A B f g q.z := by
  have m1 : ∀ P : Op, Op.val O A B f g (Op.mul (.cst 0 (-1)) P) = -Complex.I * Op.val O A B f g P := by
    intro P; rw [val_cst]; push_cast; ring
  refine ⟨?_, ?_, ?_, ?_⟩
  · show Op.val O A B f g (Op.mul (.cst 0 (-1)) q.one ++ Op.mul [] q.x ++ Op.mul [] q.y ++ Op.mul [] q.z) = _
    simp only [nil_mul, List.append_nil, m1]
  · show Op.val O A B f g (Op.mul (.cst 0 (-1)) q.x ++ Op.mul [] q.one ++ Op.mul (.cst 0 1) (Op.mul [] q.z) ++
      Op.mul (.cst 0 (-1)) (Op.mul [] q.y)) = _
    simp only [nil_mul, mul_nil, List.append_nil, m1]
  · show Op.val O A B f g (Op.mul (.cst 0 (-1)) q.y ++ Op.mul [] q.one ++ Op.mul (.cst 0 1) (Op.mul [] q.x) ++
      Op.mul (.cst 0 (-1)) (Op.mul [] q.z)) = _
    simp only [nil_mul, mul_nil, List.append_nil, m1]
  · show Op.val O A B f g (Op.mul (.cst 0 (-1)) q.z ++ Op.mul [] q.one ++ Op.mul (.cst 0 1) (Op.mul [] q.y) ++
      Op.mul (.cst 0 (-1)) (Op.mul [] q.x)) = _
    simp only [nil_mul, mul_nil, List.append_nil, m1]

/-- the components of the operator, as the driver returns them, make up its matrix in spin space -/
theorem spinMat_out (D : Def1e) (O A B : Pt) (f g : Pt → ℝ) (T : Nat) (hT : T < D.ops.length) (v : Nat → ℝ) (w : ℂ)
    (hv : ∀ c (hc : c < if D.spin then 4 else 1), (v c : ℂ) = w * Op.val O A B f g (D.out[T*(if D.spin then 4 else 1)+c]'(out_index D hT hc))) (s t : Bool) :
    (if D.imag then Complex.I else 1) * (spinMat D.spin (fun c => Cx.ofR (v c)) s t).toC = w * Quat.mat O A B f g D.ops[T] s t := by
  obtain ⟨num, den, im, sp, bra, ket⟩ := D
  have hT' : T < (tens (bra.map Quat.dag) ket).length := by simpa [Def1e.ops] using hT
  have hq : ∃ q : Quat, (tens (bra.map Quat.dag) ket)[T] = q := ⟨_, rfl⟩
  obtain ⟨q, hq⟩ := hq
  have hop : (Def1e.ops ⟨num, den, im, sp, bra, ket⟩)[T] = if sp then q else .sf q.one := by
    simp [Def1e.ops, hq]
  rw [hop]
  have hI := Complex.I_mul_I
  cases sp
  · simp only [Bool.false_eq_true, if_false] at hv ⊢
    have h0 := hv 0 (by decide)
    unfold Def1e.out at h0
    dsimp only at h0
    rw [flatMap_getElem _ 1 (fun _ => by simp) _ T 0 hT' (by decide) _ (by simp)] at h0
    simp only [Bool.false_eq_true, if_false, List.getElem_cons_zero, hq] at h0
    have key : (if im then Complex.I else 1) * ((v 0 : ℝ) : ℂ) = w * Op.val O A B f g q.one := by
      rw [h0]
      cases im
      · simp
      · simp only [if_true]
        rw [(minus_i O A B f g q).1]
        linear_combination (-w * Op.val O A B f g q.one) * hI
    unfold spinMat scalar2 Quat.mat Quat.sf
    cases s <;> cases t <;> simp only [Bool.false_eq_true, if_false, toC_ofR, toC_zero, val_nil, add_zero, sub_zero, mul_zero, zero_mul] <;>
      exact key
  · simp only [if_true] at hv ⊢
    have m1 : ∀ P : Op, Op.val O A B f g (Op.mul (.cst 0 (-1)) P) = -Complex.I * Op.val O A B f g P := by
      intro P; rw [val_cst]; push_cast; ring
    have hc : ∀ c, c < 4 → (if im then Complex.I else 1) * ((v c : ℝ) : ℂ) =
        w * Op.val O A B f g ([Op.mul (.cst 0 (-1)) q.x, Op.mul (.cst 0 (-1)) q.y, Op.mul (.cst 0 (-1)) q.z, q.one].getD c []) := by
      intro c hc4
      have h0 := hv c hc4
      unfold Def1e.out at h0
      dsimp only at h0
      rw [flatMap_getElem _ 4 (fun _ => by simp) _ T c hT' hc4 _ (by simpa using hc4)] at h0
      simp only [if_true, hq] at h0
      rw [h0]
      obtain ⟨a1, a2, a3, a4⟩ := minus_i O A B f g q
      have hcc : c = 0 ∨ c = 1 ∨ c = 2 ∨ c = 3 := by omega
      cases im
      · rcases hcc with rfl | rfl | rfl | rfl <;> simp
      · rcases hcc with rfl | rfl | rfl | rfl <;>
          simp only [if_true, List.getElem_cons_zero, List.getElem_cons_succ, List.getD_cons_zero, List.getD_cons_succ, m1, a1, a2, a3, a4]
        · linear_combination (w * Complex.I * Op.val O A B f g q.x) * hI
        · linear_combination (w * Complex.I * Op.val O A B f g q.y) * hI
        · linear_combination (w * Complex.I * Op.val O A B f g q.z) * hI
        · linear_combination (-w * Op.val O A B f g q.one) * hI
    have c0 := hc 0 (by decide)
    have c1 := hc 1 (by decide)
    have c2 := hc 2 (by decide)
    have c3 := hc 3 (by decide)
    simp only [List.getD_cons_zero, List.getD_cons_succ, m1] at c0 c1 c2 c3
    generalize (if im = true then Complex.I else 1) = e at c0 c1 c2 c3 ⊢
    unfold spinMat Quat.mat
    simp only [if_true]
    cases s <;> cases t <;> simp only [pauli, toC_add, toC_sub, toC_mul, toC_i, toC_ofR]
    · linear_combination c3 + Complex.I * c2 - w * Op.val O A B f g q.z * hI
    · linear_combination Complex.I * c0 - Complex.I * Complex.I * c1 - w * Op.val O A B f g q.x * hI + w * Complex.I * Op.val O A B f g q.y * hI
    · linear_combination Complex.I * c0 + Complex.I * Complex.I * c1 - w * Op.val O A B f g q.x * hI - w * Complex.I * Op.val O A B f g q.y * hI
    · linear_combination c3 - Complex.I * c2 + w * Op.val O A B f g q.z * hI

end Verif.Lemmas
