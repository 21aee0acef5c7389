import Verif.Lemmas.SpinorFn
import Verif.Spec.SpinorFnV

/-! The components of an operator with spin and a potential are its matrix (SpinorFn.lean with the potential). -/
namespace Verif.Lemmas
open Verif Verif.Model Verif.Spec

theorem val_appendV (V : Pt → ℝ) (O A B : Pt) (f g : Pt → ℝ) (P Q : Op) : Op.valV V O A B f g (P ++ Q) = Op.valV V O A B f g P + Op.valV V O A B f g Q := by
  unfold Op.valV
  rw [List.map_append, List.sum_append]

theorem val_nilV (V : Pt → ℝ) (O A B : Pt) (f g : Pt → ℝ) : Op.valV V O A B f g [] = 0 := rfl

theorem val_cstV (V : Pt → ℝ) (O A B : Pt) (f g : Pt → ℝ) (re im : Int) (P : Op) : Op.valV V O A B f g (Op.mul (.cst re im) P) =
    ((re : ℂ) + Complex.I * (im : ℂ)) * Op.valV V O A B f g P := by
  unfold Op.valV Op.mul Op.cst
  rw [List.flatMap_singleton, List.map_map, ← List.sum_map_mul_left]
  congr 1
  refine List.map_congr_left fun t _ => ?_
  unfold Term.mul Term.valV
  simp only [Function.comp, List.nil_append, Complex.ofReal_mul]
  push_cast
  have := Complex.I_mul_I
  linear_combination (-(im : ℂ) * t.im * (((t.geo.map fun k => A k - B k).prod : ℝ) * (braketV V (Word.act O A t.bra f) (Word.act O B t.ket g) : ℝ))) * this

/-- multiplication with -i -/
theorem minus_iV (V : Pt → ℝ) (O A B : Pt) (f g : Pt → ℝ) (q : Quat) :
    Op.valV V O A B f g (Quat.cst 0 (-1) * q).one = -Complex.I * Op.valV V O A B f g q.one ∧
    Op.valV V O A B f g (Quat.cst 0 (-1) * q).x = -Complex.I * Op.valV V O A B f g q.x ∧
    Op.valV V O A B f g (Quat.cst 0 (-1) * q).y = -Complex.I * Op.valV V O A B f g q.y ∧
    Op.valV V O A B f g (Quat.cst 0 (-1) * q).z = -Complex.I * Op.valV V O A B f g q.z := by
  have m1 : ∀ P : Op, Op.valV V O A B f g (Op.mul (.cst 0 (-1)) P) = -Complex.I * Op.valV V O A B f g P := by
    intro P; rw [val_cstV]; push_cast; ring
  refine ⟨?_, ?_, ?_, ?_⟩
  · show Op.valV V O A B f g (Op.mul (.cst 0 (-1)) q.one ++ Op.mul [] q.x ++ Op.mul [] q.y ++ Op.mul [] q.z) = _
    simp only [nil_mul, List.append_nil, m1]
  · show Op.valV V O A B f g (Op.mul (.cst 0 (-1)) q.x ++ Op.mul [] q.one ++ Op.mul (.cst 0 1) (Op.mul [] q.z) ++
      Op.mul (.cst 0 (-1)) (Op.mul [] q.y)) = _
    simp only [nil_mul, mul_nil, List.append_nil, m1]
  · show Op.valV V O A B f g (Op.mul (.cst 0 (-1)) q.y ++ Op.mul [] q.one ++ Op.mul (.cst 0 1) (Op.mul [] q.x) ++
      Op.mul (.cst 0 (-1)) (Op.mul [] q.z)) = _
    simp only [nil_mul, mul_nil, List.append_nil, m1]
  · show Op.valV V O A B f g (Op.mul (.cst 0 (-1)) q.z ++ Op.mul [] q.one ++ Op.mul (.cst 0 1) (Op.mul [] q.y) ++
      Op.mul (.cst 0 (-1)) (Op.mul [] q.x)) = _
    simp only [nil_mul, mul_nil, List.append_nil, m1]

/-- the components of the operator, as the driver returns them, make up its matrix in spin space -/
theorem spinMat_outV (D : Def1e) (V : Pt → ℝ) (O A B : Pt) (f g : Pt → ℝ) (T : Nat) (hT : T < D.ops.length) (v : Nat → ℝ) (w : ℂ)
    (hv : ∀ c (hc : c < if D.spin then 4 else 1), (v c : ℂ) = w * Op.valV V O A B f g (D.out[T*(if D.spin then 4 else 1)+c]'(out_index D hT hc))) (s t : Bool) :
    (if D.imag then Complex.I else 1) * (spinMat D.spin (fun c => Cx.ofR (v c)) s t).toC = w * Quat.matV V O A B f g D.ops[T] s t := by
  obtain ⟨num, den, im, sp, bra, ket⟩ := D
  have hT' : T < (tens (bra.map Quat.dag) ket).length := by simpa [Def1e.ops] using hT
  have hq : ∃ q : Quat, (tens (bra.map Quat.dag) ket)[T] = q := ⟨_, rfl⟩
  obtain ⟨q, hq⟩ := hq
  have hop : (Def1e.ops ⟨num, den, im, sp, bra, ket⟩)[T] = if sp then q else .sf q.one := by
    simp [Def1e.ops, hq]
  rw [hop]
  have hI := Complex.I_mul_I
  cases sp
  · simp only [Bool.false_eq_true, if_false] at hv ⊢
    have h0 := hv 0 (by decide)
    unfold Def1e.out at h0
    dsimp only at h0
    rw [flatMap_getElem _ 1 (fun _ => by simp) _ T 0 hT' (by decide) _ (by simp)] at h0
    simp only [Bool.false_eq_true, if_false, List.getElem_cons_zero, hq] at h0
    have key : (if im then Complex.I else 1) * ((v 0 : ℝ) : ℂ) = w * Op.valV V O A B f g q.one := by
      rw [h0]
      cases im
      · simp
      · simp only [if_true]
        rw [(minus_iV V O A B f g q).1]
        linear_combination (-w * Op.valV V O A B f g q.one) * hI
    unfold spinMat scalar2 Quat.matV Quat.sf
    cases s <;> cases t <;> simp only [Bool.false_eq_true, if_false, toC_ofR, toC_zero, val_nilV, add_zero, sub_zero, mul_zero, zero_mul] <;>
      exact key
  · simp only [if_true] at hv ⊢
    have m1 : ∀ P : Op, Op.valV V O A B f g (Op.mul (.cst 0 (-1)) P) = -Complex.I * Op.valV V O A B f g P := by
      intro P; rw [val_cstV]; push_cast; ring
    have hc : ∀ c, c < 4 → (if im then Complex.I else 1) * ((v c : ℝ) : ℂ) =
        w * Op.valV V O A B f g ([Op.mul (.cst 0 (-1)) q.x, Op.mul (.cst 0 (-1)) q.y, Op.mul (.cst 0 (-1)) q.z, q.one].getD c []) := by
      intro c hc4
      have h0 := hv c hc4
      unfold Def1e.out at h0
      dsimp only at h0
      rw [flatMap_getElem _ 4 (fun _ => by simp) _ T c hT' hc4 _ (by simpa using hc4)] at h0
      simp only [if_true, hq] at h0
      rw [h0]
      obtain ⟨a1, a2, a3, a4⟩ := minus_iV V O A B f g q
      have hcc : c = 0 ∨ c = 1 ∨ c = 2 ∨ c = 3 := by omega
      cases im
      · rcases hcc with rfl | rfl | rfl | rfl <;> simp
      · rcases hcc with rfl | rfl | rfl | rfl <;>
          simp only [if_true, List.getElem_cons_zero, List.getElem_cons_succ, List.getD_cons_zero, List.getD_cons_succ, m1, a1, a2, a3, a4]
        · linear_combination (w * Complex.I * Op.valV V O A B f g q.x) * hI
        · linear_combination (w * Complex.I * Op.valV V O A B f g q.y) * hI
        · linear_combination (w * Complex.I * Op.valV V O A B f g q.z) * hI
        · linear_combination (-w * Op.valV V O A B f g q.one) * hI
    have c0 := hc 0 (by decide)
    have c1 := hc 1 (by decide)
    have c2 := hc 2 (by decide)
    have c3 := hc 3 (by decide)
    simp only [List.getD_cons_zero, List.getD_cons_succ, m1] at c0 c1 c2 c3
    generalize (if im = true then Complex.I else 1) = e at c0 c1 c2 c3 ⊢
    unfold spinMat Quat.matV
    simp only [if_true]
    cases s <;> cases t <;> simp only [pauli, toC_add, toC_sub, toC_mul, toC_i, toC_ofR]
    · linear_combination c3 + Complex.I * c2 - w * Op.valV V O A B f g q.z * hI
    · linear_combination Complex.I * c0 - Complex.I * Complex.I * c1 - w * Op.valV V O A B f g q.x * hI + w * Complex.I * Op.valV V O A B f g q.y * hI
    · linear_combination Complex.I * c0 + Complex.I * Complex.I * c1 - w * Op.valV V O A B f g q.x * hI - w * Complex.I * Op.valV V O A B f g q.y * hI
    · linear_combination c3 - Complex.I * c2 + w * Op.valV V O A B f g q.z * hI

end Verif.Lemmas
