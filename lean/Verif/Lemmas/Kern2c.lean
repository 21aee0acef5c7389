import Verif.Model.Int2c2e
import Verif.Lemmas.EriKernel

/-!
The evaluator of the two-centre integrals does what the four-centre one does for two absent shells: the strides of the absent
indices are not used, there is nothing to do for the horizontal recursion, and the unrolled kernels do not read `rirj`, `rkrl`.
-/
namespace Verif.Lemmas
open Verif Verif.Model Verif.Prog

variable {α : Type}

/-- the expression does not mention `rirj` and `rkrl` -/
def UExpr.noRR : UExpr → Bool
  | .rij _ => false
  | .rkl _ => false
  | .add a b => noRR a && noRR b
  | .mul a b => noRR a && noRR b
  | _ => true

/-- kernels for `lj_ceil = ll_ceil = 0` do not mention `rirj` and `rkrl` -/
def casesNoRR (cases : List (Nat × List (Nat × UExpr))) : Bool :=
  (List.range 4).all fun li => (List.range 4).all fun lk =>
    match cases.lookup ((li <<< 6) ||| (0 <<< 4) ||| (lk <<< 2) ||| 0) with
    | some l => l.all fun x => UExpr.noRR x.2
    | none => true

theorem unrolled_noRR : casesNoRR Unrolled.unrolled = true := by decide +kernel
theorem srUnrolled_noRR : casesNoRR Unrolled.srUnrolled = true := by decide +kernel

section
variable [Field α]

theorem eval_noRR {bc : Rys2eT α} {r1 r2 t1 t2 : Nat → α} {g : Ptr} :
    ∀ {x : UExpr}, UExpr.noRR x = true → x.eval bc r1 r2 g = x.eval bc t1 t2 g
  | .num _, _ => rfl
  | .cp _ _, _ => rfl
  | .c0 _ _, _ => rfl
  | .b00 _, _ => rfl
  | .b10 _, _ => rfl
  | .b01 _, _ => rfl
  | .g _, _ => rfl
  | .add a b, h => by
    have h' : UExpr.noRR a = true ∧ UExpr.noRR b = true := by simpa [UExpr.noRR] using h
    unfold UExpr.eval
    rw [eval_noRR h'.1, eval_noRR h'.2]
  | .mul a b, h => by
    have h' : UExpr.noRR a = true ∧ UExpr.noRR b = true := by simpa [UExpr.noRR] using h
    unfold UExpr.eval
    rw [eval_noRR h'.1, eval_noRR h'.2]

theorem runAssigns_noRR {bc : Rys2eT α} {r1 r2 t1 t2 : Nat → α} {g : Ptr} :
    ∀ {l : List (Nat × UExpr)}, (l.all fun x => UExpr.noRR x.2) = true → runAssigns bc r1 r2 g l = runAssigns bc t1 t2 g l
  | [], _ => rfl
  | (n, x) :: l, h => by
    have h' : UExpr.noRR x = true ∧ (l.all fun x => UExpr.noRR x.2) = true := by simpa using h
    unfold runAssigns
    rw [eval_noRR h'.1, runAssigns_noRR h'.2]

theorem g0Unrolled2c_eq {cases : List (Nat × List (Nat × UExpr))} (hc : casesNoRR cases = true) {e : EnvG} (hj : e.lj_ceil = 0)
    (hl : e.ll_ceil = 0) (h1 : e.li_ceil < 4) (h2 : e.lk_ceil < 4) (d : G2 α) (bc : Rys2eT α) (g : Ptr) :
    g0Unrolled2c cases e d bc g = g0Unrolled cases e d bc g := by
  unfold g0Unrolled2c g0Unrolled
  dsimp only
  rw [hj, hl]
  have := List.all_eq_true.1 (List.all_eq_true.1 hc e.li_ceil (List.mem_range.2 h1)) e.lk_ceil (List.mem_range.2 h2)
  revert this
  cases cases.lookup ((e.li_ceil <<< 6) ||| (0 <<< 4) ||| (e.lk_ceil <<< 2) ||| 0) with
  | none => intro _; rfl
  | some l => intro h; exact runAssigns_noRR h

/-- a layout of the intermediates as for four centres; it differs only in strides that are not used -/
def env4 (e : EnvG) : EnvG :=
  { e with g_stride_l := e.g_size, g_stride_j := e.g_size
           g2d_ijmax := if ibase e then e.g_stride_i else e.g_size
           g2d_klmax := if kbase e then e.g_stride_k else e.g_size }

theorem env4_shape (li lk : Nat) (ng : Inc) (sr : Bool) : Shape4 (env4 (initInt2c2e li lk ng sr)) := by
  have a1 : ∀ x, dimA x 0 = x + 1 := fun x => by unfold dimA; split <;> omega
  have a2 : ∀ x, dimB x 0 = 1 := fun x => by unfold dimB; split <;> omega
  refine ⟨rfl, ?_, ?_, ?_, ?_, rfl, rfl⟩
  · show _ = _ * dimA (li + ng.i) 0
    rw [a1]; rfl
  · show _ = _ * dimA (li + ng.i) 0 * dimA (lk + ng.k) 0
    rw [a1, a1]; rfl
  · show _ = _ * dimA (li + ng.i) 0 * dimA (lk + ng.k) 0 * dimB (lk + ng.k) 0
    rw [a1, a1, a2]; exact (Nat.mul_one _).symm
  · show _ = _ * dimA (li + ng.i) 0 * dimA (lk + ng.k) 0 * dimB (lk + ng.k) 0 * dimB (li + ng.i) 0
    rw [a1, a1, a2, a2, Nat.mul_one]; exact (Nat.mul_one _).symm

theorem g0_2e_2d_env4 (li lk : Nat) (ng : Inc) (sr : Bool) (bc : Rys2eT α) (g : Ptr) :
    g0_2e_2d (initInt2c2e li lk ng sr) bc g = g0_2e_2d (env4 (initInt2c2e li lk ng sr)) bc g := by
  have hkl : (env4 (initInt2c2e li lk ng sr)).g2d_klmax = (initInt2c2e li lk ng sr).g2d_klmax := by
    show (if kbase (initInt2c2e li lk ng sr) then _ else _) = _
    by_cases h : kbase (initInt2c2e li lk ng sr)
    · rw [if_pos h]; rfl
    · rw [if_neg h]
      have h0 : lk + ng.k = 0 := by
        have h' : ¬ (lk + ng.k > 0) := h
        omega
      show srRoots _ _ * (li + ng.i + 1) * (lk + ng.k + 1) = srRoots _ _ * (li + ng.i + 1)
      rw [h0]; exact Nat.mul_one _
  unfold g0_2e_2d
  dsimp only
  rw [hkl]
  by_cases h : ibase (initInt2c2e li lk ng sr)
  · have hij : (env4 (initInt2c2e li lk ng sr)).g2d_ijmax = (initInt2c2e li lk ng sr).g2d_ijmax := by
      show (if ibase (initInt2c2e li lk ng sr) then _ else _) = _
      rw [if_pos h]; rfl
    rw [hij]
    rfl
  · have h0 : (initInt2c2e li lk ng sr).li_ceil + (initInt2c2e li lk ng sr).lj_ceil = 0 := by
      have h' : ¬ (li + ng.i > 0) := h
      show li + ng.i + 0 = 0
      omega
    have h1 : (env4 (initInt2c2e li lk ng sr)).li_ceil + (env4 (initInt2c2e li lk ng sr)).lj_ceil = 0 := h0
    rw [h0, h1]
    unfold onlyIf vrr3 ldS1
    simp only [gt_iff_lt, Nat.lt_irrefl, and_false, if_false, if_true, Nat.zero_mul, Nat.add_zero, Nat.zero_sub]
    rfl

theorem bind_unit (p : Prog α Unit) : (Prog.bind p fun _ => Prog.ret ()) = p := by
  induction p with
  | ret a => rfl
  | fail => rfl
  | rdD p k ih => unfold Prog.bind; exact congrArg _ (funext ih)
  | wrD p v k ih => unfold Prog.bind; rw [ih]
  | rdI p k ih => unfold Prog.bind; exact congrArg _ (funext ih)
  | wrI p v k ih => unfold Prog.bind; rw [ih]

theorem forN_unit : ∀ (n : Nat), (forN n fun _ => (pure () : Prog α Unit)) = pure ()
  | 0 => rfl
  | n+1 => by
    have := forN_unit n
    unfold forN at *
    unfold forS
    rw [this]; rfl

theorem g0Hrr_env4 (li lk : Nat) (ng : Inc) (sr : Bool) (d : G2 α) (g : Ptr) :
    g0Hrr (env4 (initInt2c2e li lk ng sr)) d g = pure () := by
  have f0 : ∀ f : Nat → Prog α Unit, forN 0 f = pure () := fun _ => rfl
  have hj : (env4 (initInt2c2e li lk ng sr)).lj_ceil = 0 := rfl
  have hl : (env4 (initInt2c2e li lk ng sr)).ll_ceil = 0 := rfl
  unfold g0Hrr
  by_cases hk : kbase (env4 (initInt2c2e li lk ng sr))
  · rw [if_pos hk]
    by_cases hi : ibase (env4 (initInt2c2e li lk ng sr))
    · rw [if_pos hi]
      unfold g0_ik2d_4d
      simp only [hj, hl, and_self, if_true]
    · rw [if_neg hi]
      have h0 : (env4 (initInt2c2e li lk ng sr)).li_ceil = 0 := by
        have h' : ¬ (li + ng.i > 0) := hi
        show li + ng.i = 0
        omega
      unfold g0_kj2d_4d
      simp only [h0, hl, and_self, if_true]
  · rw [if_neg hk]
    have h1 : (env4 (initInt2c2e li lk ng sr)).lk_ceil = 0 := by
      have h' : ¬ (lk + ng.k > 0) := hk
      show lk + ng.k = 0
      omega
    by_cases hi : ibase (env4 (initInt2c2e li lk ng sr))
    · rw [if_pos hi]
      unfold g0_il2d_4d
      simp only [hj, h1, and_self, if_true]
    · rw [if_neg hi]
      have h0 : (env4 (initInt2c2e li lk ng sr)).li_ceil = 0 := by
        have h' : ¬ (li + ng.i > 0) := hi
        show li + ng.i = 0
        omega
      unfold g0_lj2d_4d
      simp only [h0, h1, and_self, if_true]

theorem g0_2d2c_eq (li lk : Nat) (ng : Inc) (sr : Bool) (d : G2 α) (bc : Rys2eT α) (g : Ptr) :
    g0_2d2c (initInt2c2e li lk ng sr) d bc g = g0_2d4d (env4 (initInt2c2e li lk ng sr)) d bc g := by
  unfold g0_2d2c g0_2d4d
  have e1 : (env4 (initInt2c2e li lk ng sr)).rys_order = (initInt2c2e li lk ng sr).rys_order := rfl
  have e2 : (env4 (initInt2c2e li lk ng sr)).nrys_roots = (initInt2c2e li lk ng sr).nrys_roots := rfl
  rw [e1, e2]
  by_cases h : (initInt2c2e li lk ng sr).rys_order ≤ 2
  · have h' : (li + ng.i + (lk + ng.k))/2 + 1 ≤ 2 := h
    have b1 : (initInt2c2e li lk ng sr).li_ceil < 4 := by show li + ng.i < 4; omega
    have b2 : (initInt2c2e li lk ng sr).lk_ceil < 4 := by show lk + ng.k < 4; omega
    rw [if_pos h, if_pos h]
    split
    · exact g0Unrolled2c_eq srUnrolled_noRR rfl rfl b1 b2 d bc g
    · exact g0Unrolled2c_eq unrolled_noRR rfl rfl b1 b2 d bc g
  · rw [if_neg h, if_neg h]
    unfold g0General
    rw [g0Hrr_env4, g0_2e_2d_env4]
    exact (bind_unit _).symm

variable [LinearOrder α]

/-- the evaluators are the same program -/
theorem g0_2c_eq (R : Rys2 α) (K : Consts α) (li lk : Nat) (ng : Inc) (sr : Bool) (d : G2 α) (cutoff : α) (g : Ptr) (fac : α) :
    g0_2e R K (initInt2c2e li lk ng sr) d cutoff g fac g0_2d2c = g0_2e R K (env4 (initInt2c2e li lk ng sr)) d cutoff g fac := by
  have h : ∀ u f, g0Rest (initInt2c2e li lk ng sr) d g u f g0_2d2c = g0Rest (env4 (initInt2c2e li lk ng sr)) d g u f := by
    intro u f
    unfold g0Rest
    rw [g0_2d2c_eq]
    rfl
  unfold g0_2e
  simp only [h]
  rfl
end

end Verif.Lemmas
