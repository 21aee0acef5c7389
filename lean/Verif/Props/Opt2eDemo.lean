import Verif.Props.Opt2e
import Mathlib.Analysis.Complex.ExponentialBounds

/-!
C11 — the hypotheses of the theorems about optimizers can be met, and the property fails in the gap between the two cutoffs.
-/
namespace Verif.Props
open Verif Verif.Model Verif.Prog Verif.Lemmas Verif.Spec MeasureTheory
open OvlpDemo SphDemo EriDemo

namespace OptDemo

/-- arrays of the optimizer -/
def ptrs : OptPtrs := ⟨⟨20, 0⟩, ⟨21, 0⟩, ⟨22, 0⟩, ⟨23, 0⟩, ⟨24, 0⟩, ⟨25, 0⟩, ⟨26, 0⟩, ⟨27, 0⟩⟩

theorem apart_lt {b : Nat} (h : b < 20) : Apart ptrs b := by
  unfold Apart ptrs
  simp only [List.mem_cons, List.not_mem_nil, or_false, not_or]
  omega

theorem blankOpt (B : Nat → PShell ℝ) (nbas : Nat) : OptMem B nbas ptrs ⟨28, 0⟩ blank :=
  ⟨fun _ _ => by simp [blank], fun _ _ => by simp [blank], fun _ _ => by simp [blank], fun _ _ => by simp [blank],
    fun _ _ => by simp [blank], fun _ _ => by simp [blank], fun _ _ => by simp [blank], fun _ _ => by simp [blank],
    fun _ _ => by simp [blank], by decide⟩

variable {B : Nat → PShell ℝ} {nbas : Nat} {envCut omega : ℝ}

/-- memory with the optimizer's arrays as the constructor left them, and everything else not initialised except the table
of the spherical transformation -/
noncomputable def beside (Q : Optim eriInt lib B nbas envCut omega) : Heap ℝ where
  D q := if q.buf < 20 then memR.D q else Q.h1.D q
  I q := if q.buf < 20 then .undef else Q.h1.I q

theorem beside_D {Q : Optim eriInt lib B nbas envCut omega} {q : Ptr} (h : q.buf < 20) : (beside Q).D q = memR.D q := if_pos h
theorem beside_I {Q : Optim eriInt lib B nbas envCut omega} {q : Ptr} (h : q.buf < 20) : (beside Q).I q = .undef := if_pos h
theorem memR_ne {q : Ptr} : memR.D q ≠ .oob := by
  unfold memR
  dsimp only
  split <;> simp

theorem beside_D_ne {Q : Optim eriInt lib B nbas envCut omega} {q : Ptr} (h : q.buf < 20) : (beside Q).D q ≠ .oob := by
  rw [beside_D h]; exact memR_ne
theorem beside_I_ne {Q : Optim eriInt lib B nbas envCut omega} {q : Ptr} (h : q.buf < 20) : (beside Q).I q ≠ .oob := by
  rw [beside_I h]; simp

theorem intact_beside (Q : Optim eriInt lib B nbas envCut omega) (hP : Q.P = ptrs) : Q.Intact (beside Q) := by
  intro q hq
  have : ¬ q.buf < 20 := fun h => hq (by rw [hP]; exact apart_lt h)
  exact ⟨if_neg this, if_neg this⟩

/-- Cartesian call -/
noncomputable def cartO (Q : Optim eriInt lib B nbas envCut omega) (s : Call2 ℝ) (h : ∀ t, t < 4 → 0 < Call2.nctrs s t) :
    CartMem4 eriInt s where
  fpd := 1
  buf := 0
  size := cacheSize2e eriInt s
  empty := ⟨4, 0⟩
  fl := ⟨1, 0⟩
  loc := ⟨2, 0⟩
  counts := ⟨3, 0⟩
  out := ⟨5, 7⟩
  dims := none
  nd := fun t => ncar (Call2.ls s) t * Call2.nctrs s t
  h := beside Q
  hs := ⟨Or.inr (Or.inr rfl), fun t _ => ncart_pos _, fun t ht => h t ht, fun t a b => absurd a (by omega), fun t _ => le_refl _⟩
  M := ⟨by omega, fun k _ => beside_D_ne (by show 0 < 20; omega), fun k _ => beside_I_ne (by show 0 < 20; omega),
    beside_I_ne (by show 4 < 20; omega), fun k _ => beside_I_ne (by show 1 < 20; omega),
    fun k _ => beside_I_ne (by show 2 < 20; omega), fun k _ => beside_I_ne (by show 3 < 20; omega),
    by decide, by decide, by decide, by decide, by decide⟩
  hsize := le_refl _
  O := { h_dims := fun t _ => rfl
         h_dbuf := fun d hd => nomatch hd
         h_out := fun m _ => beside_D_ne (by show 5 < 20; omega)
         h_obuf := by decide }

/-- spherical call -/
noncomputable def sphO (Q : Optim eriInt lib B nbas envCut omega) (s : Call2 ℝ) (h : ∀ t, t < 4 → 0 < Call2.nctrs s t) :
    SphMem4 eriInt s where
  fpd := 1
  buf := 0
  size := cacheSize2e eriInt s
  empty := ⟨4, 0⟩
  fl := ⟨1, 0⟩
  loc := ⟨2, 0⟩
  counts := ⟨3, 0⟩
  out := ⟨5, 7⟩
  dims := none
  nd := fun t => nsph (Call2.ls s) t * Call2.nctrs s t
  h := beside Q
  hs := ⟨Or.inr (Or.inr rfl), fun t _ => Nat.succ_pos _, fun t ht => h t ht, fun t a b => absurd a (by omega), fun t _ => le_refl _⟩
  M := ⟨by omega, fun k _ => beside_D_ne (by show 0 < 20; omega), fun k _ => beside_I_ne (by show 0 < 20; omega),
    beside_I_ne (by show 4 < 20; omega), fun k _ => beside_I_ne (by show 1 < 20; omega),
    fun k _ => beside_I_ne (by show 2 < 20; omega), fun k _ => beside_I_ne (by show 3 < 20; omega),
    by decide, by decide, by decide, by decide, by decide⟩
  hsize := le_refl _
  O := { h_dims := fun t _ => rfl
         h_dbuf := fun d hd => nomatch hd
         h_out := fun m _ => beside_D_ne (by show 5 < 20; omega)
         h_obuf := by decide }
  tab := ⟨9, 0⟩
  hT := fun l hl x hx => (beside_D (by show 9 < 20; omega)).trans (tabR l hl x hx)
  htb := by decide
  hto := by decide

theorem callsCart (Q : Optim eriInt lib B nbas envCut omega) (hP : Q.P = ptrs) (s : Call2 ℝ) (h : ∀ t, t < 4 → 0 < Call2.nctrs s t) :
    CallsWith Q (cartO Q s h) := by
  have a : ∀ b, b < 20 → Apart Q.P b := fun b hb => by rw [hP]; exact apart_lt hb
  exact ⟨intact_beside Q hP, a 0 (by omega), a 5 (by omega), a 4 (by omega), a 1 (by omega), a 2 (by omega), a 3 (by omega),
    fun e => absurd (show 1 = 2 from e) (by omega)⟩

theorem callsSph (Q : Optim eriInt lib B nbas envCut omega) (hP : Q.P = ptrs) (s : Call2 ℝ) (h : ∀ t, t < 4 → 0 < Call2.nctrs s t) :
    CallsWith Q (sphO Q s h).toMem4 := by
  have a : ∀ b, b < 20 → Apart Q.P b := fun b hb => by rw [hP]; exact apart_lt hb
  exact ⟨intact_beside Q hP, a 0 (by omega), a 5 (by omega), a 4 (by omega), a 1 (by omega), a 2 (by omega), a 3 (by omega),
    fun e => absurd (show 1 = 2 from e) (by omega)⟩

/-! ### A basis of p, d, s and p shells -/

/-- two primitives and two contractions each -/
noncomputable def basis : Nat → PShell ℝ
  | 0 => (call4 0).si
  | 1 => (call4 0).sj
  | 2 => (call4 0).sk
  | _ => (call4 0).sl

theorem basis_call (o : ℝ) : basisCall basis 0 o 0 1 2 3 = call4 o := rfl

theorem basis_in : InBasis basis 4 0 1 2 3 := by
  refine ⟨by omega, by omega, by omega, by omega, ?_, by decide⟩
  intro t ht
  match t, ht with
  | 0, _ => show 1 ≤ 15; omega
  | 1, _ => show 2 ≤ 15; omega
  | 2, _ => show 0 ≤ 15; omega
  | 3, _ => show 1 ≤ 15; omega

theorem basis_max : ∀ t, t < 4 → MaxCoeff (basis t) ((fun _ _ => 1 : Nat → Nat → ℝ) t) := by
  intro t ht
  match t, ht with
  | 0, _ => exact one_max 1
  | 1, _ => exact one_max 2
  | 2, _ => exact one_max 0
  | 3, _ => exact one_max 1

theorem basis_pos : PosBasis basis 4 := by
  intro t p ht _
  match t, ht with
  | 0, _ => exact one_pos
  | 1, _ => exact one_pos
  | 2, _ => exact one_pos
  | 3, _ => exact one_pos

theorem basis_cut : pairCut basis 4 0 = 60 := by
  unfold pairCut setijCutoff
  rw [if_neg (by decide), if_pos rfl]

theorem basis_gap {o : ℝ} (ho : 0 ≤ o) : NoGap lib basis 4 0 o (fun _ _ => 1) 0 1 2 3 := by
  constructor
  · intro ip jp _ _
    left
    rw [basis_cut]
    exact lt_of_le_of_lt (estIJ_nonpos o ip jp) (by norm_num)
  · intro kp lp _ _
    left
    rw [basis_cut]
    have := estKL_nonpos o kp lp
    rw [estKL_noSR (s := call4 o) (not_lt.2 ho)] at this
    exact lt_of_le_of_lt this (by norm_num)

theorem basis_opt (o : ℝ) : ∃ Q : Optim eriInt lib basis 4 0 o, Q.P = ptrs := by
  obtain ⟨Q, h, _⟩ := C11_build (X := eriInt) (L := lib) (envCut := 0) (omega := o) (blankOpt basis 4) basis_in.some_prim
    basis_in.tall
  exact ⟨Q, h⟩

/-- long-range integrals of the four shells, with and without the optimizer -/
example : ∃ (Q : Optim eriInt lib basis 4 0 (1/3)) (A A' : CartMem4 eriInt (basisCall basis 0 (1/3) 0 1 2 3)),
    CallsWith Q A' ∧ ∃ R ra ha rb hb, CartEnds4 A R realK lib ra ha ∧ CartEndsO Q A' R realK rb hb ∧ Q.Intact hb := by
  obtain ⟨Q, hP⟩ := basis_opt (1/3)
  obtain ⟨R, hR⟩ := exists_rys2
  obtain ⟨ra, ha, rb, hb, e1, e2, e3, _⟩ := C11_cart_partial (R := R) Q (blankMem4 eriInt (basisCall basis 0 (1/3) 0 1 2 3) (EriDemo.ctr_pos (1/3)))
    (cartO Q (basisCall basis 0 (1/3) 0 1 2 3) (EriDemo.ctr_pos (1/3))) (callsCart Q hP _ _) basis_in rfl basis_max basis_pos (hR _)
    (by norm_num) (basis_gap (by norm_num))
  exact ⟨Q, _, _, callsCart Q hP _ _, R, ra, ha, rb, hb, e1, e2, e3⟩

example : ∃ (Q : Optim eriInt lib basis 4 0 0) (A A' : SphMem4 eriInt (basisCall basis 0 0 0 1 2 3)),
    CallsWith Q A'.toMem4 ∧ ∃ R ra ha rb hb, SphEnds4 A R realK lib ra ha ∧ SphEndsO Q A' R realK rb hb ∧ Q.Intact hb := by
  obtain ⟨Q, hP⟩ := basis_opt 0
  obtain ⟨R, hR⟩ := exists_rys2
  obtain ⟨ra, ha, rb, hb, e1, e2, e3, _⟩ := C11_sph_partial (R := R) Q (sphMem4 (basisCall basis 0 0 0 1 2 3) (EriDemo.ctr_pos 0))
    (sphO Q (basisCall basis 0 0 0 1 2 3) (EriDemo.ctr_pos 0)) (callsSph Q hP _ _) basis_in rfl basis_max basis_pos (hR _)
    (le_refl _) (basis_gap (le_refl _))
  exact ⟨Q, _, _, callsSph Q hP _ _, R, ra, ha, rb, hb, e1, e2, e3⟩

/-- the hypotheses of C15 and C18 -/
example : ∃ (Q : Optim eriInt lib basis 4 0 (-1/2)) (A : CartMem4 eriInt (basisCall basis 0 (-1/2) 0 1 2 3)),
    CallsWith Q A ∧ InBasis basis 4 0 1 2 3 ∧ ∃ R, EvalAll R realK eriInt (basisCall basis 0 (-1/2) 0 1 2 3) := by
  obtain ⟨Q, hP⟩ := basis_opt (-1/2)
  obtain ⟨R, hR⟩ := exists_rys2
  exact ⟨Q, _, callsCart Q hP _ (EriDemo.ctr_pos (-1/2)), basis_in, R, eri_evalAll (basis_pos.posExp basis_in) (hR _)⟩

/-! ### The property fails in the gap -/

/-- repulsion integrals of s functions are positive -/
theorem repulsion_s_pos {a b c d : ℝ} (h1 : 0 < a + b) (h2 : 0 < c + d) (A B C D : Fin 3 → ℝ) :
    0 < repulsion (interaction 0) (fun r => gto a A (fun _ => 0) r * gto b B (fun _ => 0) r)
      (fun r => gto c C (fun _ => 0) r * gto d D (fun _ => 0) r) := by
  have hg : ∀ (a : ℝ) (A r : Fin 3 → ℝ), 0 < gto a A (fun _ => 0) r := by
    intro a A r
    unfold gto
    simp only [pow_zero, Finset.prod_const_one, one_mul]
    exact Real.exp_pos _
  have hi : ∀ x y : Fin 3 → ℝ, 0 ≤ interaction 0 x y := by
    intro x y
    unfold interaction coulomb
    rw [if_pos rfl]
    positivity
  unfold repulsion
  rw [integral_pos_iff_support_of_nonneg]
  · have hsub : {z : (Fin 3 → ℝ) × (Fin 3 → ℝ) | z.1 ≠ z.2} ⊆ Function.support fun z : (Fin 3 → ℝ) × (Fin 3 → ℝ) =>
        (gto a A (fun _ => 0) z.1 * gto b B (fun _ => 0) z.1) * interaction 0 z.1 z.2 *
          (gto c C (fun _ => 0) z.2 * gto d D (fun _ => 0) z.2) := by
      intro z hz
      rw [Function.mem_support]
      have : 0 < interaction 0 z.1 z.2 := by
        unfold interaction coulomb
        rw [if_pos rfl]
        have : 0 < ∑ k, (z.2 k - z.1 k)^2 := by
          obtain ⟨k, hk⟩ : ∃ k, z.1 k ≠ z.2 k := by
            by_contra hc
            exact hz (funext fun k => by by_contra hk; exact hc ⟨k, hk⟩)
          refine Finset.sum_pos' (fun k _ => sq_nonneg _) ⟨k, Finset.mem_univ k, ?_⟩
          exact lt_of_le_of_ne (sq_nonneg _) (Ne.symm (pow_ne_zero 2 (sub_ne_zero.2 (Ne.symm hk))))
        positivity
      have g1 := hg a A z.1
      have g2 := hg b B z.1
      have g3 := hg c C z.2
      have g4 := hg d D z.2
      positivity
    refine lt_of_lt_of_le ?_ (measure_mono hsub)
    refine IsOpen.measure_pos _ ?_ ?_
    · exact isOpen_ne_fun continuous_fst continuous_snd
    · exact ⟨(0, fun _ => 1), fun h => by have := congrFun h 0; simp at this⟩
  · intro z
    exact mul_nonneg (mul_nonneg (mul_nonneg (hg _ _ _).le (hg _ _ _).le) (hi _ _)) (mul_nonneg (hg _ _ _).le (hg _ _ _).le)
  · exact integrable_gto_int h1 h2 A B C D _ _ _ _ 0

/-- square distance of the two centres: the size estimate of the pair is 50.5 -/
noncomputable def rrw : ℝ := 505/10 + 17/10 - 15/10 * Real.log 4

theorem log4 : 0 ≤ Real.log 4 ∧ Real.log 4 ≤ 14/10 := by
  have h2 : Real.log 4 = 2 * Real.log 2 := by
    rw [show (4:ℝ) = 2^2 by norm_num, Real.log_pow]; norm_num
  have := Real.log_two_lt_d9
  have := Real.log_two_gt_d9
  constructor <;> rw [h2] <;> linarith

theorem rrw_pos : 0 ≤ rrw := by
  unfold rrw
  have := log4.2
  linarith

noncomputable def sshell (x : ℝ) : PShell ℝ :=
  { nprim := 1, nctr := 1, l := 0, a := fun _ => 2, c := fun _ => 1, r := fun k => if k = 0 then x else 0 }

/-- two s shells -/
noncomputable def wbasis (t : Nat) : PShell ℝ := if t = 0 then sshell 0 else sshell (Real.sqrt rrw)

noncomputable def wcall : Call2 ℝ := basisCall wbasis 50 0 0 1 0 0

theorem sshell_max (x : ℝ) : MaxCoeff (sshell x) (fun _ => (1:ℝ)) := by
  intro ip hip
  exact ⟨fun i _ => ⟨le_refl _, by show -(1:ℝ) ≤ 1; norm_num⟩, Or.inr ⟨0, by show 0 < 1; omega, Or.inl rfl⟩⟩

theorem wb (t : Nat) : ∃ x, wbasis t = sshell x := by
  unfold wbasis
  split
  · exact ⟨_, rfl⟩
  · exact ⟨_, rfl⟩

theorem w_in : InBasis wbasis 2 0 1 0 0 := by
  refine ⟨by omega, by omega, by omega, by omega, ?_, by decide⟩
  intro t _
  obtain ⟨x, hx⟩ := wb t
  rw [hx]; show 0 ≤ 15; omega

theorem w_max : ∀ t, t < 2 → MaxCoeff (wbasis t) ((fun _ _ => 1 : Nat → Nat → ℝ) t) := by
  intro t _
  obtain ⟨x, hx⟩ := wb t
  rw [hx]; exact sshell_max x

theorem w_pos : PosBasis wbasis 2 := by
  intro t p _ _
  obtain ⟨x, hx⟩ := wb t
  rw [hx]; show (0:ℝ) < 2; norm_num

theorem w_ctr : ∀ t, t < 4 → 0 < Call2.nctrs wcall t := by
  show ∀ t, t < 4 → 0 < four 1 1 1 1 t
  decide

theorem w_estIJ : estIJ lib wcall (fun _ => 1) (fun _ => 1) 0 0 = 505/10 := by
  have hr : rr2 wcall.si.r wcall.sj.r = rrw := by
    have : Real.sqrt rrw * Real.sqrt rrw = rrw := Real.mul_self_sqrt rrw_pos
    unfold rr2 wcall basisCall wbasis sshell
    simp
    nlinarith [this]
  unfold estIJ est pairEstimate
  rw [hr]
  have e1 : prodExponent (wcall.si.a 0) (wcall.sj.a 0) rrw = rrw := by
    show prodExponent (2:ℝ) 2 rrw = rrw
    unfold prodExponent
    ring
  have e2 : logBound lib.log lib.sqrt (wcall.si.a (wcall.si.nprim-1) + wcall.sj.a (wcall.sj.nprim-1)) (wcall.si.l + wcall.sj.l) rrw wcall.omega
      = 17/10 - 15/10 * Real.log 4 := by
    show 17/10 - 15/10 * Real.log (2+2) + 0 = _
    rw [show (2:ℝ)+2 = 4 by norm_num, add_zero]
  have e3 : lib.log 1 = 0 := Real.log_one
  rw [e1, e2, e3]
  unfold rrw
  ring

theorem w_estKL : estKL lib wcall (fun _ => 1) (fun _ => 1) 0 0 = -(17/10) + 15/10 * Real.log 4 := by
  have hr : rr2 wcall.sk.r wcall.sl.r = 0 := by
    unfold rr2 wcall basisCall wbasis sshell
    simp
  have e3 : lib.log 1 = 0 := Real.log_one
  have e2 : wcall.logRRkl eriInt lib = 17/10 - 15/10 * Real.log 4 := by
    unfold Call2.logRRkl
    have : ¬ wcall.omega < 0 := lt_irrefl _
    dsimp only
    rw [if_neg this, if_neg (by decide)]
    show 17/10 - 15/10 * Real.log (2+2) = _
    rw [show (2:ℝ)+2 = 4 by norm_num]
  unfold estKL
  rw [hr, e2, e3]
  unfold prodExponent
  ring

theorem w_cut : cutoff2e (50:ℝ) = 51 := by
  unfold cutoff2e
  norm_num

theorem w_pairCut : pairCut wbasis 2 50 = 50 := by
  unfold pairCut setijCutoff
  rw [if_neg (by decide)]
  norm_num

theorem w_kept : Kept4 lib wcall (fun _ => 1) (fun _ => 1) (fun _ => 1) (fun _ => 1) 0 0 0 0 := by
  have ho : ¬ wcall.omega < 0 := lt_irrefl _
  have hc : wcall.cutoff eriInt lib = 51 := (cutoff_noSR ho).trans w_cut
  have h4 := log4
  refine ⟨?_, ?_, ?_, fun x => absurd x ho⟩
  · rw [w_estIJ]; show _ < cutoff2e (50:ℝ); rw [w_cut]; norm_num
  · rw [w_estKL, hc]; linarith
  · rw [w_estIJ, w_estKL, hc]; linarith

theorem w_gone : ¬ KeptO lib wcall (pairCut wbasis 2 50) (fun _ => 1) (fun _ => 1) (fun _ => 1) (fun _ => 1) 0 0 0 0 := by
  intro h
  have := h.pairIJ
  rw [w_estIJ, w_pairCut] at this
  norm_num at this

end OptDemo

open OptDemo in
/-- **C11** is false in the gap: with `env[PTR_EXPCUTOFF] = 50` there is a basis of two s shells for which the integral (01|00)
is zero when evaluated with the optimizer and not zero when evaluated without. -/
theorem C11_differs : ∃ (B : Nat → PShell ℝ) (Q : Optim eriInt lib B 2 50 0)
    (A A' : CartMem4 eriInt (basisCall B 50 0 0 1 0 0)), CallsWith Q A' ∧ InBasis B 2 0 1 0 0 ∧ PosBasis B 2 ∧
    ∀ R, RootsOK R (basisCall B 50 0 0 1 0 0) → ∃ ra ha rb hb x, CartEnds4 A R realK lib ra ha ∧
      CartEndsO Q A' R realK rb hb ∧ A.elem ha 0 0 0 0 0 0 0 0 0 = .val x ∧ 0 < x ∧
      A'.elem hb 0 0 0 0 0 0 0 0 0 = .val 0 := by
  obtain ⟨Q, hP, _⟩ := C11_build (X := eriInt) (L := lib) (envCut := 50) (omega := 0) (blankOpt wbasis 2) w_in.some_prim
    w_in.tall
  refine ⟨wbasis, Q, blankMem4 eriInt _ w_ctr, cartO Q _ w_ctr, callsCart Q hP _ _, w_in, w_pos, fun R hR => ?_⟩
  obtain ⟨ra, ha, e1, v1⟩ := C44_eri (R := R) (L := lib) (blankMem4 eriInt wcall w_ctr) rfl (w_max 0 (by omega)) (w_max 1 (by omega))
    (w_max 0 (by omega)) (w_max 0 (by omega)) (w_pos.posExp w_in) hR (w_in.ls 50 0)
  obtain ⟨rb, hb, e2, _, v2⟩ := C44_with_optimizer (R := R) Q (cartO Q wcall w_ctr) (callsCart Q hP _ _) w_in rfl w_max w_pos hR
  have n1 : ∀ t, (wbasis t).nprim = 1 := fun t => by obtain ⟨x, hx⟩ := wb t; rw [hx]; rfl
  have c1 := v1 0 0 0 0 0 0 0 0 (by decide) (by decide) (by decide) (by decide) (by decide) (by decide) (by decide) (by decide)
  have c2 := v2 0 0 0 0 0 0 0 0 (by decide) (by decide) (by decide) (by decide) (by decide) (by decide) (by decide) (by decide)
  refine ⟨ra, ha, rb, hb, _, e1, e2, c1, ?_, c2.trans ?_⟩
  · have k := w_kept
    have key : ∀ (f : Nat → Nat → Nat → Nat → ℝ), contract4 wcall.si.nprim wcall.sj.nprim wcall.sk.nprim wcall.sl.nprim
        wcall.si.c wcall.sj.c wcall.sk.c wcall.sl.c f 0 0 0 0 = f 0 0 0 0 := by
      intro f
      show contract4 1 1 1 1 (fun _ => (1:ℝ)) (fun _ => 1) (fun _ => 1) (fun _ => 1) f 0 0 0 0 = _
      unfold contract4
      simp
    rw [key, if_pos k]
    have hs : spNorm wcall.si.l = spNorm 0 ∧ spNorm wcall.sj.l = spNorm 0 ∧ spNorm wcall.sk.l = spNorm 0 ∧
      spNorm wcall.sl.l = spNorm 0 := ⟨rfl, rfl, rfl, rfl⟩
    rw [hs.1, hs.2.1, hs.2.2.1, hs.2.2.2]
    have hn : 0 < spNorm 0 := by unfold spNorm; norm_num
    refine mul_pos (by positivity) ?_
    have hpw : ∀ t, powers (wbasis t).l 0 = fun _ => 0 := by
      intro t
      obtain ⟨x, hx⟩ := wb t
      rw [hx]
      show powers 0 0 = _
      funext c
      revert c
      decide
    exact hpw 0 ▸ hpw 1 ▸ repulsion_s_pos (w_pos.posExp (envCut := 50) (omega := 0) w_in |>.ij 0 0 (by decide) (by decide))
      (w_pos.posExp (envCut := 50) (omega := 0) w_in |>.kl 0 0 (by decide) (by decide)) _ _ _ _
  · have key : ∀ (f : Nat → Nat → Nat → Nat → ℝ), contract4 (wbasis 0).nprim (wbasis 1).nprim (wbasis 0).nprim (wbasis 0).nprim
        (wbasis 0).c (wbasis 1).c (wbasis 0).c (wbasis 0).c f 0 0 0 0 = f 0 0 0 0 := by
      intro f
      show contract4 1 1 1 1 (fun _ => (1:ℝ)) (fun _ => 1) (fun _ => 1) (fun _ => 1) f 0 0 0 0 = _
      unfold contract4
      simp
    rw [key, if_neg (show ¬ KeptO lib (basisCall wbasis 50 0 0 1 0 0) _ _ _ _ _ _ _ _ _ from w_gone), mul_zero]

end Verif.Props
