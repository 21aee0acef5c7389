import Verif.Lemmas.OperProg
import Verif.Props.Index
import Verif.Spec.Gauss
import Mathlib.LinearAlgebra.Multilinear.Basic
import Mathlib.Analysis.Calculus.Deriv.Pow
import Mathlib.Analysis.SpecialFunctions.ExpDeriv

/-!
C24 — derivative and position operators act correctly on intermediates.

The intermediates of one direction are some linear functional of each of up to four functions `(x-R)^m e^(-a(x-R)²)`; which
functional depends on the integral and, for integrals evaluated by quadrature, on the root.  The theorems hold for all
functionals.
-/
namespace Verif.Props
open Verif Verif.Model Verif.Prog Verif.Lemmas Verif.Spec

/-- a functional of four functions, for each direction and root -/
abbrev Functional := Nat → Nat → MultilinearMap ℝ (fun _ : Fin 4 => ℝ → ℝ) ℝ

/-- the four functions along direction `c`: exponents `a`, centres `R`, powers `m` -/
noncomputable def gtos (a : Fin 4 → ℝ) (R : Fin 4 → Nat → ℝ) (c : Nat) (m : Fin 4 → Nat) : Fin 4 → ℝ → ℝ :=
  fun t => gto1 (a t) (R t c) (m t)

theorem gtos_update (a : Fin 4 → ℝ) (R : Fin 4 → Nat → ℝ) (c : Nat) (m : Fin 4 → Nat) (t : Fin 4) (k : Nat) :
    gtos a R c (Function.update m t k) = Function.update (gtos a R c m) t (gto1 (a t) (R t c) k) := by
  funext t'
  unfold gtos
  by_cases h : t' = t
  · subst h; simp
  · simp [h]

theorem deriv_gto1 (a A : ℝ) (m : ℕ) :
    deriv (gto1 a A m) = (m : ℝ) • gto1 a A (m-1) + (-2*a) • gto1 a A (m+1) := by
  funext x
  have h1 : HasDerivAt (fun x : ℝ => (x-A)^m) ((m:ℝ) * (x-A)^(m-1)) x := by
    have := ((hasDerivAt_id x).sub_const A).pow m
    refine this.congr_deriv ?_
    simp
  have h2 : HasDerivAt (fun x : ℝ => -a*(x-A)^2) (-a*(2*(x-A))) x := by
    have := (((hasDerivAt_id x).sub_const A).pow 2).const_mul (-a)
    refine this.congr_deriv ?_
    simp
  have h3 := h1.mul h2.exp
  have h4 : deriv (gto1 a A m) x = _ := h3.deriv
  rw [h4]
  show _ = (m:ℝ) * ((x-A)^(m-1) * Real.exp (-a*(x-A)^2)) + (-2*a) * ((x-A)^(m+1) * Real.exp (-a*(x-A)^2))
  ring

theorem mul_gto1 (a A b : ℝ) (m : ℕ) :
    (fun x => (x - b) * gto1 a A m x) = gto1 a A (m+1) + (A-b) • gto1 a A m := by
  funext x
  show (x-b) * ((x-A)^m * _) = (x-A)^(m+1) * _ + (A-b) * ((x-A)^m * _)
  ring

section
variable {two : Bool} {e : EnvG} {L : Fin 4 → Nat} {R : Nat} {h : Heap ℝ} {f g : Ptr} {l src : Fin 4 → Nat} {t : Fin 4}

theorem opCtx_of (hS : SlabM e L R) (hsrc : ∀ t, src t ≤ L t) (hl : ∀ t, l t ≤ L t) {w v : Nat → (Fin 4 → Nat) → Nat → ℝ}
    (hA : ∀ i, i < 3*e.g_size → h.D (f + i) ≠ .oob)
    (hD : ∀ i j, i < 3*e.g_size → j < 3*e.g_size → f + i ≠ g + j) (hw : TabM h g e src R w) :
    OpCtx h f g e l src R w v := by
  have hlt : ∀ c n, c < 3 → n < e.g_size → c * e.g_size + n < 3 * e.g_size := by
    intro c n hc hn
    have : (c+1) * e.g_size ≤ 3 * e.g_size := Nat.mul_le_mul_right _ hc
    rw [Nat.add_mul] at this; omega
  refine ⟨⟨L, hS, hl⟩, ?_, hw, ?_⟩
  · rintro q x ⟨c, m, r, hc, hm, hr, rfl, _⟩
    exact hA _ (hlt _ _ hc (hS.range m r (fun t => (hm t).trans (hl t)) hr))
  · rintro c m r hc hm hr x ⟨c', m', r', hc', hm', hr', he, _⟩
    exact hD _ _ (hlt _ _ hc' (hS.range m' r' (fun t => (hm' t).trans (hl t)) hr'))
      (hlt _ _ hc (hS.range m r (fun t => (hm t).trans (hsrc t)) hr)) he.symm

theorem run_fill {p : Prog ℝ Unit} {lim : Fin 4 → Nat} {v : Nat → (Fin 4 → Nat) → Nat → ℝ} (hS : SlabM e L R) (hl : ∀ t, lim t ≤ L t)
    (H : Fill h (CellsM f e lim R v) (fun _ _ => False) (CellsM f e lim R v) p) :
    ∃ h', run p h = some ((), h') ∧ TabM h' f e lim R v ∧ (∀ q, (∀ i, i < 3*e.g_size → q ≠ f + i) → h'.D q = h.D q) ∧ h'.I = h.I := by
  obtain ⟨_, h', hr, h1, _, h3⟩ := run_of_wp (H h (Fill.refl _ _) (fun _ _ h => h.elim))
  refine ⟨h', hr, ?_, ?_, h1.I⟩
  · intro c m r hc hm hr
    exact h3 _ _ ⟨c, m, r, hc, hm, hr, rfl, rfl⟩ ⟨c, m, r, hc, hm, hr, rfl, rfl⟩
  · intro q hq
    refine Fill.keep h1 ?_
    rintro x ⟨c, m, r, hc, hm, hr, rfl, _⟩
    refine hq (c * e.g_size + slabM e m r) ?_ rfl
    have := hS.range m r (fun t => (hm t).trans (hl t)) hr
    have h3 : (c+1) * e.g_size ≤ 3 * e.g_size := Nat.mul_le_mul_right _ hc
    rw [Nat.add_mul] at h3; omega

/-- **C24** CINTnabla1i_1e, 1j_1e, 1k_1e (`two = false`) and CINTnabla1i_2e ... 1l_2e (`two = true`), any angular momenta: from
the intermediates with one more power of function `t` they compute the intermediates with function `t` differentiated, and
change nothing but the destination. -/
theorem C24_derivative (Φ : Functional) (a : Fin 4 → ℝ) (C : Fin 4 → Nat → ℝ)
    (hR : two = true → R = e.nrys_roots) (h1 : two = false → R = 1 ∧ e.g_stride_i = 1 ∧ l 3 = 0 ∧ t ≠ 3)
    (hS : SlabM e L R) (hL : ∀ t', l t' + (if t' = t then 1 else 0) ≤ L t')
    (hA : ∀ i, i < 3*e.g_size → h.D (f + i) ≠ .oob)
    (hD : ∀ i j, i < 3*e.g_size → j < 3*e.g_size → f + i ≠ g + j)
    (hg : TabM h g e (fun t' => l t' + if t' = t then 1 else 0) R (fun c m r => Φ c r (gtos a C c m))) :
    ∃ h', run (nablaAt two e (a t) t f g l) h = some ((), h') ∧
      TabM h' f e l R (fun c m r => Φ c r (Function.update (gtos a C c m) t (deriv (gto1 (a t) (C t c) (m t))))) ∧
      (∀ q, (∀ i, i < 3*e.g_size → q ≠ f + i) → h'.D q = h.D q) ∧ h'.I = h.I := by
  have hb : bump l t = fun t' => l t' + if t' = t then 1 else 0 := by
    funext t'
    unfold bump
    by_cases h : t' = t
    · subst h; simp
    · simp [h]
  have hl : ∀ t', l t' ≤ L t' := fun t' => le_trans (Nat.le_add_right _ _) (hL t')
  have hv : dVal (a t) t (fun c m r => Φ c r (gtos a C c m)) =
      fun c m r => Φ c r (Function.update (gtos a C c m) t (deriv (gto1 (a t) (C t c) (m t)))) := by
    funext c m r
    unfold dVal bump drop
    beta_reduce
    rw [gtos_update, gtos_update, deriv_gto1, MultilinearMap.map_update_add, MultilinearMap.map_update_smul,
      MultilinearMap.map_update_smul]
    rfl
  rw [← hv]
  refine run_fill hS hl ?_
  have O := opCtx_of (v := dVal (a t) t (fun c m r => Φ c r (gtos a C c m))) (l := l) hS hL hl hA hD hg
  have hs : ∀ t', bump l t t' ≤ (fun t' => l t' + if t' = t then 1 else 0) t' := by rw [hb]; exact fun _ => le_refl _
  cases two with
  | true =>
    have hR' := hR rfl
    subst hR'
    rw [← vec_eta l] at O hs ⊢
    fin_cases t
    · exact nabla1i2_fill O hs
    · exact nabla1j2_fill O hs
    · exact nabla1k2_fill O hs
    · exact nabla1l2_fill O hs
  | false =>
    obtain ⟨hR', hs1, h3, h4⟩ := h1 rfl
    subst hR'
    rw [← vec_eta l, h3] at O hs ⊢
    fin_cases t
    · exact nabla1i_fill hs1 O hs
    · exact nabla1j_fill hs1 O hs
    · exact nabla1k_fill hs1 O hs
    · exact absurd rfl h4

/-- **C24** CINTx1i_1e, 1j_1e, 1k_1e (`two = false`) and CINTx1i_2e ... 1l_2e (`two = true`), any angular momenta, given the
centre of function `t` relative to the point `b`: they compute the intermediates with function `t` multiplied by `x - b`, and
change nothing but the destination. -/
theorem C24_position (Φ : Functional) (a : Fin 4 → ℝ) (C : Fin 4 → Nat → ℝ) (b : Nat → ℝ)
    (hR : two = true → R = e.nrys_roots) (h1 : two = false → R = 1 ∧ e.g_stride_i = 1 ∧ l 3 = 0 ∧ t ≠ 3)
    (hS : SlabM e L R) (hL : ∀ t', l t' + (if t' = t then 1 else 0) ≤ L t')
    (hA : ∀ i, i < 3*e.g_size → h.D (f + i) ≠ .oob)
    (hD : ∀ i j, i < 3*e.g_size → j < 3*e.g_size → f + i ≠ g + j)
    (hg : TabM h g e (fun t' => l t' + if t' = t then 1 else 0) R (fun c m r => Φ c r (gtos a C c m))) :
    ∃ h', run (xAt two e (fun c => C t c - b c) t f g l) h = some ((), h') ∧
      TabM h' f e l R (fun c m r => Φ c r (Function.update (gtos a C c m) t (fun x => (x - b c) * gto1 (a t) (C t c) (m t) x))) ∧
      (∀ q, (∀ i, i < 3*e.g_size → q ≠ f + i) → h'.D q = h.D q) ∧ h'.I = h.I := by
  have hb : bump l t = fun t' => l t' + if t' = t then 1 else 0 := by
    funext t'
    unfold bump
    by_cases h : t' = t
    · subst h; simp
    · simp [h]
  have hl : ∀ t', l t' ≤ L t' := fun t' => le_trans (Nat.le_add_right _ _) (hL t')
  have hv : xVal (fun c => C t c - b c) t (fun c m r => Φ c r (gtos a C c m)) =
      fun c m r => Φ c r (Function.update (gtos a C c m) t (fun x => (x - b c) * gto1 (a t) (C t c) (m t) x)) := by
    funext c m r
    unfold xVal bump
    beta_reduce
    rw [gtos_update, mul_gto1, MultilinearMap.map_update_add, MultilinearMap.map_update_smul]
    congr 2
    rw [← gtos_update, Function.update_eq_self]
  rw [← hv]
  refine run_fill hS hl ?_
  have O := opCtx_of (v := xVal (fun c => C t c - b c) t (fun c m r => Φ c r (gtos a C c m))) (l := l) hS hL hl hA hD hg
  have hs : ∀ t', bump l t t' ≤ (fun t' => l t' + if t' = t then 1 else 0) t' := by rw [hb]; exact fun _ => le_refl _
  unfold xAt
  cases two with
  | true =>
    have hR' := hR rfl
    subst hR'
    rw [if_pos rfl]
    rw [← vec_eta l] at O hs ⊢
    exact x2e_fill rfl O hs
  | false =>
    obtain ⟨hR', hs1, h3, h4⟩ := h1 rfl
    subst hR'
    rw [if_neg (by decide)]
    rw [← vec_eta l, h3] at O hs ⊢
    refine x1e_fill hs1 ?_ O hs
    split
    · rename_i h; subst h; exact hs1.symm
    · rfl
end

/-! ### The hypotheses can be met -/
namespace OperActDemo

/-- a p shell and a d shell, one more power on the ket -/
def env : EnvG := initInt1e 1 2 ⟨0, 1, 0, 0, 1⟩

theorem slab : SlabM env ![1, 3, 0, 0] 1 := by
  have S := C07_slab_int1e 1 2 ⟨0, 1, 0, 0, 1⟩
  refine ⟨fun m r hm hr => ?_, fun m r m' r' hm hr hm' hr' h => ?_⟩
  · have := S.range (m 0) (m 1) r (hm 0) (hm 1) hr
    have m2 : m 2 = 0 := Nat.le_zero.1 (hm 2)
    have m3 : m 3 = 0 := Nat.le_zero.1 (hm 3)
    unfold slabM
    rw [m2, m3]
    exact this
  · have m2 : m 2 = 0 := Nat.le_zero.1 (hm 2)
    have m3 : m 3 = 0 := Nat.le_zero.1 (hm 3)
    have m2' : m' 2 = 0 := Nat.le_zero.1 (hm' 2)
    have m3' : m' 3 = 0 := Nat.le_zero.1 (hm' 3)
    unfold slabM at h
    rw [m2, m3, m2', m3'] at h
    have := S.inj (m 0) (m 1) r (m' 0) (m' 1) r' (hm 0) (hm 1) hr (hm' 0) (hm' 1) hr' h
    refine ⟨?_, this.2.2⟩
    funext t
    fin_cases t
    · exact this.1
    · exact this.2.1
    · exact m2.trans m2'.symm
    · exact m3.trans m3'.symm

/-- the product of the values of the four functions at the point `x` -/
noncomputable def at_ (x : ℝ) : Functional := fun _ _ =>
  (MultilinearMap.mkPiAlgebra ℝ (Fin 4) ℝ).compLinearMap fun _ => LinearMap.proj x

/-- intermediates of every kind -/
noncomputable def mem (x : ℝ) (a : Fin 4 → ℝ) (C : Fin 4 → Nat → ℝ) : Heap ℝ where
  D := fun q => if q.buf = 0 then (open Classical in if hq : ∃ p : Nat × (Fin 4 → Nat), p.1 < 3 ∧ (∀ t, p.2 t ≤ (![1, 3, 0, 0] : Fin 4 → Nat) t) ∧
    q = gAx ⟨0, 0⟩ env p.1 (slabM env p.2 0) then .val (at_ x hq.choose.1 0 (gtos a C hq.choose.1 hq.choose.2)) else .undef) else .undef
  I := fun _ => .undef

/-- the ket differentiated -/
example (x : ℝ) (a : Fin 4 → ℝ) (C : Fin 4 → Nat → ℝ) :
    ∃ h', run (nablaAt false env (a 1) 1 ⟨1, 0⟩ ⟨0, 0⟩ ![1, 2, 0, 0]) (mem x a C) = some ((), h') ∧
      TabM h' ⟨1, 0⟩ env ![1, 2, 0, 0] 1
        (fun c m r => at_ x c r (Function.update (gtos a C c m) 1 (deriv (gto1 (a 1) (C 1 c) (m 1))))) := by
  have hlim : (fun t' => (![1, 2, 0, 0] : Fin 4 → Nat) t' + if t' = 1 then 1 else 0) = ![1, 3, 0, 0] := by
    funext t; fin_cases t <;> rfl
  obtain ⟨h', h1, h2, _⟩ := C24_derivative (two := false) (e := env) (L := ![1, 3, 0, 0]) (R := 1) (h := mem x a C) (f := ⟨1, 0⟩)
    (g := ⟨0, 0⟩) (l := ![1, 2, 0, 0]) (t := 1) (at_ x) a C (by decide) (fun _ => ⟨rfl, rfl, rfl, by decide⟩) slab
    (by rw [funext_iff] at hlim; intro t'; exact le_of_eq (hlim t'))
    (fun i _ => by
      unfold mem
      dsimp only
      rw [if_neg (by show ¬ (1 : Nat) = 0; decide)]
      simp)
    (fun i j _ _ h => by have := congrArg Ptr.buf h; exact absurd this (by show ¬ (1 : Nat) = 0; decide))
    (by
      rw [hlim]
      intro c m r hc hm hr
      obtain rfl : r = 0 := by omega
      have hq : ∃ p : Nat × (Fin 4 → Nat), p.1 < 3 ∧ (∀ t, p.2 t ≤ (![1, 3, 0, 0] : Fin 4 → Nat) t) ∧
          gAx ⟨0, 0⟩ env c (slabM env m 0) = gAx ⟨0, 0⟩ env p.1 (slabM env p.2 0) := ⟨(c, m), hc, hm, rfl⟩
      unfold mem
      dsimp only
      rw [if_pos (by rfl), dif_pos hq]
      obtain ⟨e1, e2, _⟩ := gAx_slab_inj slab hm Nat.one_pos hq.choose_spec.2.1 Nat.one_pos hq.choose_spec.2.2
      rw [← e1, ← e2])
  exact ⟨h', h1, h2⟩
end OperActDemo
end Verif.Props
