import Verif.Lemmas.RysGauss
import Verif.Core.Adds
import Verif.Spec.RysRoots
import Verif.Model.RysSchmidt

/-!
The programs of `Model/RysSchmidt` compute the orthonormal polynomials of a positive functional and the Gaussian quadrature.
-/
namespace Verif.Lemmas
open Polynomial Verif.Model Verif.Prog Verif.Spec

theorem From.set' {α : Type} {h0 h : Heap α} {Reg : Ptr → Prop} (H : From h0 Reg h) {q : Ptr} (x : α) (hq : Reg q) :
    From h0 Reg (h.setD q x) :=
  ⟨fun r hr => by rw [Heap.setD_D_ne h x (show r ≠ q from fun e => hr (by rw [e]; exact hq)), H.D r hr],
   fun r hr => by
    rw [Heap.setD_D]; split
    · simp
    · exact H.al r hr, H.I⟩

theorem setD_buf {α : Type} {h : Heap α} {p q : Ptr} {x : α} (e : q.buf ≠ p.buf) : (h.setD p x).D q = h.D q :=
  Heap.setD_D_ne _ _ (fun e' => e (congrArg Ptr.buf e'))

/-- columns `0..j-1` of `cs` hold the coefficients of the orthonormal polynomials -/
def Cols (L : ℝ[X] →ₗ[ℝ] ℝ) (cs : Ptr) (n j : ℕ) (h : Heap ℝ) : Prop :=
  ∀ k, k < j → ∀ i, i ≤ k → h.D (cs + (i + k*n)) = .val ((gsP L k).coeff i)

theorem Cols.congr {L : ℝ[X] →ₗ[ℝ] ℝ} {cs : Ptr} {n j : ℕ} {h h' : Heap ℝ} (H : Cols L cs n j h)
    (e : ∀ i : ℕ, h'.D (cs + i) = h.D (cs + i)) : Cols L cs n j h' := fun k hk i hi => by rw [e, H k hk i hi]

section
variable {L : ℝ[X] →ₗ[ℝ] ℝ} (hL : PosFun L)

include hL in
theorem gsP_moment (k j : ℕ) : ∑ i ∈ Finset.range (k+1), (gsP L k).coeff i * L (X^(i+j)) = L (gsP L k * X^j) := by
  have hd := (gs_main hL k).2.2.2.1
  conv_rhs => rw [(gsP L k).as_sum_range' (k+1) (by omega)]
  rw [Finset.sum_mul, map_sum]
  refine Finset.sum_congr rfl fun i _ => ?_
  rw [← C_mul_X_pow_eq_monomial, mul_assoc, ← pow_add, C_mul', map_smul, smul_eq_mul]

theorem gsQ_coeff {i j : ℕ} (h : i < j) :
    (gsQ L j).coeff i = ∑ k ∈ Finset.range j, -(L (gsP L k * X^j) * (gsP L k).coeff i) := by
  unfold gsQ
  rw [coeff_sub, coeff_X_pow, if_neg h.ne, zero_sub, finsetSum_coeff, ← Finset.sum_neg_distrib]
  refine Finset.sum_congr rfl fun k _ => ?_
  rw [coeff_C_mul]

include hL in
theorem smitProject_wp {cs f v : Ptr} {n j N : ℕ} {h0 h : Heap ℝ} (hcv : v.buf ≠ cs.buf) (hfv : f.buf ≠ v.buf)
    (hf : ∀ m, m < N → h.D (f + m) = .val (L (X^m))) (hj : j + j < N) (hv : ∀ i, i < j → h.D (v + i) ≠ .oob)
    (hc : Cols L cs n j h) (H : From h0 (fun q => q.buf = cs.buf ∨ q.buf = v.buf) h) :
    wp (smitProject cs f v n j) (fun fac h' => fac = L (gsQ L j * gsQ L j) ∧
      From h0 (fun q => q.buf = cs.buf ∨ q.buf = v.buf) h' ∧ (∀ q, q.buf ≠ v.buf → h'.D q = h.D q) ∧
      ∀ i, i < j → h'.D (v + i) = .val ((gsQ L j).coeff i)) h := by
  unfold smitProject
  rw [wp_mbind]
  refine wp_forN (fun k h1 => From h0 (fun q => q.buf = cs.buf ∨ q.buf = v.buf) h1 ∧ (∀ q, q.buf ≠ v.buf → h1.D q = h.D q) ∧
      (∀ i, i < j → h1.D (v + i) ≠ .oob) ∧ ∀ i, i < k → h1.D (v + i) = .val 0)
    ⟨H, fun _ _ => rfl, hv, fun i hi => absurd hi (by omega)⟩ ?_ ?_
  · rintro k hk h1 ⟨F1, E1, A1, V1⟩
    rw [wp_st]
    refine ⟨A1 k hk, From.set' F1 _ (Or.inr rfl), fun q hq => by rw [setD_buf (by exact hq), E1 q hq], ?_, ?_⟩
    · intro i hi
      rw [Heap.setD_D]; split
      · simp
      · exact A1 i hi
    · intro i hi
      rw [Heap.setD_D]; split
      · rfl
      · rename_i hne
        exact V1 i (by
          have : i ≠ k := fun e => hne (by rw [e])
          omega)
  · rintro h1 ⟨F1, E1, -, V1⟩
    rw [wp_mbind, wp_ld]
    refine ⟨_, by rw [E1 _ (by exact hfv), hf _ hj], ?_⟩
    refine wp_forS (fun k fac h2 => fac = L (X^(j+j)) - ∑ k' ∈ Finset.range k, L (gsP L k' * X^j) * L (gsP L k' * X^j) ∧
        From h0 (fun q => q.buf = cs.buf ∨ q.buf = v.buf) h2 ∧ (∀ q, q.buf ≠ v.buf → h2.D q = h.D q) ∧
        ∀ i, i < j → h2.D (v + i) = .val (∑ k' ∈ Finset.range k, -(L (gsP L k' * X^j) * (gsP L k').coeff i)))
      ⟨by simp, F1, E1, fun i hi => by rw [V1 i hi]; simp⟩ ?_ ?_
    · rintro k hk fac h2 ⟨hfac, F2, E2, V2⟩
      rw [wp_mbind]
      refine wp_forS (fun i dot h3 => h3 = h2 ∧ dot = ∑ i' ∈ Finset.range i, (gsP L k).coeff i' * L (X^(i'+j))) ⟨rfl, by simp⟩ ?_ ?_
      · rintro i hi dot h3 ⟨rfl, hdot⟩
        simp only [wp_mbind, wp_ld, wp_pure]
        refine ⟨_, by rw [E2 _ (by exact hcv.symm)]; exact hc k hk i (by omega), _, by rw [E2 _ (by exact hfv)]; exact hf _ (by omega), trivial, ?_⟩
        rw [Finset.sum_range_succ, hdot]
      · rintro dot h3 ⟨rfl, hdot⟩
        rw [gsP_moment hL] at hdot
        rw [wp_mbind]
        refine wp_forN (fun i h4 => From h0 (fun q => q.buf = cs.buf ∨ q.buf = v.buf) h4 ∧ (∀ q, q.buf ≠ v.buf → h4.D q = h.D q) ∧
          ∀ i', i' < j → h4.D (v + i') = .val (∑ k' ∈ Finset.range k, -(L (gsP L k' * X^j) * (gsP L k').coeff i') +
            if i' < i then -(L (gsP L k * X^j) * (gsP L k).coeff i') else 0))
          ⟨F2, E2, fun i' hi' => by rw [V2 i' hi']; simp⟩ ?_ ?_
        · rintro i hi h4 ⟨F4, E4, V4⟩
          simp only [wp_mbind, wp_ld, wp_st]
          refine ⟨_, V4 i (by omega), _, by rw [E4 _ (by exact hcv.symm)]; exact hc k hk i (by omega), ?_,
            From.set' F4 _ (Or.inr rfl), fun q hq => by rw [setD_buf (by exact hq), E4 q hq], ?_⟩
          · rw [V4 i (by omega)]; simp
          · intro i' hi'
            rw [Heap.setD_D]
            by_cases e : i' = i
            · subst e
              rw [if_pos rfl, if_neg (lt_irrefl _), if_pos (by omega), hdot]
              refine congrArg Cell.val ?_
              ring
            · rw [if_neg (by simpa using e), V4 i' hi']
              refine congrArg Cell.val ?_
              by_cases e2 : i' < i
              · rw [if_pos e2, if_pos (by omega)]
              · rw [if_neg e2, if_neg (by omega)]
        · rintro h4 ⟨F4, E4, V4⟩
          simp only [wp_pure]
          refine ⟨?_, F4, E4, ?_⟩
          · rw [Finset.sum_range_succ, hfac, hdot]; ring
          · intro i hi
            rw [V4 i hi, Finset.sum_range_succ]
            refine congrArg Cell.val (congrArg (_ + ·) ?_)
            split
            · rfl
            · rename_i hge
              rw [coeff_eq_zero_of_natDegree_lt (by rw [(gs_main hL k).2.2.2.1]; omega)]; simp
    · rintro fac h2 ⟨hfac, F2, E2, V2⟩
      refine ⟨by rw [hfac, gsQ_norm hL], F2, E2, fun i hi => by rw [V2 i hi, gsQ_coeff hi]⟩

include hL in
theorem smitCols_wp {cs f v : Ptr} {n N : ℕ} {h0 : Heap ℝ} (hcv : v.buf ≠ cs.buf) (hfv : f.buf ≠ v.buf) (hfc : f.buf ≠ cs.buf)
    (hf : ∀ m, m < N → h0.D (f + m) = .val (L (X^m))) (hv : ∀ i, i < n → h0.D (v + i) ≠ .oob)
    (hal : ∀ i, i < n*n → h0.D (cs + i) ≠ .oob) (m : ℕ) : ∀ (j : ℕ) (h : Heap ℝ), j + m = n → 2*n ≤ N+1 → Cols L cs n j h →
    From h0 (fun q => q.buf = cs.buf ∨ q.buf = v.buf) h →
    wp (smitCols Real.sqrt cs f v n m j) (fun e h' => e = 0 ∧ Cols L cs n n h' ∧
      From h0 (fun q => q.buf = cs.buf ∨ q.buf = v.buf) h') h := by
  induction m with
  | zero =>
    intro j h hj hN hc H
    unfold smitCols
    simp only [wp_pure]
    refine ⟨trivial, ?_, H⟩
    have : j = n := by omega
    rwa [this] at hc
  | succ m ih =>
    intro j h hj hN hc H
    unfold smitCols
    rw [wp_mbind]
    have hreg : ∀ i : ℕ, ¬ ((f + i).buf = cs.buf ∨ (f + i).buf = v.buf) := fun i e => e.elim hfc hfv
    refine wp_mono (smitProject_wp hL (N := N) hcv hfv (fun i hi => H.val (hf i hi) (hreg i)) (by omega)
      (fun i hi => H.al _ (hv i (by omega))) hc H) ?_
    rintro fac h1 ⟨hfac, F1, E1, V1⟩
    have hpos := (gs_main hL j).2.2.1
    rw [if_neg (by rw [hfac]; exact not_le.2 hpos)]
    dsimp only
    have hjn : j < n := by omega
    have hjj : j + j*n < n*n := by nlinarith
    rw [wp_mbind, wp_st]
    refine ⟨F1.al _ (hal _ hjj), ?_⟩
    rw [wp_mbind]
    have hPc : ∀ i, (gsP L j).coeff i = 1/Real.sqrt fac * (gsQ L j).coeff i := fun i => by rw [gsP_eq, coeff_C_mul, hfac]
    have hmon : (gsQ L j).coeff j = 1 := by
      have := (gs_main hL j).1.coeff_natDegree
      rwa [(gs_main hL j).2.1] at this
    refine wp_forN (fun k h2 => From h0 (fun q => q.buf = cs.buf ∨ q.buf = v.buf) h2 ∧ Cols L cs n j h2 ∧
      (∀ i, i < j → h2.D (v + i) = .val ((gsQ L j).coeff i)) ∧ h2.D (cs + (j + j*n)) = .val ((gsP L j).coeff j) ∧
      ∀ i, i < k → h2.D (cs + (i + j*n)) = .val ((gsP L j).coeff i)) ?_ ?_ ?_
    · refine ⟨From.set' F1 _ (Or.inl rfl), ?_, ?_, ?_, fun i hi => absurd hi (by omega)⟩
      · intro k hk i hi
        have : i + k*n ≠ j + j*n := by
          have : (k+1)*n ≤ j*n := Nat.mul_le_mul_right _ hk
          rw [Nat.add_mul] at this
          omega
        rw [Heap.setD_D_ne _ _ (by simpa using this), E1 _ (by exact hcv.symm)]
        exact hc k hk i hi
      · intro i hi
        rw [setD_buf (by exact hcv), V1 i hi]
      · rw [Heap.setD_D_self, hPc, hmon, mul_one]
    · rintro k hk h2 ⟨F2, C2, V2, T2, W2⟩
      simp only [wp_mbind, wp_ld, wp_st]
      have hkj : k + j*n < n*n := by nlinarith
      refine ⟨_, V2 k hk, F2.al _ (hal _ hkj), From.set' F2 _ (Or.inl rfl), ?_, ?_, ?_, ?_⟩
      · intro k' hk' i hi
        have : i + k'*n ≠ k + j*n := by
          have : (k'+1)*n ≤ j*n := Nat.mul_le_mul_right _ hk'
          rw [Nat.add_mul] at this
          omega
        rw [Heap.setD_D_ne _ _ (by simpa using this)]
        exact C2 k' hk' i hi
      · intro i hi
        rw [setD_buf (by exact hcv), V2 i hi]
      · rw [Heap.setD_D_ne _ _ (by simpa using (by omega : j ≠ k)), T2]
      · intro i hi
        rw [Heap.setD_D]
        by_cases e : i = k
        · rw [if_pos (by rw [e]), e, hPc]
        · rw [if_neg (by simpa using e)]
          exact W2 i (by omega)
    · rintro h2 ⟨F2, C2, V2, T2, W2⟩
      refine ih (j+1) h2 (by omega) hN ?_ F2
      intro k hk i hi
      by_cases e : k = j
      · subst e
        by_cases e2 : i = k
        · rw [e2]; exact T2
        · exact W2 i (by omega)
      · exact C2 k (by omega) i hi

include hL in
theorem rDsmit_wp {cs f v : Ptr} {n N : ℕ} {h0 : Heap ℝ} (hcv : v.buf ≠ cs.buf) (hfv : f.buf ≠ v.buf) (hfc : f.buf ≠ cs.buf)
    (hf : ∀ m, m < N → h0.D (f + m) = .val (L (X^m))) (hv : ∀ i, i < n → h0.D (v + i) ≠ .oob)
    (hal : ∀ i, i < n*n → h0.D (cs + i) ≠ .oob) (hn : 2 ≤ n) (hN : 2*n ≤ N+1) :
    wp (rDsmit Real.sqrt cs f v n) (fun e h' => e = 0 ∧ Cols L cs n n h' ∧
      From h0 (fun q => q.buf = cs.buf ∨ q.buf = v.buf) h') h0 := by
  have h00 : 0 < L (X^0) := by
    rw [pow_zero]
    exact hL 1 one_ne_zero (fun s _ _ => by rw [eval_one]; exact zero_le_one)
  have hp0 : gsP L 0 = C (1/Real.sqrt (L (X^0))) := by
    rw [gsP_eq]
    have : gsQ L 0 = 1 := by simp [gsQ]
    rw [this, mul_one, pow_zero]; simp
  have hs0 := Real.mul_self_sqrt h00.le
  have hs0' : Real.sqrt (L (X^0)) ≠ 0 := (Real.sqrt_pos.2 h00).ne'
  have hdot : L (gsP L 0 * X^1) = 1/Real.sqrt (L (X^0)) * L (X^1) := by
    rw [hp0, C_mul', map_smul, smul_eq_mul]
  have hpr : (1/Real.sqrt (L (X^0))) * (1/Real.sqrt (L (X^0))) = 1/L (X^0) := by
    rw [div_mul_div_comm, hs0, one_mul]
  have hnorm : L (X^2) + -L (X^1)/L (X^0) * L (X^1) = L (gsQ L 1 * gsQ L 1) := by
    rw [gsQ_norm hL, Finset.sum_range_one, hdot]
    have e : 1/Real.sqrt (L (X^0)) * L (X^1) * (1/Real.sqrt (L (X^0)) * L (X^1)) =
      (1/Real.sqrt (L (X^0))) * (1/Real.sqrt (L (X^0))) * L (X^1) * L (X^1) := by ring
    rw [e, hpr]
    ring
  have hq10 : (gsQ L 1).coeff 0 = -L (X^1)/L (X^0) := by
    rw [gsQ_coeff (by norm_num), Finset.sum_range_one, hdot, hp0, coeff_C_zero]
    have e : -(1/Real.sqrt (L (X^0)) * L (X^1) * (1/Real.sqrt (L (X^0)))) =
      -((1/Real.sqrt (L (X^0))) * (1/Real.sqrt (L (X^0))) * L (X^1)) := by ring
    rw [e, hpr]
    ring
  have hq11 : (gsQ L 1).coeff 1 = 1 := by
    have := (gs_main hL 1).1.coeff_natDegree
    rwa [(gs_main hL 1).2.1] at this
  have hP : ∀ i, (gsP L 1).coeff i = (gsQ L 1).coeff i * (1/Real.sqrt (L (gsQ L 1 * gsQ L 1))) := fun i => by
    rw [gsP_eq, coeff_C_mul, mul_comm]
  unfold rDsmit
  simp only [wp_mbind, wp_ld]
  refine ⟨_, hf 0 (by omega), _, hf 1 (by omega), _, hf 2 (by omega), ?_⟩
  rw [hnorm, if_neg (not_le.2 (gs_main hL 1).2.2.1)]
  simp only [wp_mbind, wp_st]
  have hnn : 1 + n < n*n := by nlinarith
  have F1 := From.set' (From.refl h0 (fun q => q.buf = cs.buf ∨ q.buf = v.buf)) (q := cs) (1/Real.sqrt (L (X^0))) (Or.inl rfl)
  have F2 := From.set' F1 (q := cs + n) (-L (X^1)/L (X^0) * (1/Real.sqrt (L (gsQ L 1 * gsQ L 1)))) (Or.inl rfl)
  have F3 := From.set' F2 (q := cs + (1+n)) (1/Real.sqrt (L (gsQ L 1 * gsQ L 1))) (Or.inl rfl)
  refine ⟨hal 0 (by omega), F1.al _ (hal n (by omega)), F2.al _ (hal _ hnn), ?_⟩
  refine smitCols_wp hL (N := N) hcv hfv hfc hf hv hal (n-2) 2 _ (by omega) hN ?_ F3
  intro k hk i hi
  have e0 : ∀ m : ℕ, cs = cs + m ↔ m = 0 := fun m => by
    conv_lhs => lhs; rw [← Ptr.add_zero cs]
    rw [Ptr.add_right_inj]; exact eq_comm
  rcases (by omega : (k = 0 ∧ i = 0) ∨ (k = 1 ∧ i = 0) ∨ (k = 1 ∧ i = 1)) with ⟨rfl, rfl⟩ | ⟨rfl, rfl⟩ | ⟨rfl, rfl⟩
  · rw [Heap.setD_D_ne _ _ (by simp [e0]), Heap.setD_D_ne _ _ (by simp [e0]; omega)]
    rw [hp0, coeff_C_zero]
    simp
  · rw [Heap.setD_D_ne _ _ (by simp), hP, hq10]
    simp
  · rw [hP, hq11, one_mul, one_mul, Heap.setD_D_self]

theorem loadCoef_wp {cs : Ptr} {n : ℕ} {h : Heap ℝ} {a : ℕ → ℕ → ℝ}
    (hc : ∀ k, k < n → ∀ i, i ≤ k → h.D (cs + (i + k*n)) = .val (a k i)) :
    wp (loadCoef cs n) (fun c h' => h' = h ∧ ∀ k, k < n → ∀ i, i ≤ k → c k i = a k i) h := by
  unfold loadCoef
  refine wp_forS (fun j c h' => h' = h ∧ ∀ k, k < j → ∀ i, i ≤ k → c k i = a k i) ⟨rfl, fun k hk => absurd hk (by omega)⟩ ?_
    (fun _ _ H => H)
  rintro j hj c h' ⟨rfl, H⟩
  refine wp_forS (fun m c h1 => h1 = h' ∧ (∀ k, k < j → ∀ i, i ≤ k → c k i = a k i) ∧ ∀ i, i < m → c j i = a j i)
    ⟨rfl, H, fun i hi => absurd hi (by omega)⟩ ?_ ?_
  · rintro m hm c h1 ⟨rfl, H1, H2⟩
    simp only [wp_mbind, wp_ld, wp_pure]
    refine ⟨_, hc j hj m (by omega), trivial, ?_, ?_⟩
    · intro k hk i hi
      rw [if_neg (by omega)]
      exact H1 k hk i hi
    · intro i hi
      by_cases e : i = m
      · rw [if_pos ⟨trivial, e⟩, e]
      · rw [if_neg (fun x => e x.2)]
        exact H2 i (by omega)
  · rintro c h1 ⟨rfl, H1, H2⟩
    refine ⟨rfl, fun k hk i hi => ?_⟩
    by_cases e : k = j
    · subst e; exact H2 i (by omega)
    · exact H1 k (by omega) i hi

theorem polyValue1_wp {a : Ptr} {d : ℕ} {x : ℝ} {p : ℝ[X]} {h : Heap ℝ} (hd : p.natDegree ≤ d)
    (ha : ∀ i, i ≤ d → h.D (a + i) = .val (p.coeff i)) :
    wp (polyValue1 a d x) (fun y h' => h' = h ∧ y = p.eval x) h := by
  unfold polyValue1
  rw [wp_mbind, wp_ld]
  refine ⟨_, ha d le_rfl, ?_⟩
  refine wp_forS (fun i y h' => h' = h ∧ y = ∑ j ∈ Finset.range (i+1), p.coeff (d - i + j) * x^j) ⟨rfl, by simp⟩ ?_ ?_
  · rintro i hi y h' ⟨rfl, hy⟩
    simp only [wp_mbind, wp_ld, wp_pure]
    refine ⟨_, ha _ (by omega), trivial, ?_⟩
    rw [hy, Finset.sum_range_succ' _ (i+1), Finset.sum_mul]
    simp only [Nat.add_zero, pow_zero, mul_one]
    refine congrArg (· + _) (Finset.sum_congr rfl fun j _ => ?_)
    rw [show d - (i+1) + (j+1) = d - i + j by omega, pow_succ]; ring
  · rintro y h' ⟨rfl, hy⟩
    refine ⟨rfl, ?_⟩
    rw [hy, eval_eq_sum_range' (n := d+1) (by omega)]
    refine Finset.sum_congr rfl fun j _ => ?_
    rw [Nat.sub_self, Nat.zero_add]

include hL in
theorem gsP_eval (n : ℕ) (x : ℝ) : (gsP L n).eval x = ∑ i ∈ Finset.range (n+1), (gsP L n).coeff i * x^i :=
  eval_eq_sum_range' (by rw [(gs_main hL n).2.2.2.1]; omega) x

theorem quad_roots {a0 a1 a2 r1 r2 : ℝ} (h2 : a2 ≠ 0) (hr : r1 ≠ r2) (e1 : a0 + a1*r1 + a2*r1^2 = 0) (e2 : a0 + a1*r2 + a2*r2^2 = 0) :
    let d := Real.sqrt (a1*a1 - 4*a0*a2)
    0 < d ∧ d*d = a1*a1 - 4*a0*a2 := by
  have h3 : (r1 - r2) * (a1 + a2*(r1+r2)) = 0 := by linear_combination e1 - e2
  have h4 : a1 = -a2*(r1+r2) := by
    have := (mul_eq_zero.1 h3).resolve_left (sub_ne_zero.2 hr)
    linarith
  have h5 : a0 = a2*r1*r2 := by rw [h4] at e1; linear_combination e1
  have h6 : a1*a1 - 4*a0*a2 = (a2*(r1-r2))^2 := by rw [h4, h5]; ring
  have h7 : 0 < a1*a1 - 4*a0*a2 := by
    rw [h6]
    exact sq_pos_of_ne_zero (mul_ne_zero h2 (sub_ne_zero.2 hr))
  exact ⟨Real.sqrt_pos.2 h7, Real.mul_self_sqrt h7.le⟩

include hL in
theorem polynomialRoots_wp {S : RootSolver ℝ} {rt : Ptr} {n : ℕ} {h : Heap ℝ} (hn : 2 ≤ n) (hS : n = 2 ∨ SolvesRoots S n)
    (hr : ∃ s : ℕ → ℝ, Set.InjOn s (Finset.range n : Set ℕ) ∧ ∀ k, k < n → (gsP L n).eval (s k) = 0)
    (hal : ∀ i, i < n → h.D (rt + i) ≠ .oob) (hc : Cols L (rt + (n+1)) (n+1) (n+1) h) :
    wp (polynomialRoots Real.sqrt S rt (rt + (n+1)) n) (fun e h' => e = 0 ∧ ∃ s : ℕ → ℝ,
      Set.InjOn s (Finset.range n : Set ℕ) ∧ (∀ k, k < n → (gsP L n).eval (s k) = 0) ∧
      (∀ k, k < n → h'.D (rt + k) = .val (s k)) ∧ From h (Blk rt n) h') h := by
  have hlead := gsP_lead hL n
  unfold polynomialRoots
  rw [if_neg (by omega)]
  by_cases h2 : n = 2
  · subst h2
    rw [if_pos rfl]
    have c0 := hc 2 (by norm_num) 0 (by norm_num)
    have c1 := hc 2 (by norm_num) 1 (by norm_num)
    have c2 := hc 2 (by norm_num) 2 (by norm_num)
    norm_num at c0 c1 c2
    simp only [wp_mbind, wp_ld, wp_st, wp_pure]
    refine ⟨_, c0, _, c1, _, c2, hal 0 (by norm_num), ?_, trivial, ?_⟩
    · rw [Heap.setD_D]; split
      · simp
      · exact hal 1 (by norm_num)
    · obtain ⟨s, hi, he⟩ := hr
      have ev : ∀ x, (gsP L 2).eval x = (gsP L 2).coeff 0 + (gsP L 2).coeff 1 * x + (gsP L 2).coeff 2 * x^2 := fun x => by
        rw [gsP_eval hL, Finset.sum_range_succ, Finset.sum_range_succ, Finset.sum_range_one]; ring
      have hne : s 0 ≠ s 1 := fun e => by
        have := hi (by simp) (by simp) e
        omega
      have e1 := he 0 (by norm_num)
      have e2 := he 1 (by norm_num)
      rw [ev] at e1 e2
      have hq := quad_roots hlead hne e1 e2
      generalize (gsP L 2).coeff 0 = a0 at *
      generalize (gsP L 2).coeff 1 = a1 at *
      generalize (gsP L 2).coeff 2 = a2 at *
      generalize Real.sqrt (a1*a1 - 4*a0*a2) = d at *
      obtain ⟨hd, hdd⟩ := hq
      refine ⟨fun k => if k = 0 then (-a1 - d)/a2/2 else (-a1 + d)/a2/2, ?_, ?_, ?_, ?_⟩
      · have hne2 : (-a1 - d)/a2/2 ≠ (-a1 + d)/a2/2 := by
          intro e
          field_simp at e
          linarith
        intro a ha b hb hab
        have ha' : a < 2 := Finset.mem_range.1 ha
        have hb' : b < 2 := Finset.mem_range.1 hb
        rcases (by omega : a = 0 ∨ a = 1) with rfl | rfl <;> rcases (by omega : b = 0 ∨ b = 1) with rfl | rfl
        · rfl
        · exact absurd hab (by simpa using hne2)
        · exact absurd hab.symm (by simpa using hne2)
        · rfl
      · intro k hk
        rw [ev]
        rcases (by omega : k = 0 ∨ k = 1) with rfl | rfl
        · beta_reduce
          rw [if_pos rfl]
          field_simp
          linear_combination hdd
        · beta_reduce
          rw [if_neg (by norm_num)]
          field_simp
          linear_combination hdd
      · intro k hk
        rcases (by omega : k = 0 ∨ k = 1) with rfl | rfl
        · beta_reduce
          rw [if_pos rfl, Heap.setD_D_ne _ _ (by rw [Ne, Ptr.add_right_inj]; norm_num)]
          exact Heap.setD_D_self _ _ _
        · beta_reduce
          rw [if_neg (by norm_num), Heap.setD_D_self]
      · exact From.set' (From.set' (From.refl _ _) _ ⟨0, by norm_num, rfl⟩) _ ⟨1, by norm_num, rfl⟩
  · rw [if_neg h2, wp_mbind]
    refine wp_mono (loadCoef_wp (a := fun k i => (gsP L k).coeff i) hc) ?_
    rintro c h1 ⟨rfl, hc'⟩
    have hcn : ∀ x : ℝ, ∑ i ∈ Finset.range (n+1), c n i * x^i = (gsP L n).eval x := fun x => by
      rw [gsP_eval hL]
      refine Finset.sum_congr rfl fun i hi => ?_
      rw [hc' n (by omega) i (by have := Finset.mem_range.1 hi; omega)]
    obtain ⟨s, hs, hs1, hs2⟩ := hS.resolve_left h2 c (by rw [hc' n (by omega) n le_rfl]; exact hlead)
      (hr.imp fun s hs => ⟨hs.1, fun k hk => by rw [hcn, hs.2 k hk]⟩)
    rw [hs]
    dsimp only
    rw [wp_mbind]
    refine wp_forN (fun k h2 => (∀ i, i < k → h2.D (rt + i) = .val (s i)) ∧ From h1 (Blk rt n) h2)
      ⟨fun i hi => absurd hi (by omega), From.refl _ _⟩ ?_ ?_
    · rintro k hk h2 ⟨V, F⟩
      rw [wp_st]
      refine ⟨F.al _ (hal k hk), fun i hi => ?_, From.set' F _ ⟨k, hk, rfl⟩⟩
      rw [Heap.setD_D]
      by_cases e : i = k
      · rw [if_pos (by rw [e]), e]
      · rw [if_neg (by simpa using e)]
        exact V i (by omega)
    · rintro h2 ⟨V, F⟩
      rw [wp_pure]
      exact ⟨rfl, s, hs1, fun k hk => by rw [← hcn, hs2 k hk], V, F⟩

include hL in
theorem rdkRoot_wp {rt roots weights : Ptr} {n k : ℕ} {h : Heap ℝ} {r : ℝ} (hn : 1 ≤ n) (hrt : h.D (rt + k) = .val r) (h1 : r ≠ 1)
    (hc : Cols L (rt + (n+1)) (n+1) (n+1) h) (hu : h.D (roots + k) ≠ .oob) (hw : h.D (weights + k) ≠ .oob) :
    wp (rdkRoot (rt + (n+1)) rt roots weights n (L (X^0)) k) (fun _ h' => h' = (h.setD (roots + k) (r/(1-r))).setD (weights + k)
      (1/∑ j ∈ Finset.range n, (gsP L j).eval r * (gsP L j).eval r)) h := by
  have h00 : 0 < L (X^0) := by
    rw [pow_zero]
    exact hL 1 one_ne_zero (fun s _ _ => by rw [eval_one]; exact zero_le_one)
  have hp0 : (gsP L 0).eval r * (gsP L 0).eval r = 1/L (X^0) := by
    rw [gsP_eq]
    have : gsQ L 0 = 1 := by simp [gsQ]
    rw [this, mul_one, eval_C, mul_one, pow_zero, div_mul_div_comm, Real.mul_self_sqrt (by rw [pow_zero] at h00; exact h00.le), one_mul]
  unfold rdkRoot
  rw [wp_mbind, wp_ld]
  refine ⟨_, hrt, ?_⟩
  rw [if_neg h1, wp_mbind]
  refine wp_forS (fun j dum h' => h' = h ∧ dum = ∑ i ∈ Finset.range (j+1), (gsP L i).eval r * (gsP L i).eval r)
    ⟨rfl, by rw [Finset.sum_range_one, hp0]⟩ ?_ ?_
  · rintro j hj dum h' ⟨rfl, hd⟩
    rw [wp_mbind]
    refine wp_mono (polyValue1_wp (p := gsP L (j+1)) (x := r) (by rw [(gs_main hL _).2.2.2.1]) ?_) ?_
    · intro i hi
      rw [Ptr.add_assoc, Nat.add_comm ((j+1)*(n+1)) i]
      exact hc (j+1) (by omega) i hi
    · rintro y h'' ⟨rfl, rfl⟩
      rw [wp_pure]
      exact ⟨rfl, by rw [Finset.sum_range_succ _ (j+1), hd]⟩
  · rintro dum h' ⟨rfl, hd⟩
    simp only [wp_mbind, wp_st]
    rw [Nat.sub_add_cancel hn] at hd
    refine ⟨hu, ?_, by rw [hd]⟩
    rw [Heap.setD_D]; split
    · simp
    · exact hw

include hL in
/-- the quadrature found from the moments -/
theorem rdkRysRoots_wp {S : RootSolver ℝ} {f rt v roots weights : Ptr} {n : ℕ} {h0 : Heap ℝ} (hn : 1 ≤ n)
    (hS : n ≤ 2 ∨ SolvesRoots S n)
    (hr : ∃ s : ℕ → ℝ, Set.InjOn s (Finset.range n : Set ℕ) ∧ ∀ k, k < n → (gsP L n).eval (s k) = 0)
    (hrv : v.buf ≠ rt.buf) (hfv : f.buf ≠ v.buf) (hfr : f.buf ≠ rt.buf)
    (hur : roots.buf ≠ rt.buf) (hwr : weights.buf ≠ rt.buf) (huw : Disj roots n weights n)
    (hf : ∀ m, m < 2*n+1 → h0.D (f + m) = .val (L (X^m))) (hv : ∀ i, i < n+1 → h0.D (v + i) ≠ .oob)
    (hrt : ∀ i, i < (n+1) + (n+1)*(n+1) → h0.D (rt + i) ≠ .oob)
    (hu : ∀ i, i < n → h0.D (roots + i) ≠ .oob) (hw : ∀ i, i < n → h0.D (weights + i) ≠ .oob) :
    wp (rdkRysRoots Real.sqrt S n f rt v roots weights) (fun e h' => e = 0 ∧ ∃ u w : ℕ → ℝ,
      (∀ k, k < n → h'.D (roots + k) = .val (u k)) ∧ (∀ k, k < n → h'.D (weights + k) = .val (w k)) ∧
      (∀ k, k < n → 0 < u k) ∧
      (∀ F : ℝ[X], F.natDegree < 2*n → ∑ k ∈ Finset.range n, w k * F.eval (u k/(1 + u k)) = L F) ∧
      From h0 (fun q => q.buf = rt.buf ∨ q.buf = v.buf ∨ Blk roots n q ∨ Blk weights n q) h') h0 := by
  have h00 : 0 < L (X^0) := by
    rw [pow_zero]
    exact hL 1 one_ne_zero (fun s _ _ => by rw [eval_one]; exact zero_le_one)
  unfold rdkRysRoots
  dsimp only
  rw [wp_mbind, wp_ld]
  refine ⟨_, hf 0 (by omega), ?_⟩
  rw [if_neg h00.ne']
  by_cases h1 : n = 1
  · subst h1
    rw [if_pos rfl]
    simp only [wp_mbind, wp_ld, wp_st, wp_pure]
    have m1 : 0 < L (X^1) := by
      rw [pow_one]
      exact hL X X_ne_zero (fun s hs _ => by rw [eval_X]; exact hs.le)
    have m01 : 0 < L (X^0) - L (X^1) := by
      rw [← map_sub, pow_zero, pow_one]
      refine hL _ (fun e => ?_) (fun s _ hs => by rw [eval_sub, eval_one, eval_X]; linarith)
      have := congrArg (eval 0) e
      simp at this
    refine ⟨_, hf 1 (by omega), hu 0 (by omega), ?_, trivial, fun _ => L (X^1)/(L (X^0) - L (X^1)), fun _ => L (X^0), ?_, ?_, ?_, ?_, ?_⟩
    · rw [Heap.setD_D]; split
      · simp
      · exact hw 0 (by omega)
    · intro k hk
      obtain rfl : k = 0 := by omega
      rw [Heap.setD_D_ne _ _ (by have := huw 0 0 (by omega) (by omega); simpa using this)]
      exact Heap.setD_D_self _ _ _
    · intro k hk
      obtain rfl : k = 0 := by omega
      exact Heap.setD_D_self _ _ _
    · intro k _
      exact div_pos m1 m01
    · intro F hF
      rw [Finset.sum_range_one]
      have e : L (X^1)/(L (X^0) - L (X^1))/(1 + L (X^1)/(L (X^0) - L (X^1))) = L (X^1)/L (X^0) := by
        have := m01.ne'
        have := h00.ne'
        field_simp
        ring
      rw [e, F.as_sum_range' 2 (by omega), Finset.sum_range_succ, Finset.sum_range_one, map_add]
      simp only [← C_mul_X_pow_eq_monomial, C_mul', map_smul, smul_eq_mul, eval_add, eval_smul, eval_pow, eval_X]
      have := h00.ne'
      generalize L (X^0) = m0 at *
      generalize L (X^1) = m1 at *
      field_simp
    · exact From.set' (From.set' (From.refl _ _) _ (Or.inr (Or.inr (Or.inl ⟨0, by omega, rfl⟩)))) _
        (Or.inr (Or.inr (Or.inr ⟨0, by omega, rfl⟩)))
  · rw [if_neg h1, wp_mbind]
    have hal : ∀ i, i < (n+1)*(n+1) → h0.D (rt + (n+1) + i) ≠ .oob := fun i hi => by
      rw [Ptr.add_assoc]; exact hrt _ (by omega)
    refine wp_mono (rDsmit_wp hL (N := 2*n+1) (cs := rt + (n+1)) hrv hfv hfr hf hv hal (by omega) (by omega)) ?_
    rintro e h1 ⟨rfl, C1, F1⟩
    rw [if_neg (by simp), wp_mbind]
    refine wp_mono (polynomialRoots_wp hL (by omega) (hS.imp (fun x => by omega) id) hr (fun i hi => F1.al _ (hrt i (by omega))) C1) ?_
    rintro e h2 ⟨rfl, s, hs1, hs2, hs3, F2⟩
    rw [if_neg (by simp), wp_mbind]
    obtain ⟨h01, hsum⟩ := gauss_quadrature hL hs1 hs2
    have C2 : Cols L (rt + (n+1)) (n+1) (n+1) h2 := C1.congr fun i => F2.D _ (by
      rintro ⟨j, hj, e⟩
      rw [Ptr.add_assoc, Ptr.add_right_inj] at e
      omega)
    have F3 : From h0 (fun q => q.buf = rt.buf ∨ q.buf = v.buf ∨ Blk roots n q ∨ Blk weights n q) h2 := by
      refine ⟨fun q hq => ?_, fun q hq => F2.al q (F1.al q hq), by rw [F2.I, F1.I]⟩
      rw [F2.D q, F1.D q]
      · rintro (e | e)
        · exact hq (Or.inl e)
        · exact hq (Or.inr (Or.inl e))
      · rintro ⟨i, _, e⟩
        exact hq (Or.inl (by rw [e]; rfl))
    have F3al := F3.al
    refine wp_forN (fun k h3 =>
      (∀ i, i < k → h3.D (roots + i) = .val (s i/(1 - s i))) ∧
      (∀ i, i < k → h3.D (weights + i) = .val (1/∑ j ∈ Finset.range n, (gsP L j).eval (s i) * (gsP L j).eval (s i))) ∧
      (∀ q, q.buf = rt.buf → h3.D q = h2.D q) ∧
      From h0 (fun q => q.buf = rt.buf ∨ q.buf = v.buf ∨ Blk roots n q ∨ Blk weights n q) h3)
      ⟨fun i hi => absurd hi (by omega), fun i hi => absurd hi (by omega), fun _ _ => rfl, F3⟩ ?_ ?_
    · rintro k hk h3 ⟨U3, W3, R3, G3⟩
      refine wp_mono (rdkRoot_wp hL hn (r := s k) (by rw [R3 _ (by rfl), hs3 k hk]) (h01 k hk).2.ne (C2.congr fun i => R3 _ (by rfl))
        (G3.al _ (hu k hk)) (G3.al _ (hw k hk))) ?_
      rintro _ h4 rfl
      refine ⟨?_, ?_, ?_, From.set' (From.set' G3 _ (Or.inr (Or.inr (Or.inl ⟨k, hk, rfl⟩)))) _
        (Or.inr (Or.inr (Or.inr ⟨k, hk, rfl⟩)))⟩
      · intro i hi
        rw [Heap.setD_D_ne _ _ (huw i k (by omega) hk), Heap.setD_D]
        by_cases e : i = k
        · rw [if_pos (by rw [e]), e]
        · rw [if_neg (by simpa using e)]
          exact U3 i (by omega)
      · intro i hi
        rw [Heap.setD_D]
        by_cases e : i = k
        · rw [if_pos (by rw [e]), e]
        · rw [if_neg (by simpa using e), Heap.setD_D_ne _ _ (huw k i hk (by omega)).symm]
          exact W3 i (by omega)
      · intro q hq
        rw [setD_buf (by rw [hq]; exact hwr.symm), setD_buf (by rw [hq]; exact hur.symm), R3 q hq]
    · rintro h3 ⟨U3, W3, _, G3⟩
      rw [wp_pure]
      refine ⟨rfl, _, _, U3, W3, fun k hk => ?_, fun F hF => ?_, G3⟩
      · have := h01 k hk
        exact div_pos this.1 (by linarith)
      · rw [← hsum F hF]
        refine Finset.sum_congr rfl fun k hk => ?_
        have := (h01 k (Finset.mem_range.1 hk)).2
        have e : s k/(1 - s k)/(1 + s k/(1 - s k)) = s k := by
          have : 1 - s k ≠ 0 := by linarith
          field_simp
          ring
        rw [e]

end
end Verif.Lemmas
