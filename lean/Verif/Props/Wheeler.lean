import Mathlib.Analysis.Matrix.Spectrum
import Verif.Lemmas.Wheeler
import Verif.Props.RysSchmidt

/-!
C63: Rys roots and weights from modified moments (Wheeler), with the Laguerre moments.
-/
namespace Verif.Props
open Verif.Spec Verif.Model Verif.Model.Wheeler Verif.Lemmas Verif.Lemmas.Wheeler Verif.Prog Polynomial

/-- the memory of a call: the local arrays `moments[32*6]`, `a[32+32]`, `da[32+32+32*32]`, `buf[32*4]` and the caller's two arrays -/
structure WheelerMem (n : ℕ) (moments a da buf roots weights : Ptr) (h : Heap ℝ) : Prop where
  al_m : ∀ i, i < 32*6 → h.D (moments + i) ≠ .oob
  al_a : ∀ i, i < 32+32 → h.D (a + i) ≠ .oob
  al_da : ∀ i, i < 32+32+32*32 → h.D (da + i) ≠ .oob
  al_buf : ∀ i, i < 32*4 → h.D (buf + i) ≠ .oob
  al_u : ∀ i, i < n → h.D (roots + i) ≠ .oob
  al_w : ∀ i, i < n → h.D (weights + i) ≠ .oob
  m_a : moments.buf ≠ a.buf
  m_da : moments.buf ≠ da.buf
  m_buf : moments.buf ≠ buf.buf
  m_r : moments.buf ≠ roots.buf
  m_w : moments.buf ≠ weights.buf
  buf_a : buf.buf ≠ a.buf
  a_da : a.buf ≠ da.buf
  a_r : a.buf ≠ roots.buf
  a_w : a.buf ≠ weights.buf
  da_r : da.buf ≠ roots.buf
  da_w : da.buf ≠ weights.buf
  apart : Disj roots n weights n

/-- nothing but the two arrays of the caller and the local arrays has changed -/
def WheelerFrame (n : ℕ) (moments a da buf roots weights : Ptr) (h h' : Heap ℝ) : Prop :=
  (∀ q : Ptr, q.buf ≠ moments.buf → q.buf ≠ a.buf → q.buf ≠ da.buf → q.buf ≠ buf.buf → (∀ i, i < n → q ≠ roots + i) →
    (∀ i, i < n → q ≠ weights + i) → h'.D q = h.D q) ∧ h'.I = h.I

/-- the monic polynomials that are orthogonal with the weight of Rys quadrature -/
def RysOrtho (x l : ℝ) (Q : ℕ → ℝ[X]) : Prop :=
  ∀ k, (Q k).Monic ∧ (Q k).natDegree = k ∧ ∀ F : ℝ[X], F.degree < k → ∫ t in l..1, (Q k * F).eval (t^2) * Real.exp (-x*t^2) = 0

/-- the square of the norm -/
noncomputable def rysNorm (x l : ℝ) (F : ℝ[X]) : ℝ := ∫ t in l..1, (F * F).eval (t^2) * Real.exp (-x*t^2)

/-- element `k` of the array `b`: the square of the matrix element between `k-1` and `k` -/
noncomputable def offDiagSq (x l : ℝ) (Q : ℕ → ℝ[X]) (k : ℕ) : ℝ := rysNorm x l (Q k) / rysNorm x l (Q (k-1))

theorem ortho_unique {x l : ℝ} (l0 : 0 ≤ l) (l1 : l < 1) {Q : ℕ → ℝ[X]} (hQ : RysOrtho x l Q) (k : ℕ) : Q k = gsQ (rysL x l) k := by
  have hL := rysL_posFun x l0 l1
  by_contra hne
  have h0 : Q k - gsQ (rysL x l) k ≠ 0 := sub_ne_zero.2 hne
  have hd : (Q k - gsQ (rysL x l) k).degree < k := by
    have := degree_sub_lt (p := Q k) (q := gsQ (rysL x l) k) (by rw [gsQ_degree hL, degree_eq_natDegree (hQ k).1.ne_zero, (hQ k).2.1]) (hQ k).1.ne_zero
      (by rw [(hQ k).1.leadingCoeff, (gs_main hL k).1.leadingCoeff])
    rwa [degree_eq_natDegree (hQ k).1.ne_zero, (hQ k).2.1] at this
  have e1 : rysL x l (Q k * (Q k - gsQ (rysL x l) k)) = 0 := (hQ k).2.2 _ hd
  have e2 : rysL x l (gsQ (rysL x l) k * (Q k - gsQ (rysL x l) k)) = 0 := gsQ_orth hL k _ hd
  have := hL.sq h0
  rw [sub_mul, map_sub, e1, e2, sub_zero] at this
  exact lt_irrefl _ this

theorem offDiagSq_eq {x l : ℝ} (l0 : 0 ≤ l) (l1 : l < 1) {Q : ℕ → ℝ[X]} (hQ : RysOrtho x l Q) {k : ℕ} (hk : 1 ≤ k) :
    recB (rysL x l) k = offDiagSq x l Q k := by
  unfold recB offDiagSq rysNorm
  rw [if_neg (by omega), ortho_unique l0 l1 hQ, ortho_unique l0 l1 hQ]
  rfl

theorem disj_buf {p q : Ptr} {m n : ℕ} (e : p.buf ≠ q.buf) : Disj p m q n := fun i j _ _ h => e (by simpa only [Ptr.add_buf] using congrArg Ptr.buf h)

/-- C63.  From the moments of a positive functional over any monic polynomials with a three-term recursion, Wheeler's algorithm and the
eigensystem of the tridiagonal matrix give, when no error is reported, numbers `λ` between 0 and 1 (the array gets `λ/(1-λ)`) and
weights such that the sum over `λ` is the functional for all polynomials of degree below `2n`. -/
theorem C63_wheeler {L : ℝ[X] →ₗ[ℝ] ℝ} (hL : PosFun L) {pol : ℕ → ℝ[X]} {al be : ℕ → ℝ} (p0 : pol 0 = 1) (p1 : pol 1 = X - C (al 0))
    (p2 : ∀ k, pol (k+2) = (X - C (al (k+1))) * pol (k+1) - C (be (k+1)) * pol k) {thr : ℝ} {S : EigenSolver ℝ} {n : ℕ} (hn : 1 ≤ n)
    (hS : n = 1 ∨ SolvesEigen S n) {alpha beta moments a da buf roots weights : Ptr} {h : Heap ℝ}
    (M : PartMem h n alpha beta moments a da buf roots weights)
    (hal : ∀ k, k < 2*n-1 → h.D (alpha + k) = .val (al k)) (hbe : ∀ k, 0 < k → k < 2*n-1 → h.D (beta + k) = .val (be k))
    (hm : ∀ k, k < 2*n → h.D (moments + k) = .val (L (pol k))) :
    ∃ err h', run (wheelerPartial Real.sqrt thr S n alpha beta moments a da buf roots weights) h = some (err, h') ∧
      (err = 0 → ∃ lam w : ℕ → ℝ, (∀ k, k < n → h'.D (roots + k) = .val (lam k / (1 - lam k))) ∧ (∀ k, k < n → h'.D (weights + k) = .val (w k)) ∧
        (∀ k, k < n → 0 < lam k ∧ lam k < 1 ∧ 0 ≤ w k) ∧ ∀ F : ℝ[X], F.natDegree < 2*n → ∑ k ∈ Finset.range n, w k * F.eval (lam k) = L F) := by
  have hp : ∀ k, pol k = piP al be k := fun k => by
    induction k using Nat.strong_induction_on with
    | _ k ih =>
      match k, ih with
      | 0, _ => exact p0
      | 1, _ => exact p1
      | k+2, ih => rw [p2, ih (k+1) (by omega), ih k (by omega)]; rfl
  obtain ⟨err, h', hr, -, h1, -⟩ := run_of_wp (wheelerPartial_wp (thr := thr) hL hn hS M hal hbe (fun k hk => by rw [hm k hk, hp]))
  exact ⟨err, h', hr, h1⟩

theorem rysLaguerre_all {L : BoysLib ℝ} (hL : LibExact L) {x l : ℝ} (hx : 0 < x) (l0 : 0 ≤ l) (l1 : l < 1) {n : ℕ} (hn : 1 ≤ n) (hn' : n ≤ 32)
    {thr : ℝ} {S : EigenSolver ℝ} (hS : n = 1 ∨ SolvesEigen S n) {moments a da buf roots weights : Ptr} {h : Heap ℝ}
    (M : WheelerMem n moments a da buf roots weights h) :
    ∃ err h', run (rysLaguerre L thr S n x l moments a da buf roots weights) h = some (err, h') ∧
      WheelerFrame n moments a da buf roots weights h h' ∧ (err = 0 → RootsAt n x l roots weights h') ∧
      ((∀ i j, 1 ≤ i → i < j → j < n → recB (rysL x l) i < thr → thr ≤ recB (rysL x l) j) → n = 1 ∨ Succeeds S n → err = 0) ∧
      ((∃ i j, 1 ≤ i ∧ i < j ∧ j < n ∧ recB (rysL x l) i < thr ∧ recB (rysL x l) j < thr) → err = n ∧
        ∀ k, k < n → h'.D (roots + k) = .val 0 ∧ h'.D (weights + k) = .val 0) := by
  have a1 : ∀ i, moments + n*2 + i = moments + (n*2+i) := fun i => Ptr.add_assoc _ _ _
  have a2 : ∀ i, moments + n*2 + n*2 + i = moments + (n*2+n*2+i) := fun i => by rw [Ptr.add_assoc, Ptr.add_assoc, Nat.add_assoc]
  have inj : ∀ i j, moments + i = moments + j → i = j := fun i j => (Ptr.add_right_inj _ _ _).1
  have nn : n*n ≤ 32*32 := Nat.mul_le_mul hn' hn'
  have ma : Disj moments (2*n) (moments + n*2) (2*n-1) := fun i j hi hj e => by rw [a1] at e; have := inj _ _ e; omega
  have mb : Disj moments (2*n) (moments + n*2 + n*2) (2*n-1) := fun i j hi hj e => by rw [a2] at e; have := inj _ _ e; omega
  have ab : Disj (moments + n*2) (2*n-1) (moments + n*2 + n*2) (2*n-1) := fun i j hi hj e => by rw [a2, a1] at e; have := inj _ _ e; omega
  have W := laguerreMoments_wp hL (t := x) (l := l) hx (n := n*2) (by omega) (alpha := moments + n*2) (beta := moments + n*2 + n*2) (moments := moments)
    (h := h) (R := fun q => Blk moments (32*6) q) (From.refl h _)
    (fun i hi => by rw [a1]; exact M.al_m _ (by omega)) (fun i hi => by rw [a2]; exact M.al_m _ (by omega)) (fun i hi => M.al_m i (by omega))
    (fun i hi => ⟨n*2+i, by omega, a1 i⟩) (fun i hi => ⟨n*2+n*2+i, by omega, a2 i⟩) (fun i hi => ⟨i, by omega, rfl⟩)
    (fun i j hi hj => ab i j (by omega) (by omega)) (fun i j hi hj => ma i j (by omega) (by omega)) (fun i j hi hj => mb i j (by omega) (by omega))
  have key : wp (rysLaguerre L thr S n x l moments a da buf roots weights) (fun err h' => WheelerFrame n moments a da buf roots weights h h' ∧
      (err = 0 → RootsAt n x l roots weights h') ∧
      ((∀ i j, 1 ≤ i → i < j → j < n → recB (rysL x l) i < thr → thr ≤ recB (rysL x l) j) → n = 1 ∨ Succeeds S n → err = 0) ∧
      ((∃ i j, 1 ≤ i ∧ i < j ∧ j < n ∧ recB (rysL x l) i < thr ∧ recB (rysL x l) j < thr) → err = n ∧
        ∀ k, k < n → h'.D (roots + k) = .val 0 ∧ h'.D (weights + k) = .val 0)) h := by
    unfold rysLaguerre
    dsimp only
    rw [wp_mbind]
    refine wp_mono W ?_
    rintro _ h1 ⟨F1, ha, hb, hm⟩
    rw [sqrt_fun hL]
    have PM : PartMem h1 n (moments + n*2) (moments + n*2 + n*2) moments a da buf roots weights := by
      refine ⟨fun i hi => F1.al _ (M.al_m i (by omega)), fun i hi => F1.al _ (M.al_a i (by omega)), fun i hi => F1.al _ (M.al_da i (by omega)),
        fun i hi => F1.al _ (M.al_buf i (by omega)), fun i hi => F1.al _ (M.al_u i hi), fun i hi => F1.al _ (M.al_w i hi), ma, mb,
        disj_buf M.m_a, disj_buf M.m_da, disj_buf M.m_buf, disj_buf M.m_r, disj_buf M.m_w,
        disj_buf (by simpa only [Ptr.add_buf] using M.m_buf.symm), disj_buf (by simpa only [Ptr.add_buf] using M.m_buf.symm), disj_buf M.buf_a,
        disj_buf (by simpa only [Ptr.add_buf] using M.m_a.symm), disj_buf (by simpa only [Ptr.add_buf] using M.m_a.symm), disj_buf M.a_da,
        disj_buf M.a_r, disj_buf M.a_w, disj_buf M.da_r, disj_buf M.da_w, M.apart⟩
    refine wp_mono (wheelerPartial_wp (thr := thr) (rysL_posFun x l0 l1) hn hS PM (fun k hk => ha k (by omega)) (fun k _ hk => hb k (by omega))
      (fun k hk => hm k (by omega))) ?_
    rintro err h2 ⟨F2, H1, H2, H3⟩
    refine ⟨⟨fun q q1 q2 q3 q4 q5 q6 => ?_, by rw [F2.I, F1.I]⟩, fun e => ?_, H2, fun e => ?_⟩
    · have bb : ∀ (p : Ptr) (m : ℕ), q.buf ≠ p.buf → ¬ Blk p m q := fun p m hp ⟨i, _, e⟩ => hp (by rw [e, Ptr.add_buf])
      rw [F2.D q, F1.D q (bb _ _ q1)]
      rintro (x | x | x | x | ⟨i, hi, e⟩ | ⟨i, hi, e⟩)
      · exact bb _ _ q1 x
      · exact bb _ _ q2 x
      · exact bb _ _ q3 x
      · exact bb _ _ q4 x
      · exact q5 i hi e
      · exact q6 i hi e
    · obtain ⟨lam, w, r1, r2, r3, r4⟩ := H1 e
      have pos : ∀ k, k < n → 0 < lam k / (1 - lam k) := fun k hk => div_pos (r3 k hk).1 (by linarith [(r3 k hk).2.1])
      refine ⟨fun k => lam k / (1 - lam k), w, r1, r2, pos, fun k hk => (pos k hk).le, fun F hF => ?_⟩
      refine Eq.trans (Finset.sum_congr rfl fun k hk => ?_) (r4 F hF)
      have hk' := Finset.mem_range.1 hk
      have h1' : 1 - lam k ≠ 0 := by have := (r3 k hk').2.1; linarith
      congr 2
      have : 1 + lam k / (1 - lam k) = 1 / (1 - lam k) := by field_simp; ring
      rw [this]
      field_simp
    · obtain ⟨e1, e2, e3⟩ := H3 e
      exact ⟨e1, fun k hk => ⟨e2 k hk, e3 k hk⟩⟩
  exact run_of_wp key

/-- C63.  CINTlrys_laguerre and CINTqrys_laguerre never touch memory that is not theirs, and if they report no error, the arrays hold
the roots and weights of Rys quadrature: positive roots, exact for all polynomials of degree below `2n`, with or without a lower limit. -/
theorem C63_laguerre {L : BoysLib ℝ} (hL : LibExact L) {x l : ℝ} (hx : 0 < x) (l0 : 0 ≤ l) (l1 : l < 1) {n : ℕ} (hn : 1 ≤ n) (hn' : n ≤ 32)
    (thr : ℝ) {S : EigenSolver ℝ} (hS : n = 1 ∨ SolvesEigen S n) {moments a da buf roots weights : Ptr} {h : Heap ℝ}
    (M : WheelerMem n moments a da buf roots weights h) :
    ∃ err h', run (rysLaguerre L thr S n x l moments a da buf roots weights) h = some (err, h') ∧
      WheelerFrame n moments a da buf roots weights h h' ∧ (err = 0 → RootsAt n x l roots weights h') := by
  obtain ⟨err, h', hr, h1, h2, -⟩ := rysLaguerre_all hL hx l0 l1 hn hn' (thr := thr) hS M
  exact ⟨err, h', hr, h1, h2⟩

/-- C63.  No error is reported, and the roots and weights are right, if the eigenvalue solver succeeds and at most one of the elements
`b_1 .. b_(n-1)` is below the threshold.  One root needs no solver. -/
theorem C63_laguerre_succeeds {L : BoysLib ℝ} (hL : LibExact L) {x l : ℝ} (hx : 0 < x) (l0 : 0 ≤ l) (l1 : l < 1) {n : ℕ} (hn : 1 ≤ n) (hn' : n ≤ 32)
    {thr : ℝ} {S : EigenSolver ℝ} (hS : n = 1 ∨ SolvesEigen S n ∧ Succeeds S n) {Q : ℕ → ℝ[X]} (hQ : RysOrtho x l Q)
    (hb : ∀ i j, 1 ≤ i → i < j → j < n → offDiagSq x l Q i < thr → thr ≤ offDiagSq x l Q j) {moments a da buf roots weights : Ptr} {h : Heap ℝ}
    (M : WheelerMem n moments a da buf roots weights h) :
    ∃ h', run (rysLaguerre L thr S n x l moments a da buf roots weights) h = some (0, h') ∧ RootsAt n x l roots weights h' := by
  obtain ⟨err, h', hr, -, h2, h3, -⟩ := rysLaguerre_all hL hx l0 l1 hn hn' (thr := thr) (hS.imp id (·.1)) M
  have e0 := h3 (fun i j hi hij hj => by rw [offDiagSq_eq l0 l1 hQ hi, offDiagSq_eq l0 l1 hQ (by omega)]; exact hb i j hi hij hj) (hS.imp id (·.2))
  exact ⟨h', by rw [hr, e0], h2 e0⟩

/-- C63.  If two of the elements are below the threshold, the call is refused: all roots and weights are zero and the error code is `n`. -/
theorem C63_laguerre_singular {L : BoysLib ℝ} (hL : LibExact L) {x l : ℝ} (hx : 0 < x) (l0 : 0 ≤ l) (l1 : l < 1) {n : ℕ} (hn : 1 ≤ n) (hn' : n ≤ 32)
    {thr : ℝ} {S : EigenSolver ℝ} (hS : n = 1 ∨ SolvesEigen S n) {Q : ℕ → ℝ[X]} (hQ : RysOrtho x l Q)
    {i j : ℕ} (hi : 1 ≤ i) (hij : i < j) (hj : j < n) (bi : offDiagSq x l Q i < thr) (bj : offDiagSq x l Q j < thr)
    {moments a da buf roots weights : Ptr} {h : Heap ℝ} (M : WheelerMem n moments a da buf roots weights h) :
    ∃ h', run (rysLaguerre L thr S n x l moments a da buf roots weights) h = some (n, h') ∧
      ∀ k, k < n → h'.D (roots + k) = .val 0 ∧ h'.D (weights + k) = .val 0 := by
  obtain ⟨err, h', hr, -, -, -, h4⟩ := rysLaguerre_all hL hx l0 l1 hn hn' (thr := thr) hS M
  obtain ⟨e, hz⟩ := h4 ⟨i, j, hi, hij, hj, by rw [offDiagSq_eq l0 l1 hQ hi]; exact bi, by rw [offDiagSq_eq l0 l1 hQ (by omega)]; exact bj⟩
  exact ⟨h', by rw [hr, e], hz⟩

/-- the orthogonal polynomials of the hypotheses exist -/
theorem C63_ortho_exists (x : ℝ) {l : ℝ} (l0 : 0 ≤ l) (l1 : l < 1) : ∃ Q, RysOrtho x l Q :=
  ⟨gsQ (rysL x l), fun k => ⟨(gs_main (rysL_posFun x l0 l1) k).1, (gs_main (rysL_posFun x l0 l1) k).2.1,
    fun F hF => gsQ_orth (rysL_posFun x l0 l1) k F hF⟩⟩

/-- a solver as assumed exists, for every number of rows -/
theorem C63_solver_exists : ∃ S : EigenSolver ℝ, ∀ n, SolvesEigen S n ∧ Succeeds S n := by
  have key : ∀ (n : ℕ) (d e : ℕ → ℝ), ∃ r : (ℕ → ℝ) × (ℕ → ℕ → ℝ), IsEigen n d e r.1 r.2 := by
    intro n d e
    let A : Matrix (Fin n) (Fin n) ℝ := Matrix.of fun k j =>
      (if (j : ℕ) = k then d k else 0) + (if (j : ℕ) + 1 = k then e j else 0) + (if (k : ℕ) + 1 = j then e k else 0)
    have hA : A.IsHermitian := by
      ext k j
      simp only [Matrix.conjTranspose_apply, star_trivial, A, Matrix.of_apply]
      rw [add_assoc, add_comm (if (k : ℕ) + 1 = j then e k else 0), ← add_assoc]
      congr 2
      by_cases h : (k : ℕ) = j
      · rw [if_pos h, if_pos h.symm, h]
      · rw [if_neg h, if_neg (Ne.symm h)]
    let v : ℕ → ℕ → ℝ := fun i k => if h : i < n ∧ k < n then (hA.eigenvectorBasis ⟨i, h.1⟩) ⟨k, h.2⟩ else 0
    have hv : ∀ (i k : Fin n), v i k = (hA.eigenvectorBasis i) k := fun i k => by simp [v]
    refine ⟨⟨fun i => if h : i < n then hA.eigenvalues ⟨i, h⟩ else 0, v⟩, fun i k hi hk => ?_, fun i j hi hj => ?_⟩
    · have h1 := congrFun (hA.mulVec_eigenvectorBasis ⟨i, hi⟩) ⟨k, hk⟩
      simp only [Matrix.mulVec, dotProduct, Pi.smul_apply, smul_eq_mul] at h1
      have h2 : ∑ j : Fin n, A ⟨k, hk⟩ j * v i j = ∑ j ∈ Finset.range n, ((if j = k then d k * v i k else 0) + (if j + 1 = k then e j * v i j else 0) +
          (if k + 1 = j then e k * v i (k+1) else 0)) := by
        rw [← Fin.sum_univ_eq_sum_range (fun j => (if j = k then d k * v i k else 0) + (if j + 1 = k then e j * v i j else 0) +
          (if k + 1 = j then e k * v i (k+1) else 0)) n]
        refine Finset.sum_congr rfl fun j _ => ?_
        simp only [A, Matrix.of_apply, add_mul, ite_mul, zero_mul]
        congr 1
        · congr 1
          split
          · rename_i e'; rw [e']
          · rfl
        · split
          · rename_i e'; rw [e']
          · rfl
      have h3 : ∑ j : Fin n, A ⟨k, hk⟩ j * (hA.eigenvectorBasis ⟨i, hi⟩) j = ∑ j : Fin n, A ⟨k, hk⟩ j * v i j :=
        Finset.sum_congr rfl fun j _ => by rw [← hv ⟨i, hi⟩ j]
      have h1' : ∑ j : Fin n, A ⟨k, hk⟩ j * (hA.eigenvectorBasis ⟨i, hi⟩) j = hA.eigenvalues ⟨i, hi⟩ * (hA.eigenvectorBasis ⟨i, hi⟩) ⟨k, hk⟩ := h1
      rw [h3, h2, ← hv ⟨i, hi⟩ ⟨k, hk⟩, Finset.sum_add_distrib, Finset.sum_add_distrib, Finset.sum_ite_eq' , if_pos (Finset.mem_range.2 hk)] at h1'
      simp only [dif_pos hi]
      rw [← h1']
      have s1 : ∑ j ∈ Finset.range n, (if j + 1 = k then e j * v i j else 0) = if k = 0 then 0 else e (k-1) * v i (k-1) := by
        by_cases hk0 : k = 0
        · rw [if_pos hk0]; exact Finset.sum_eq_zero fun j _ => if_neg (by omega)
        · rw [if_neg hk0, Finset.sum_eq_single_of_mem (k-1) (Finset.mem_range.2 (by omega)) (fun j _ hj => if_neg (by omega)), if_pos (by omega)]
      have s2 : ∑ j ∈ Finset.range n, (if k + 1 = j then e k * v i (k+1) else 0) = if k + 1 < n then e k * v i (k+1) else 0 := by
        rw [Finset.sum_ite_eq]; simp only [Finset.mem_range]
      rw [s1, s2]
      ring
    · have h1 := hA.eigenvectorBasis.inner_eq_ite ⟨i, hi⟩ ⟨j, hj⟩
      rw [← Fin.sum_univ_eq_sum_range (fun k => v i k * v j k) n]
      simp only [PiLp.inner_apply, RCLike.inner_apply, conj_trivial, Fin.mk.injEq] at h1
      rw [← h1]
      exact Finset.sum_congr rfl fun k _ => by rw [← hv ⟨i, hi⟩ k, ← hv ⟨j, hj⟩ k, mul_comm]
  choose r hr using key
  exact ⟨fun n d e => (0, r n d e), fun n => ⟨fun d e _ => hr n d e, fun d e => rfl⟩⟩

/-- memory for a call with `n` roots: buffers 0..5 -/
noncomputable def wheelerHeap (n : ℕ) : Heap ℝ where
  D q := if q.buf = 0 ∧ q.off < 32*6 ∨ q.buf = 1 ∧ q.off < 32+32 ∨ q.buf = 2 ∧ q.off < 32+32+32*32 ∨ q.buf = 3 ∧ q.off < 32*4 ∨
    q.buf = 4 ∧ q.off < n ∨ q.buf = 5 ∧ q.off < n then .undef else .oob
  I _ := .oob

theorem wheelerHeap_mem (n : ℕ) : WheelerMem n ⟨0, 0⟩ ⟨1, 0⟩ ⟨2, 0⟩ ⟨3, 0⟩ ⟨4, 0⟩ ⟨5, 0⟩ (wheelerHeap n) := by
  refine ⟨?_, ?_, ?_, ?_, ?_, ?_, by decide, by decide, by decide, by decide, by decide, by decide, by decide, by decide, by decide, by decide,
    by decide, ?_⟩ <;>
    first
    | (intro i hi; simp [wheelerHeap, hi])
    | (intro i j _ _ e; have := congrArg Ptr.buf e; simp at this)

/-- the hypotheses of C63_wheeler are met: one root, the Laguerre polynomials at `x = 5`, moments and coefficients in buffers 0, 6 and 7 -/
example : ∃ err h', run (wheelerPartial Real.sqrt (1/10^19) (fun _ _ _ => (1, fun _ => 0, fun _ _ => 0)) 1 ⟨6, 0⟩ ⟨7, 0⟩ ⟨0, 0⟩ ⟨1, 0⟩ ⟨2, 0⟩ ⟨3, 0⟩ ⟨4, 0⟩ ⟨5, 0⟩)
    { D := fun q => if q.buf = 0 ∧ q.off < 2 then .val (rysL 5 0 (piP (lagA 5) (lagB 5) q.off)) else if q.buf = 6 ∧ q.off = 0 then .val (lagA 5 0)
        else (wheelerHeap 1).D q, I := fun _ => .oob } = some (err, h') ∧
    (err = 0 → ∃ lam w : ℕ → ℝ, (∀ k, k < 1 → h'.D ((⟨4, 0⟩ : Ptr) + k) = .val (lam k / (1 - lam k))) ∧ (∀ k, k < 1 → h'.D ((⟨5, 0⟩ : Ptr) + k) = .val (w k)) ∧
      (∀ k, k < 1 → 0 < lam k ∧ lam k < 1 ∧ 0 ≤ w k) ∧ ∀ F : ℝ[X], F.natDegree < 2*1 → ∑ k ∈ Finset.range 1, w k * F.eval (lam k) = rysL 5 0 F) := by
  refine C63_wheeler (rysL_posFun 5 le_rfl (by norm_num)) (pol := piP (lagA 5) (lagB 5)) (al := lagA 5) (be := lagB 5) rfl rfl (fun _ => rfl) le_rfl (Or.inl rfl)
    ?_ (fun k hk => ?_) (fun k h0 hk => by omega) (fun k hk => ?_)
  · refine ⟨?_, ?_, ?_, ?_, ?_, ?_, disj_buf (by decide), disj_buf (by decide), disj_buf (by decide), disj_buf (by decide), disj_buf (by decide),
      disj_buf (by decide), disj_buf (by decide), disj_buf (by decide), disj_buf (by decide), disj_buf (by decide), disj_buf (by decide), disj_buf (by decide),
      disj_buf (by decide), disj_buf (by decide), disj_buf (by decide), disj_buf (by decide), disj_buf (by decide), disj_buf (by decide)⟩ <;>
      (intro i hi; simp only [wheelerHeap, Ptr.add_buf, Ptr.add_off]; split <;> [simp; skip]; split <;> [simp; skip]; rw [if_pos (by first | (simp; done) | (simp; omega))]; simp)
  · obtain rfl : k = 0 := by omega
    simp
  · have : k ≤ 1 := by omega
    simp [this]

/-- one root, `x = 5`, `l = 1/2`: no assumption left but the library functions -/
example : ∃ h', run (rysLaguerre realLib (1/10^19) (fun _ _ _ => (1, fun _ => 0, fun _ _ => 0)) 1 5 (1/2) ⟨0, 0⟩ ⟨1, 0⟩ ⟨2, 0⟩ ⟨3, 0⟩ ⟨4, 0⟩ ⟨5, 0⟩)
    (wheelerHeap 1) = some (0, h') ∧ RootsAt 1 5 (1/2) ⟨4, 0⟩ ⟨5, 0⟩ h' := by
  obtain ⟨Q, hQ⟩ := C63_ortho_exists 5 (l := 1/2) (by norm_num) (by norm_num)
  exact C63_laguerre_succeeds realLib_exact (by norm_num) (by norm_num) (by norm_num) le_rfl (by norm_num) (Or.inl rfl) hQ
    (fun i j _ _ _ => by omega) (wheelerHeap_mem 1)

/-- six roots at `x = 40` without a lower limit, a threshold of 0 -/
example : ∃ S h', run (rysLaguerre realLib 0 S 6 40 0 ⟨0, 0⟩ ⟨1, 0⟩ ⟨2, 0⟩ ⟨3, 0⟩ ⟨4, 0⟩ ⟨5, 0⟩) (wheelerHeap 6) = some (0, h') ∧
    RootsAt 6 40 0 ⟨4, 0⟩ ⟨5, 0⟩ h' := by
  obtain ⟨S, hS⟩ := C63_solver_exists
  obtain ⟨Q, hQ⟩ := C63_ortho_exists 40 (l := 0) le_rfl (by norm_num)
  obtain ⟨h', h1, h2⟩ := C63_laguerre_succeeds realLib_exact (x := 40) (l := 0) (n := 6) (thr := 0) (S := S) (by norm_num) le_rfl (by norm_num)
    (by norm_num) (by norm_num) (Or.inr (hS 6)) hQ (fun i j hi hij _ _ => by
      rw [← offDiagSq_eq le_rfl (by norm_num) hQ (by omega)]
      exact (recB_pos (rysL_posFun 40 le_rfl (by norm_num)) (by omega)).le) (wheelerHeap_mem 6)
  exact ⟨S, h', h1, h2⟩

/-- the refusal happens: three roots and a threshold above both elements -/
example : ∃ thr h', run (rysLaguerre realLib thr (fun _ _ _ => (1, fun _ => 0, fun _ _ => 0)) 3 40 0 ⟨0, 0⟩ ⟨1, 0⟩ ⟨2, 0⟩ ⟨3, 0⟩ ⟨4, 0⟩ ⟨5, 0⟩)
    (wheelerHeap 3) = some (3, h') ∧ h'.D ⟨4, 2⟩ = .val 0 := by
  obtain ⟨Q, hQ⟩ := C63_ortho_exists 40 (l := 0) le_rfl (by norm_num)
  obtain ⟨h', h1, h2⟩ := C63_laguerre_singular realLib_exact (x := 40) (l := 0) (n := 3)
    (thr := max (offDiagSq 40 0 Q 1) (offDiagSq 40 0 Q 2) + 1)
    (S := fun _ _ _ => (1, fun _ => 0, fun _ _ => 0)) (by norm_num) le_rfl (by norm_num)
    (by norm_num) (by norm_num) (Or.inr (fun _ _ e => by simp at e)) hQ (i := 1) (j := 2) le_rfl (by norm_num) (by norm_num)
    (lt_of_le_of_lt (le_max_left _ _) (lt_add_one _)) (lt_of_le_of_lt (le_max_right _ _) (lt_add_one _)) (wheelerHeap_mem 3)
  exact ⟨_, h', h1, (h2 2 (by norm_num)).1⟩

end Verif.Props
