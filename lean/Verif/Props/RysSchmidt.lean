import Verif.Lemmas.RysSchmidt
import Verif.Props.Boys

/-!
C56: Rys roots and weights by Schmidt orthogonalisation.  C57: the choice of the method.
-/
namespace Verif.Props
open Verif.Spec Verif.Model Verif.Lemmas Verif.Prog Polynomial

theorem boys_eq_rysL (x l : ℝ) (m : ℕ) : rysL x l (X^m) = boys l m x := by
  show ∫ t in l..1, (X^m : ℝ[X]).eval (t^2) * Real.exp (-x*t^2) = ∫ u in l..1, u^(2*m) * Real.exp (-x*u^2)
  congr 1
  funext t
  rw [eval_pow, eval_X, ← pow_mul]

/-- what the caller finds: roots and weights of Rys quadrature -/
def RootsAt (n : ℕ) (x l : ℝ) (roots weights : Ptr) (h : Heap ℝ) : Prop :=
  ∃ u w : ℕ → ℝ, (∀ k, k < n → h.D (roots + k) = .val (u k)) ∧ (∀ k, k < n → h.D (weights + k) = .val (w k)) ∧
    (∀ k, k < n → 0 < u k) ∧ RysExactSR n x l u w

/-- the memory of a call: the local arrays `fmt_ints[64]`, `rt[32+32*32]`, `v[32]` and the caller's two arrays -/
structure SchmidtMem (n : ℕ) (f rt v roots weights : Ptr) (h : Heap ℝ) : Prop where
  al_f : ∀ i, i < 64 → h.D (f + i) ≠ .oob
  al_rt : ∀ i, i < 32 + 32*32 → h.D (rt + i) ≠ .oob
  al_v : ∀ i, i < 32 → h.D (v + i) ≠ .oob
  al_u : ∀ i, i < n → h.D (roots + i) ≠ .oob
  al_w : ∀ i, i < n → h.D (weights + i) ≠ .oob
  rt_v : v.buf ≠ rt.buf
  f_v : f.buf ≠ v.buf
  f_rt : f.buf ≠ rt.buf
  roots_rt : roots.buf ≠ rt.buf
  weights_rt : weights.buf ≠ rt.buf
  apart : Disj roots n weights n

/-- nothing but the two arrays of the caller and the local arrays has changed -/
def SchmidtFrame (n : ℕ) (f rt v roots weights : Ptr) (h h' : Heap ℝ) : Prop :=
  (∀ q : Ptr, q.buf ≠ f.buf → q.buf ≠ rt.buf → q.buf ≠ v.buf → (∀ i, i < n → q ≠ roots + i) → (∀ i, i < n → q ≠ weights + i) →
    h'.D q = h.D q) ∧ h'.I = h.I

theorem sqrt_fun {L : BoysLib ℝ} (hL : LibExact L) : L.sqrt = Real.sqrt := funext hL.sqrt

/-- C56.  From the moments `F_0 .. F_2n` (lower limit `l`) the orthogonalisation succeeds and finds the roots and weights of Rys
quadrature: exact for all polynomials of degree below `2n`, positive roots.  One or two roots need no assumption; for more
the solver must find the roots of the highest polynomial. -/
theorem C56_schmidt_moments {x l : ℝ} (l0 : 0 ≤ l) (l1 : l < 1) {n : ℕ} (hn : 1 ≤ n) (hn' : n ≤ 31) {S : RootSolver ℝ}
    (hS : n ≤ 2 ∨ SolvesRoots S n) {f rt v roots weights : Ptr} {h : Heap ℝ} (M : SchmidtMem n f rt v roots weights h)
    (hf : ∀ m, m ≤ 2*n → h.D (f + m) = .val (boys l m x)) :
    ∃ h', run (rdkRysRoots Real.sqrt S n f rt v roots weights) h = some (0, h') ∧ RootsAt n x l roots weights h' ∧
      SchmidtFrame n f rt v roots weights h h' := by
  have hb : (n+1) + (n+1)*(n+1) ≤ 32 + 32*32 := Nat.add_le_add (by omega) (Nat.mul_le_mul (by omega) (by omega))
  obtain ⟨e, h', hr, rfl, u, w, hu, hw, hpos, hsum, hF⟩ := run_of_wp (rdkRysRoots_wp (rysL_posFun x l0 l1) hn hS
    (gsP_roots x l0 l1 n) M.rt_v M.f_v M.f_rt M.roots_rt M.weights_rt M.apart (fun m hm => by rw [boys_eq_rysL]; exact hf m (by omega))
    (fun i hi => M.al_v i (by omega)) (fun i hi => M.al_rt i (by omega)) M.al_u M.al_w)
  refine ⟨h', hr, ⟨u, w, hu, hw, hpos, fun k hk => (hpos k hk).le, fun F hF => hsum F hF⟩, ?_, hF.I⟩
  intro q _ h2 h3 h4 h5
  refine hF.D q ?_
  rintro (e | e | ⟨i, hi, e⟩ | ⟨i, hi, e⟩)
  · exact h2 e
  · exact h3 e
  · exact h4 i hi e
  · exact h5 i hi e

/-- the moments are exact: the argument is zero or not below the turn-over point, and the lower limit does not make them
negligible -/
def MomentsExact (n : ℕ) (x l : ℝ) : Prop :=
  x*l^2 ≤ 200 ∧ (x = 0 ∨ ∀ q : ℚ, turnoverTable[n*2]? = some q → (q:ℝ) ≤ x)

/-- C56.  CINTrys_schmidt, up to 19 roots: with exact moments the roots and weights are those of Rys quadrature. -/
theorem C56_schmidt {L : BoysLib ℝ} (hL : LibExact L) {eps x l : ℝ} (he : 0 < eps) (hx : 0 ≤ x) (l0 : 0 ≤ l) (l1 : l < 1)
    {n : ℕ} (hn : 1 ≤ n) (hn' : n ≤ 19) (hm : MomentsExact n x l) {S : RootSolver ℝ} (hS : n ≤ 2 ∨ SolvesRoots S n) :
    ∃ n0, ∀ fuel, n0 ≤ fuel → ∀ (f rt v roots weights : Ptr) (h : Heap ℝ), SchmidtMem n f rt v roots weights h →
    ∃ h', run (rysSchmidt L eps fuel S f rt v n x l roots weights) h = some (0, h') ∧ RootsAt n x l roots weights h' ∧
      SchmidtFrame n f rt v roots weights h h' := by
  obtain ⟨n0, H⟩ : ∃ n0, ∀ fuel, n0 ≤ fuel → ∀ (h : Heap ℝ) (f : Ptr), (∀ i, i < 64 → h.D (f + i) ≠ .oob) →
      ∃ h', run (if l = 0 then gammaIncLike L eps fuel f x (n*2) else fmtErfcLike L eps fuel f x l (n*2)) h = some ((), h') ∧
        Filled h h' f (n*2) (fun i v => v = boys l i x) := by
    obtain ⟨q, hq⟩ := turnoverTable_get (n*2) (by omega)
    by_cases h0 : l = 0
    · subst h0
      obtain ⟨n0, H⟩ := C32_boys hL he hx (m := n*2) (by omega)
      refine ⟨n0, fun fuel hf h f ha => ?_⟩
      obtain ⟨h', hr, -, hv⟩ := H fuel hf h f (fun i hi => ha i (by omega))
      rw [if_pos rfl]
      exact ⟨h', hr, hv q hq (hm.2.imp id fun h => h q hq)⟩
    · obtain ⟨n0, H⟩ := C42_boys_lower hL he hx (lt_of_le_of_ne l0 (Ne.symm h0)) l1 (m := n*2) (by omega)
      refine ⟨n0, fun fuel hf h f ha => ?_⟩
      obtain ⟨h', hr, -, -, hv⟩ := H fuel hf h f (fun i hi => ha i (by omega))
      rw [if_neg h0]
      exact ⟨h', hr, hv q hq hm.1 (hm.2.imp id fun h => h q hq)⟩
  refine ⟨n0, fun fuel hf f rt v roots weights h M => ?_⟩
  obtain ⟨h1, hr1, hv1, hfr1, hi1⟩ := H fuel hf h f M.al_f
  have hal : ∀ q, h.D q ≠ .oob → h1.D q ≠ .oob := by
    intro q hq
    by_cases e : ∀ i, i ≤ n*2 → q ≠ f + i
    · rwa [hfr1 q e]
    · push Not at e
      obtain ⟨i, hi, rfl⟩ := e
      obtain ⟨y, hy, -⟩ := hv1 i hi
      rw [hy]; simp
  have M1 : SchmidtMem n f rt v roots weights h1 :=
    ⟨fun i hi => hal _ (M.al_f i hi), fun i hi => hal _ (M.al_rt i hi), fun i hi => hal _ (M.al_v i hi), fun i hi => hal _ (M.al_u i hi),
     fun i hi => hal _ (M.al_w i hi), M.rt_v, M.f_v, M.f_rt, M.roots_rt, M.weights_rt, M.apart⟩
  obtain ⟨h2, hr2, hR, hF, hI⟩ := C56_schmidt_moments (x := x) l0 l1 hn (by omega) hS M1 (fun m hm => by
    obtain ⟨y, hy, rfl⟩ := hv1 m (by omega)
    exact hy)
  refine ⟨h2, ?_, hR, ?_, by rw [hI, hi1]⟩
  · unfold rysSchmidt
    rw [run_bind, hr1, sqrt_fun hL]
    exact hr2
  · intro q a b c d e
    rw [hF q a b c d e]
    exact hfr1 q (fun i _ e' => a (by rw [e']; rfl))

/-- C56.  Where the moments are negligible (`x l² > 200`) all roots and weights are zero: the quadrature of any function is zero,
and the integral it stands for is at most `e^-200` times the largest value of the function. -/
theorem C56_schmidt_negligible {L : BoysLib ℝ} (hL : LibExact L) {eps x l : ℝ} (he : 0 < eps) (hx : 0 ≤ x) (l0 : 0 < l) (l1 : l < 1)
    {n : ℕ} (hn' : n ≤ 19) (hb : 200 < x*l^2) (S : RootSolver ℝ) :
    ∃ n0, ∀ fuel, n0 ≤ fuel → ∀ (f rt v roots weights : Ptr) (h : Heap ℝ), SchmidtMem n f rt v roots weights h →
    ∃ h', run (rysSchmidt L eps fuel S f rt v n x l roots weights) h = some (0, h') ∧
      (∀ k, k < n → h'.D (roots + k) = .val 0 ∧ h'.D (weights + k) = .val 0) ∧ boys l 0 x ≤ Real.exp (-200) := by
  obtain ⟨n0, H⟩ := C42_boys_lower hL he hx l0 l1 (m := n*2) (by omega)
  refine ⟨n0, fun fuel hf f rt v roots weights h M => ?_⟩
  obtain ⟨h1, hr1, hv1, -, -⟩ := H fuel hf h f (fun i hi => M.al_f i (by omega))
  obtain ⟨hv, hfr, -⟩ := hv1 hb
  have hal : ∀ q, h.D q ≠ .oob → h1.D q ≠ .oob := by
    intro q hq
    by_cases e : ∀ i, i ≤ n*2 → q ≠ f + i
    · rwa [hfr q e]
    · push Not at e
      obtain ⟨i, hi, rfl⟩ := e
      obtain ⟨y, hy, -⟩ := hv i hi
      rw [hy]; simp
  obtain ⟨y, hy, rfl, hsmall⟩ := hv 0 (by omega)
  have : wp (rdkRysRoots L.sqrt S n f rt v roots weights) (fun e h' => e = 0 ∧
      ∀ k, k < n → h'.D (roots + k) = .val 0 ∧ h'.D (weights + k) = .val 0) h1 := by
    unfold rdkRysRoots
    dsimp only
    rw [wp_mbind, wp_ld]
    refine ⟨0, hy, ?_⟩
    rw [if_pos rfl, wp_mbind]
    refine wp_forN (fun k h' => (∀ i, i < k → h'.D (roots + i) = .val 0 ∧ h'.D (weights + i) = .val 0) ∧
      ∀ q, h1.D q ≠ .oob → h'.D q ≠ .oob) ⟨fun i hi => absurd hi (by omega), fun _ h => h⟩ ?_ ?_
    · rintro k hk h' ⟨V, A⟩
      simp only [wp_mbind, wp_st]
      have A1 : ∀ (h' : Heap ℝ) (p : Ptr) (y : ℝ), (∀ q, h1.D q ≠ .oob → h'.D q ≠ .oob) →
          ∀ q, h1.D q ≠ .oob → (h'.setD p y).D q ≠ .oob := fun h' p y A q hq => by
        rw [Heap.setD_D]; split
        · simp
        · exact A q hq
      have A2 := A1 h' (roots + k) 0 A
      refine ⟨A _ (hal _ (M.al_u k hk)), A2 _ (hal _ (M.al_w k hk)), fun i hi => ?_, A1 _ (weights + k) 0 A2⟩
      constructor
      · rw [Heap.setD_D]; split
        · rfl
        · rw [Heap.setD_D]; split
          · rfl
          · rename_i e
            exact (V i (by have : i ≠ k := fun e' => e (by rw [e']); omega)).1
      · rw [Heap.setD_D]; split
        · rfl
        · rename_i e
          rw [Heap.setD_D]; split
          · rfl
          · exact (V i (by have : i ≠ k := fun e' => e (by rw [e']); omega)).2
    · rintro h' ⟨V, -⟩
      rw [wp_pure]
      exact ⟨rfl, V⟩
  obtain ⟨e, h2, hr2, rfl, hz⟩ := run_of_wp this
  refine ⟨h2, ?_, hz, hsmall⟩
  unfold rysSchmidt
  rw [if_neg l0.ne', run_bind, hr1]
  exact hr2

/-- a solver as assumed exists, for every number of roots -/
theorem C56_solver_exists : ∃ S : RootSolver ℝ, ∀ n, SolvesRoots S n := by
  classical
  refine ⟨fun n c => if h : ∃ s, AllRoots n (c n) s then some (Classical.choose h) else none, fun n c _ h => ?_⟩
  exact ⟨Classical.choose h, dif_pos h, Classical.choose_spec h⟩

/-- memory for a call with `n` roots: buffers 0..4 -/
noncomputable def schmidtHeap (n : ℕ) : Heap ℝ where
  D q := if q.buf = 0 ∧ q.off < 64 ∨ q.buf = 1 ∧ q.off < 32 + 32*32 ∨ q.buf = 2 ∧ q.off < 32 ∨ q.buf = 3 ∧ q.off < n ∨
    q.buf = 4 ∧ q.off < n then .undef else .oob
  I _ := .oob

theorem schmidtHeap_mem (n : ℕ) : SchmidtMem n ⟨0, 0⟩ ⟨1, 0⟩ ⟨2, 0⟩ ⟨3, 0⟩ ⟨4, 0⟩ (schmidtHeap n) := by
  refine ⟨?_, ?_, ?_, ?_, ?_, by decide, by decide, by decide, by decide, by decide, ?_⟩ <;>
    first
    | (intro i hi; simp [schmidtHeap, hi])
    | (intro i j _ _ e; have := congrArg Ptr.buf e; simp at this)

/-- the short-range roots for two points, `x = 5` and `l = 1/2`: no assumption left but the library functions -/
example : ∃ fuel h', run (rysSchmidt realLib (1/2^53) fuel (fun _ _ => none) ⟨0, 0⟩ ⟨1, 0⟩ ⟨2, 0⟩ 2 5 (1/2) ⟨3, 0⟩ ⟨4, 0⟩)
    (schmidtHeap 2) = some (0, h') ∧ RootsAt 2 5 (1/2) ⟨3, 0⟩ ⟨4, 0⟩ h' := by
  obtain ⟨n0, H⟩ := C56_schmidt realLib_exact (eps := 1/2^53) (x := 5) (l := 1/2) (n := 2) (S := fun _ _ => none) (by norm_num)
    (by norm_num) (by norm_num) (by norm_num) (by norm_num) (by norm_num) (by
      refine ⟨by norm_num, Or.inr fun q hq => ?_⟩
      have : turnoverTable[2*2]? = some (1705493613097/10^12) := rfl
      rw [this] at hq
      cases hq
      norm_num) (Or.inl le_rfl)
  obtain ⟨h', h1, h2, -⟩ := H n0 le_rfl _ _ _ _ _ _ (schmidtHeap_mem 2)
  exact ⟨n0, h', h1, h2⟩

/-- five roots, with a solver that finds them -/
example : ∃ (S : RootSolver ℝ) (fuel : ℕ) (h' : Heap ℝ),
    run (rysSchmidt realLib (1/2^53) fuel S ⟨0, 0⟩ ⟨1, 0⟩ ⟨2, 0⟩ 5 0 0 ⟨3, 0⟩ ⟨4, 0⟩) (schmidtHeap 5) = some (0, h') ∧
      RootsAt 5 0 0 ⟨3, 0⟩ ⟨4, 0⟩ h' := by
  obtain ⟨S, hS⟩ := C56_solver_exists
  obtain ⟨n0, H⟩ := C56_schmidt realLib_exact (eps := 1/2^53) (x := 0) (l := 0) (n := 5) (S := S) (by norm_num)
    (by norm_num) (by norm_num) (by norm_num) (by norm_num) (by norm_num) ⟨by norm_num, Or.inl rfl⟩ (Or.inr (hS 5))
  obtain ⟨h', h1, h2, -⟩ := H n0 le_rfl _ _ _ _ _ _ (schmidtHeap_mem 5)
  exact ⟨S, n0, h', h1, h2⟩

/-- the negligible case -/
example : ∃ fuel h', run (rysSchmidt realLib (1/2^53) fuel (fun _ _ => none) ⟨0, 0⟩ ⟨1, 0⟩ ⟨2, 0⟩ 3 1000 (1/2) ⟨3, 0⟩ ⟨4, 0⟩)
    (schmidtHeap 3) = some (0, h') ∧ h'.D ⟨4, 2⟩ = .val 0 := by
  obtain ⟨n0, H⟩ := C56_schmidt_negligible realLib_exact (eps := 1/2^53) (x := 1000) (l := 1/2) (n := 3) (by norm_num)
    (by norm_num) (by norm_num) (by norm_num) (by norm_num) (by norm_num) (fun _ _ => none)
  obtain ⟨h', h1, h2, -⟩ := H n0 le_rfl _ _ _ _ _ _ (schmidtHeap_mem 3)
  exact ⟨n0, h', h1, (h2 2 (by norm_num)).2⟩

end Verif.Props
