import Verif.Props.RysSchmidt
import Mathlib.Tactic.IntervalCases

/-!
C57: the choice of the method for the Rys roots, and when the process ends.
-/
namespace Verif.Props
open Verif.Spec Verif.Model Verif.Lemmas Verif.Prog Polynomial

/-- every method, started in a heap with `I`, keeps `I`, and when it reports success the result is `Good` -/
def MethodsSound (F : Finders ℝ) (n : ℕ) (x l : ℝ) (I Good : Heap ℝ → Prop) : Prop :=
  ∀ m h, I h → wp (F m n x l) (fun e h' => I h' ∧ (e = 0 → Good h')) h

/-- every method ends without failure and reports success -/
def MethodsSucceed (F : Finders ℝ) (n : ℕ) (x l : ℝ) (I : Heap ℝ → Prop) : Prop :=
  ∀ m h, I h → wp (F m n x l) (fun e h' => I h' ∧ e = 0) h

section
variable {F : Finders ℝ} {n : ℕ} {x l : ℝ} {I Good : Heap ℝ → Prop}

theorem segmentSolve_sound (hF : MethodsSound F n x l I Good) {b : ℝ} {m1 m2 : RootMethod} {h : Heap ℝ} (hI : I h) :
    wp (segmentSolve F n x l b m1 m2) (fun e h' => I h' ∧ (e = 0 → Good h')) h := by
  unfold segmentSolve
  rw [wp_mbind]
  refine wp_mono (hF _ h hI) ?_
  rintro e h1 ⟨I1, G1⟩
  split
  · exact hF _ h1 I1
  · exact ⟨I1, G1⟩

theorem segmentSolve1_sound (hF : MethodsSound F n x l I Good) {b1 b2 b : ℝ} {m1 m2 m3 : RootMethod} {h : Heap ℝ} (hI : I h) :
    wp (segmentSolve1 F n x l b1 b2 b m1 m2 m3) (fun e h' => I h' ∧ (e = 0 → Good h')) h := by
  have key : ∀ m, wp (do let error ← F m n x l; if error ≠ 0 then F .qschmidt n x l else pure error)
      (fun e h' => I h' ∧ (e = 0 → Good h')) h := by
    intro m
    rw [wp_mbind]
    refine wp_mono (hF _ h hI) ?_
    rintro e h1 ⟨I1, G1⟩
    split
    · exact hF _ h1 I1
    · exact ⟨I1, G1⟩
  unfold segmentSolve1
  split
  · exact key _
  · split
    · exact key _
    · exact ⟨hI, fun e => absurd e (by norm_num)⟩

theorem tryFits_sound (hF : MethodsSound F n x l I Good) {b : Bool} {rest : Prog ℝ ℕ} {h : Heap ℝ} (hI : I h)
    (hr : ∀ h, I h → wp rest (fun e h' => I h' ∧ (e = 0 → Good h')) h) :
    wp (tryFits F b n x l rest) (fun e h' => I h' ∧ (e = 0 → Good h')) h := by
  unfold tryFits
  split
  · rw [wp_mbind]
    refine wp_mono (hF _ h hI) ?_
    rintro e h1 ⟨I1, G1⟩
    split
    · exact ⟨I1, G1⟩
    · exact hr h1 I1
  · exact hr h hI

theorem exit_sound {p : Prog ℝ ℕ} {h : Heap ℝ} (H : wp p (fun e h' => I h' ∧ (e = 0 → Good h')) h) :
    wp (do let err ← p; pure (exitOn err)) (fun r h' => r = none → Good h') h := by
  rw [wp_mbind]
  refine wp_mono H ?_
  rintro e h1 ⟨-, G1⟩
  rw [wp_pure]
  intro hr
  unfold exitOn at hr
  split at hr
  · exact absurd hr (by simp)
  · rename_i he
    exact G1 (not_not.1 he)

/-- C57.  Whatever the number of roots, the argument and the lower limit: if every method reports success only with a good
result, the choice returns to its caller only with a good result (otherwise the process ends). -/
theorem C57_sr_roots_sound (hF : MethodsSound F n x l I Good) (fits : Bool) {h : Heap ℝ} (hI : I h) :
    ∃ r h', run (srRysRoots F fits n x l) h = some (r, h') ∧ (r = none → Good h') := by
  have S := fun (b : ℝ) (m1 m2 : RootMethod) (h : Heap ℝ) (hI : I h) => segmentSolve_sound hF (b := b) (m1 := m1) (m2 := m2) hI
  have S1 := fun (b1 b2 b : ℝ) (m1 m2 m3 : RootMethod) =>
    exit_sound (segmentSolve1_sound hF (b1 := b1) (b2 := b2) (b := b) (m1 := m1) (m2 := m2) (m3 := m3) hI)
  have T := fun (rest : Prog ℝ ℕ) (hr : ∀ h, I h → wp rest (fun e h' => I h' ∧ (e = 0 → Good h')) h) =>
    exit_sound (tryFits_sound hF (b := fits) hI hr)
  suffices H : wp (srRysRoots F fits n x l) (fun r h' => r = none → Good h') h from run_of_wp H
  have E : ∀ b1 b2 : ℝ, wp (do
      let _ ← segmentSolve1 F n x l b1 b2 60 .qjacobi .qlaguerre .qjacobi
      pure (exitOn 1)) (fun r h' => r = none → Good h') h := fun b1 b2 => by
    rw [wp_mbind]
    exact wp_mono (segmentSolve1_sound hF hI) fun _ _ _ e => absurd e (by simp [exitOn])
  unfold srRysRoots
  dsimp only
  split
  all_goals first
    | exact exit_sound (hF _ h hI)
    | exact S1 _ _ _ _ _ _
    | exact E _ _
    | exact fun e => absurd e (by simp)
    | (refine T _ fun h hI => ?_
       split
       · first | exact hF _ h hI | exact S _ _ _ h hI
       · split
         · first | exact hF _ h hI | exact S _ _ _ h hI
         · first | exact hF _ h hI | exact S _ _ _ h hI)
    | (refine exit_sound (I := I) ?_
       split
       · exact S _ _ _ h hI
       · split
         · exact S _ _ _ h hI
         · exact hF _ h hI)

/-- C57.  The same for the roots without a lower limit; the expansions for small and large arguments always return. -/
theorem C57_roots_sound (hF : MethodsSound F n x 0 I Good) (hsmall : ∀ h, I h → wp (F .smallx n x 0) (fun _ h' => Good h') h)
    (hlarge : ∀ h, I h → wp (F .largex n x 0) (fun _ h' => Good h') h) (lim : ℝ) {h : Heap ℝ} (hI : I h) :
    ∃ r h', run (rysRootsDispatch F lim n x) h = some (r, h') ∧ (r = none → Good h') := by
  suffices H : wp (rysRootsDispatch F lim n x) (fun r h' => r = none → Good h') h from run_of_wp H
  unfold rysRootsDispatch
  split
  · rw [wp_mbind]
    exact wp_mono (hsmall h hI) fun _ _ G _ => G
  · split
    · rw [wp_mbind]
      exact wp_mono (hlarge h hI) fun _ _ G _ => G
    · refine exit_sound (I := I) ?_
      repeat' split
      all_goals first | exact hF _ h hI | exact segmentSolve_sound hF hI

/-- the lower limit below which a method for `n` roots is chosen at all -/
noncomputable def lowerLimit (n : ℕ) : ℝ :=
  if n ≤ 14 then 1 else if n ≤ 16 then 75/100 else if n = 19 then 55/100 else if n ≤ 21 then 45/100 else 35/100

/-- C57 (partial: 17 and 18 roots are missing, see C57_sr_roots_17_18_exit).  For up to 24 roots and a lower limit below the
bound of the method the call returns to its caller when the methods find the roots. -/
theorem C57_sr_roots_return_partial (hF : MethodsSucceed F n x l I) (fits : Bool) {h : Heap ℝ} (hI : I h) (hn : 1 ≤ n) (hn' : n ≤ 24)
    (h17 : n ≠ 17) (h18 : n ≠ 18) (hl : l < lowerLimit n) : ∃ h', run (srRysRoots F fits n x l) h = some (none, h') := by
  have key : ∀ m h, I h → wp (F m n x l) (fun e h' => I h' ∧ (e = 0 → True)) h := fun m h hI => wp_mono (hF m h hI) fun _ _ H => ⟨H.1, fun _ => trivial⟩
  have ex : ∀ {p : Prog ℝ ℕ}, wp p (fun e _ => e = 0) h → wp (do let err ← p; pure (exitOn err)) (fun r _ => r = none) h := by
    intro p H
    rw [wp_mbind]
    refine wp_mono H ?_
    rintro e h1 rfl
    rfl
  have two : ∀ m (h : Heap ℝ), I h → wp (do let error ← F m n x l; if error ≠ 0 then F .qschmidt n x l else pure error)
      (fun e _ => e = 0) h := by
    intro m h hI
    rw [wp_mbind]
    refine wp_mono (hF _ h hI) ?_
    rintro e h1 ⟨-, rfl⟩
    rw [if_neg (by simp)]
    rfl
  have one : ∀ m (h : Heap ℝ), I h → wp (F m n x l) (fun e _ => e = 0) h := fun m h hI => wp_mono (hF m h hI) fun _ _ H => H.2
  have seg : ∀ (b : ℝ) (m1 m2 : RootMethod) (h : Heap ℝ), I h → wp (segmentSolve F n x l b m1 m2) (fun e _ => e = 0) h :=
    fun b m1 m2 h hI => two _ h hI
  have seg1 : ∀ (b1 b2 b : ℝ) (m1 m2 m3 : RootMethod), l < b2 → wp (segmentSolve1 F n x l b1 b2 b m1 m2 m3) (fun e _ => e = 0) h := by
    intro b1 b2 b m1 m2 m3 h2
    unfold segmentSolve1
    split
    · exact two _ h hI
    · exact two _ h hI
  have fit : ∀ rest : Prog ℝ ℕ, (∀ h, I h → wp rest (fun e _ => e = 0) h) → wp (tryFits F fits n x l rest) (fun e _ => e = 0) h := by
    intro rest hr
    unfold tryFits
    split
    · rw [wp_mbind]
      refine wp_mono (hF _ h hI) ?_
      rintro e h1 ⟨-, rfl⟩
      rw [if_pos rfl]
      rfl
    · exact hr h hI
  suffices H : wp (srRysRoots F fits n x l) (fun r _ => r = none) h by
    obtain ⟨r, h', hr, rfl⟩ := run_of_wp H
    exact ⟨h', hr⟩
  unfold srRysRoots
  dsimp only
  unfold lowerLimit at hl
  split
  all_goals first
    | exact ex (one _ h hI)
    | (refine ex (seg1 _ _ _ _ _ _ ?_); norm_num at hl; linarith)
    | exact absurd rfl h17
    | exact absurd rfl h18
    | (refine ex (fit _ fun h hI => ?_)
       split
       · first | exact one _ h hI | exact seg _ _ _ h hI
       · split
         · first | exact one _ h hI | exact seg _ _ _ h hI
         · first | exact one _ h hI | exact seg _ _ _ h hI)
    | (refine ex ?_
       split
       · exact seg _ _ _ h hI
       · split
         · exact seg _ _ _ h hI
         · exact one _ h hI)
    | (exfalso; omega)
    | (exfalso; clear hl; interval_cases n <;> exact absurd rfl (by assumption))

/-- C57.  **The property fails for 17 and 18 roots**: the process ends with exit code 1 although the methods have found the
roots. -/
theorem C57_sr_roots_17_18_exit (hF : MethodsSucceed F n x l I) (fits : Bool) {h : Heap ℝ} (hI : I h) (hn : n = 17 ∨ n = 18) :
    ∃ h', run (srRysRoots F fits n x l) h = some (some 1, h') := by
  have seg1 : ∀ (b1 b2 : ℝ), wp (do
      let _ ← segmentSolve1 F n x l b1 b2 60 .qjacobi .qlaguerre .qjacobi
      pure (exitOn 1)) (fun r _ => r = some 1) h := by
    intro b1 b2
    rw [wp_mbind]
    exact wp_mono (segmentSolve1_sound (Good := fun _ => True) (fun m h hI => wp_mono (hF m h hI) fun _ _ H => ⟨H.1, fun _ => trivial⟩) hI)
      fun _ _ _ => rfl
  suffices H : wp (srRysRoots F fits n x l) (fun r _ => r = some 1) h by
    obtain ⟨r, h', hr, rfl⟩ := run_of_wp H
    exact ⟨h', hr⟩
  rcases hn with rfl | rfl
  · exact seg1 _ _
  · exact seg1 _ _

/-- C57.  More than 24 roots are refused: the process ends, nothing is computed. -/
theorem C57_sr_roots_unsupported (F : Finders ℝ) (fits : Bool) (x l : ℝ) (hn : 24 < n) (h : Heap ℝ) :
    run (srRysRoots F fits n x l) h = some (some 1, h) := by
  unfold srRysRoots
  dsimp only
  split
  all_goals first | omega | rfl

/-- C57.  So is a lower limit not below the bound of the method. -/
theorem C57_sr_roots_lower_limit (F : Finders ℝ) (fits : Bool) (x l : ℝ) (hn : 7 ≤ n) (hn' : n ≤ 24) (h17 : n ≠ 17) (h18 : n ≠ 18)
    (hl : lowerLimit n ≤ l) (h : Heap ℝ) : run (srRysRoots F fits n x l) h = some (some 1, h) := by
  have seg1 : ∀ (b1 b2 b : ℝ) (m1 m2 m3 : RootMethod), b1 ≤ l → b2 ≤ l →
      run (do let err ← segmentSolve1 F n x l b1 b2 b m1 m2 m3; pure (exitOn err)) h = some (some 1, h) := by
    intro b1 b2 b m1 m2 m3 h1 h2
    rw [run_bind]
    unfold segmentSolve1
    rw [if_neg (not_lt.2 h1), if_neg (not_lt.2 h2)]
    rfl
  unfold srRysRoots
  dsimp only
  unfold lowerLimit at hl
  split
  all_goals first
    | (exfalso; omega)
    | (refine seg1 _ _ _ _ _ _ ?_ ?_ <;> norm_num at hl <;> linarith)
    | (exfalso; clear hl; interval_cases n <;> exact absurd rfl (by assumption))

/-- C57.  One root, and two roots with a lower limit below 0.99: the roots and weights that the caller of CINTsr_rys_roots finds
are those of Rys quadrature, whatever the other methods do. -/
theorem C57_sr_roots_one_two {L : BoysLib ℝ} (hL : LibExact L) {eps x l : ℝ} (he : 0 < eps) (hx : 0 ≤ x) (l0 : 0 ≤ l) (l1 : l < 1)
    {n : ℕ} (hn : n = 1 ∨ n = 2 ∧ l < 99/100) (hm : MomentsExact n x l) (S : RootSolver ℝ) :
    ∃ n0, ∀ fuel, n0 ≤ fuel → ∀ (f rt v roots weights : Ptr) (h : Heap ℝ), SchmidtMem n f rt v roots weights h →
    ∀ (F : Finders ℝ), (∀ n x l, F .schmidt n x l = rysSchmidt L eps fuel S f rt v n x l roots weights) → ∀ fits : Bool,
    ∃ h', run (srRysRoots F fits n x l) h = some (none, h') ∧ RootsAt n x l roots weights h' ∧
      SchmidtFrame n f rt v roots weights h h' := by
  obtain ⟨n0, H⟩ := C56_schmidt hL he hx l0 l1 (n := n) (by omega) (by omega) hm (S := S) (Or.inl (by omega))
  refine ⟨n0, fun fuel hf f rt v roots weights h M F hFs fits => ?_⟩
  obtain ⟨h', hr, hR, hFr⟩ := H fuel hf f rt v roots weights h M
  refine ⟨h', ?_, hR, hFr⟩
  have : srRysRoots F fits n x l = (do let err ← F .schmidt n x l; pure (exitOn err)) := by
    rcases hn with rfl | ⟨rfl, h2⟩
    · rfl
    · show (do let err ← F (if l < 99/100 then .schmidt else .qjacobi) 2 x l; pure (exitOn err)) = _
      rw [if_pos h2]
  rw [this, run_bind, hFs, hr]
  rfl
end

/-- methods that succeed: they fill the two arrays -/
def demoFinders : Finders ℝ := fun _ n _ _ => do
  forN n fun k => do
    st ((⟨3, 0⟩ : Ptr) + k) 1
    st ((⟨4, 0⟩ : Ptr) + k) 1
  pure 0

theorem demoFinders_ok (n : ℕ) (x l : ℝ) :
    MethodsSucceed demoFinders n x l (fun h => (∀ k, k < n → h.D ((⟨3, 0⟩ : Ptr) + k) ≠ .oob) ∧ ∀ k, k < n → h.D ((⟨4, 0⟩ : Ptr) + k) ≠ .oob) := by
  rintro m h hI
  unfold demoFinders
  rw [wp_mbind]
  refine wp_forN (fun _ h => (∀ k, k < n → h.D ((⟨3, 0⟩ : Ptr) + k) ≠ .oob) ∧ ∀ k, k < n → h.D ((⟨4, 0⟩ : Ptr) + k) ≠ .oob) hI ?_ ?_
  · rintro k hk h1 ⟨A, B⟩
    simp only [wp_mbind, wp_st]
    have A1 : ∀ (h' : Heap ℝ) (p q : Ptr) (y : ℝ), h'.D q ≠ .oob → (h'.setD p y).D q ≠ .oob := fun h' p q y A => by
      rw [Heap.setD_D]; split
      · simp
      · exact A
    exact ⟨A k hk, A1 _ _ _ _ (B k hk), fun i hi => A1 _ _ _ _ (A1 _ _ _ _ (A i hi)), fun i hi => A1 _ _ _ _ (A1 _ _ _ _ (B i hi))⟩
  · intro h1 H
    exact ⟨H, rfl⟩

theorem schmidtHeap_arrays (n : ℕ) : (∀ k, k < n → (schmidtHeap n).D ((⟨3, 0⟩ : Ptr) + k) ≠ .oob) ∧ ∀ k, k < n → (schmidtHeap n).D ((⟨4, 0⟩ : Ptr) + k) ≠ .oob :=
  ⟨(schmidtHeap_mem n).al_u, (schmidtHeap_mem n).al_w⟩

/-- 16 and 19 roots come back, 17 end the process: the same methods, the same arguments -/
example : (∃ h', run (srRysRoots demoFinders false 16 5 (1/2)) (schmidtHeap 16) = some (none, h')) ∧
    (∃ h', run (srRysRoots demoFinders false 17 5 (1/2)) (schmidtHeap 17) = some (some 1, h')) ∧
    ∃ h', run (srRysRoots demoFinders false 19 5 (1/2)) (schmidtHeap 19) = some (none, h') :=
  ⟨C57_sr_roots_return_partial (demoFinders_ok 16 5 (1/2)) false (schmidtHeap_arrays 16) (by norm_num) (by norm_num) (by norm_num) (by norm_num)
    (by norm_num [lowerLimit]),
   C57_sr_roots_17_18_exit (demoFinders_ok 17 5 (1/2)) false (schmidtHeap_arrays 17) (Or.inl rfl),
   C57_sr_roots_return_partial (demoFinders_ok 19 5 (1/2)) false (schmidtHeap_arrays 19) (by norm_num) (by norm_num) (by norm_num) (by norm_num)
    (by norm_num [lowerLimit])⟩

/-- C57 (sound) with the Schmidt method as it is and two roots: what comes back is exact -/
example : ∃ (fuel : ℕ) (h' : Heap ℝ), run (srRysRoots (fun m n x l => if m = .schmidt then
      rysSchmidt realLib (1/2^53) fuel (fun _ _ => none) ⟨0, 0⟩ ⟨1, 0⟩ ⟨2, 0⟩ n x l ⟨3, 0⟩ ⟨4, 0⟩ else fail) true 2 5 (1/2))
    (schmidtHeap 2) = some (none, h') ∧ RootsAt 2 5 (1/2) ⟨3, 0⟩ ⟨4, 0⟩ h' := by
  obtain ⟨n0, H⟩ := C57_sr_roots_one_two realLib_exact (eps := 1/2^53) (x := 5) (l := 1/2) (n := 2) (by norm_num)
    (by norm_num) (by norm_num) (by norm_num) (Or.inr ⟨rfl, by norm_num⟩) (by
      refine ⟨by norm_num, Or.inr fun q hq => ?_⟩
      have : turnoverTable[2*2]? = some (1705493613097/10^12) := rfl
      rw [this] at hq
      cases hq
      norm_num) (fun _ _ => none)
  obtain ⟨h', h1, h2, -⟩ := H n0 le_rfl _ _ _ _ _ _ (schmidtHeap_mem 2) (fun m n x l => if m = .schmidt then
      rysSchmidt realLib (1/2^53) n0 (fun _ _ => none) ⟨0, 0⟩ ⟨1, 0⟩ ⟨2, 0⟩ n x l ⟨3, 0⟩ ⟨4, 0⟩ else fail) (fun _ _ _ => if_pos rfl) true
  exact ⟨n0, h', h1, h2⟩

/-- C57 (sound), a method that succeeds only with all weights equal to one -/
example : ∃ r h', run (srRysRoots demoFinders false 9 5 (1/2)) (schmidtHeap 9) = some (r, h') ∧ (r = none → True) :=
  C57_sr_roots_sound (Good := fun _ => True) (fun m h hI => wp_mono (demoFinders_ok 9 5 (1/2) m h hI) fun _ _ H => ⟨H.1, fun _ => trivial⟩) false
    (schmidtHeap_arrays 9)

end Verif.Props
