import Verif.Model.Wheeler
import Verif.Lemmas.WheelerMath
import Verif.Lemmas.RysSchmidt
import Verif.Lemmas.PolyFits

/-! The programs of src/rys_wheeler.c compute the coefficients of the three-term recursion, then the quadrature. -/
namespace Verif.Lemmas.Wheeler
open Verif Prog Verif.Model Verif.Model.Wheeler Verif.Lemmas Polynomial

/-- the arrays of the recursion -/
structure RecMem (h : Heap ℝ) (n : ℕ) (alpha beta moments a b buf : Ptr) : Prop where
  al_m : AllocD h moments (2*n)
  al_buf : AllocD h buf (4*n)
  al_a : AllocD h a n
  al_b : AllocD h b n
  m_buf : Disj moments (2*n) buf (4*n)
  m_al : Disj moments (2*n) alpha (2*n-1)
  m_be : Disj moments (2*n) beta (2*n-1)
  m_a : Disj moments (2*n) a n
  m_b : Disj moments (2*n) b n
  buf_al : Disj buf (4*n) alpha (2*n-1)
  buf_be : Disj buf (4*n) beta (2*n-1)
  buf_a : Disj buf (4*n) a n
  buf_b : Disj buf (4*n) b n
  a_b : Disj a n b n
  a_al : Disj a n alpha (2*n-1)
  a_be : Disj a n beta (2*n-1)
  b_al : Disj b n alpha (2*n-1)
  b_be : Disj b n beta (2*n-1)

/-- the cells the recursion may write -/
def RecW (n : ℕ) (moments a b buf : Ptr) (q : Ptr) : Prop := Blk moments (2*n) q ∨ Blk buf (4*n) q ∨ Blk a n q ∨ Blk b n q

/-- the cells of the three rotating arrays -/
def RotW (n : ℕ) (moments buf : Ptr) (q : Ptr) : Prop := Blk moments (2*n) q ∨ Blk buf (4*n) q

section
variable {h : Heap ℝ} {n : ℕ} {alpha beta moments a b buf : Ptr}

theorem RecMem.rot (M : RecMem h n alpha beta moments a b buf) {q : Ptr} (hq : RotW n moments buf q) :
    (∀ k, k < n → q ≠ a + k) ∧ (∀ k, k < n → q ≠ b + k) ∧ (∀ k, k < 2*n-1 → q ≠ alpha + k) ∧ (∀ k, k < 2*n-1 → q ≠ beta + k) := by
  rcases hq with ⟨i, hi, rfl⟩ | ⟨i, hi, rfl⟩
  · exact ⟨fun k hk => M.m_a i k hi hk, fun k hk => M.m_b i k hi hk, fun k hk => M.m_al i k hi hk, fun k hk => M.m_be i k hi hk⟩
  · exact ⟨fun k hk => M.buf_a i k hi hk, fun k hk => M.buf_b i k hi hk, fun k hk => M.buf_al i k hi hk, fun k hk => M.buf_be i k hi hk⟩

theorem RecMem.alpha_out (M : RecMem h n alpha beta moments a b buf) {k : ℕ} (hk : k < 2*n-1) : ¬ RecW n moments a b buf (alpha + k) := by
  rintro (⟨i, hi, e⟩ | ⟨i, hi, e⟩ | ⟨i, hi, e⟩ | ⟨i, hi, e⟩)
  · exact M.m_al i k hi hk e.symm
  · exact M.buf_al i k hi hk e.symm
  · exact M.a_al i k hi hk e.symm
  · exact M.b_al i k hi hk e.symm

theorem RecMem.beta_out (M : RecMem h n alpha beta moments a b buf) {k : ℕ} (hk : k < 2*n-1) : ¬ RecW n moments a b buf (beta + k) := by
  rintro (⟨i, hi, e⟩ | ⟨i, hi, e⟩ | ⟨i, hi, e⟩ | ⟨i, hi, e⟩)
  · exact M.m_be i k hi hk e.symm
  · exact M.buf_be i k hi hk e.symm
  · exact M.a_be i k hi hk e.symm
  · exact M.b_be i k hi hk e.symm

theorem RecMem.rot_alloc (M : RecMem h n alpha beta moments a b buf) {q : Ptr} (hq : RotW n moments buf q) : h.D q ≠ .oob := by
  rcases hq with ⟨i, hi, rfl⟩ | ⟨i, hi, rfl⟩
  · exact M.al_m i hi
  · exact M.al_buf i hi

theorem RotW.rec {q : Ptr} (hq : RotW n moments buf q) : RecW n moments a b buf q := hq.elim Or.inl (fun x => Or.inr (Or.inl x))

/-- the state before pass `t+1` of the loop -/
structure Inv (L : ℝ[X] →ₗ[ℝ] ℝ) (al be : ℕ → ℝ) (h : Heap ℝ) (n : ℕ) (moments a b buf : Ptr) (t : ℕ) (s : WState ℝ) (h1 : Heap ℝ) : Prop where
  a0 : s.a0 = recA L t
  b0 : s.b0 = recB L t
  v0 : ∀ j, j < 2*(n-t) → h1.D (s.s0 + j) = .val (sig L al be t j)
  vm : ∀ j, 2 ≤ j → j < 2*(n-t) → h1.D (s.sm + j) = .val (if t = 0 then 0 else sig L al be (t-1) j)
  as : ∀ k, k ≤ t → h1.D (a + k) = .val (recA L k)
  bs : ∀ k, k ≤ t → h1.D (b + k) = .val (recB L k)
  fr : From h (RecW n moments a b buf) h1
  in0 : ∀ i, i < 2*n → RotW n moments buf (s.s0 + i)
  inm : ∀ i, i < 2*n → RotW n moments buf (s.sm + i)
  ink : ∀ i, i < 2*n → RotW n moments buf (s.sk + i)
  d0m : Disj s.s0 (2*n) s.sm (2*n)
  d0k : Disj s.s0 (2*n) s.sk (2*n)
  dmk : Disj s.sm (2*n) s.sk (2*n)

theorem from_assigned {ι : Type} {h0 h1 h2 : Heap ℝ} {W : Ptr → Prop} {P : ι → Prop} {addr : ι → Ptr} {v : ι → ℝ} (F : From h0 W h1)
    (H : AssignedD h1 h2 P addr v) (hP : ∀ k, P k → W (addr k)) : From h0 W h2 := Adds.from' hP F H

theorem wheelerStep_wp {L : ℝ[X] →ₗ[ℝ] ℝ} (hL : PosFun L) {al be : ℕ → ℝ} (M : RecMem h n alpha beta moments a b buf)
    (hal : HoldsD h alpha (2*n-1) al) (hbe : ∀ k, 0 < k → k < 2*n-1 → h.D (beta + k) = .val (be k)) {t : ℕ} (ht : t+1 < n) {s : WState ℝ} {h1 : Heap ℝ}
    (I : Inv L al be h n moments a b buf t s h1) :
    wp (wheelerStep n alpha beta a b (t+1) s) (fun s' h' => Inv L al be h n moments a b buf (t+1) s' h') h1 := by
  have oal : ∀ k, k < 2*n-1 → h1.D (alpha + k) = .val (al k) := fun k hk => I.fr.val (hal k hk) (M.alpha_out hk)
  have obe : ∀ k, 0 < k → k < 2*n-1 → h1.D (beta + k) = .val (be k) := fun k h0 hk => I.fr.val (hbe k h0 hk) (M.beta_out hk)
  unfold wheelerStep
  rw [wp_mbind]
  refine wp_mono (PolyFits.wp_stores (addr := fun j => s.sk + j) (v := fun j => sig L al be (t+1) j) (fun i j e => by simpa using e)
    (fun i hi => I.fr.al _ (M.rot_alloc (I.ink i (by omega)))) ?_) ?_
  · intro j hj h2 H2
    have k0 : ∀ m, m < 2*n → h2.D (s.s0 + m) = h1.D (s.s0 + m) := fun m hm => H2 _ (fun j' hj' => I.d0k m j' hm (by omega))
    have km : ∀ m, m < 2*n → h2.D (s.sm + m) = h1.D (s.sm + m) := fun m hm => H2 _ (fun j' hj' => I.dmk m j' hm (by omega))
    have kal : ∀ m, m < 2*n-1 → h2.D (alpha + m) = .val (al m) := fun m hm => by
      rw [H2 _ (fun j' hj' e => (M.rot (I.ink j' (by omega))).2.2.1 m hm e.symm), oal m hm]
    have kbe : ∀ m, 0 < m → m < 2*n-1 → h2.D (beta + m) = .val (be m) := fun m h0 hm => by
      rw [H2 _ (fun j' hj' e => (M.rot (I.ink j' (by omega))).2.2.2 m hm e.symm), obe m h0 hm]
    unfold sigCell
    simp only [wp_mbind, wp_ld]
    refine ⟨_, by rw [k0 _ (by omega), I.v0 _ (by omega)], _, kal _ (by omega), _, by rw [k0 _ (by omega), I.v0 _ (by omega)], _,
      by rw [km _ (by omega), I.vm _ (by omega) (by omega)], _, kbe _ (by omega) (by omega), _, by rw [k0 _ (by omega), I.v0 _ (by omega)], ?_⟩
    rw [wp_pure, I.a0, I.b0]
    refine ⟨?_, rfl⟩
    rw [sig_step hL al be t j, Nat.add_comm 2 j, Nat.add_comm 1 j]
  · intro _ h2 H2
    have F2 : From h (RecW n moments a b buf) h2 := from_assigned I.fr H2 (fun k hk => (I.ink k (by omega)).rec)
    have k0 : ∀ m, m < 2*(n-t) → h2.D (s.s0 + m) = .val (sig L al be t m) := fun m hm => by
      rw [H2.frame _ (fun j' hj' => I.d0k m j' (by omega) (by omega)), I.v0 m hm]
    have kk : ∀ m, m < 2*(n-(t+1)) → h2.D (s.sk + m) = .val (sig L al be (t+1) m) := fun m hm => H2.val m hm
    have ka : ∀ k, k ≤ t → h2.D (a + k) = .val (recA L k) := fun k hk => by
      rw [H2.frame _ (fun j' hj' e => (M.rot (I.ink j' (by omega))).1 k (by omega) e.symm), I.as k hk]
    have kb : ∀ k, k ≤ t → h2.D (b + k) = .val (recB L k) := fun k hk => by
      rw [H2.frame _ (fun j' hj' e => (M.rot (I.ink j' (by omega))).2.1 k (by omega) e.symm), I.bs k hk]
    simp only [wp_mbind, wp_ld, wp_st]
    refine ⟨_, F2.val (hal (t+1) (by omega)) (M.alpha_out (by omega)), _, k0 1 (by omega), _, k0 0 (by omega), _, kk 1 (by omega), _, kk 0 (by omega), ?_⟩
    rw [← recA_succ hL al be t, ← recB_sig hL al be t]
    refine ⟨F2.al _ (M.al_a _ ht), ?_, ?_⟩
    · rw [Heap.setD_D_ne _ _ (fun e => M.a_b (t+1) (t+1) ht ht e.symm)]
      exact F2.al _ (M.al_b _ ht)
    rw [wp_pure]
    have key : ∀ q, q ≠ a + (t+1) → q ≠ b + (t+1) → ((h2.setD (a + (t+1)) (recA L (t+1))).setD (b + (t+1)) (recB L (t+1))).D q = h2.D q :=
      fun q h1 h2 => by rw [Heap.setD_D_ne _ _ h2, Heap.setD_D_ne _ _ h1]
    have rotk : ∀ q, RotW n moments buf q → ((h2.setD (a + (t+1)) (recA L (t+1))).setD (b + (t+1)) (recB L (t+1))).D q = h2.D q :=
      fun q hq => key q ((M.rot hq).1 _ ht) ((M.rot hq).2.1 _ ht)
    refine ⟨rfl, rfl, fun j hj => ?_, fun j _ hj => ?_, fun k hk => ?_, fun k hk => ?_, ?_, I.ink, I.in0, I.inm, I.d0k.symm, I.dmk.symm, I.d0m⟩
    · rw [rotk _ (I.ink j (by omega))]; exact kk j hj
    · rw [rotk _ (I.in0 j (by omega)), if_neg (by omega), Nat.add_sub_cancel]; exact k0 j (by omega)
    · rw [Heap.setD_D_ne _ _ (fun e => M.a_b k (t+1) (by omega) ht e)]
      rcases Nat.le_or_eq_of_le_succ hk with hk | rfl
      · rw [Heap.setD_D_ne _ _ (fun e => by have := (Ptr.add_right_inj a k (t+1)).1 e; omega)]; exact ka k hk
      · exact Heap.setD_D_self _ _ _
    · rcases Nat.le_or_eq_of_le_succ hk with hk | rfl
      · rw [key _ (fun e => M.a_b (t+1) k ht (by omega) e.symm) (fun e => by have := (Ptr.add_right_inj b k (t+1)).1 e; omega)]; exact kb k hk
      · exact Heap.setD_D_self _ _ _
    · exact From.set' (From.set' F2 _ (Or.inr (Or.inr (Or.inl ⟨t+1, ht, rfl⟩)))) _ (Or.inr (Or.inr (Or.inr ⟨t+1, ht, rfl⟩)))

theorem wheelerRecursion_wp {L : ℝ[X] →ₗ[ℝ] ℝ} (hL : PosFun L) {al be : ℕ → ℝ} (hn : 1 ≤ n) (M : RecMem h n alpha beta moments a b buf)
    (hal : HoldsD h alpha (2*n-1) al) (hbe : ∀ k, 0 < k → k < 2*n-1 → h.D (beta + k) = .val (be k))
    (hm : HoldsD h moments (2*n) (fun k => L (piP al be k))) :
    wp (wheelerRecursion n alpha beta moments a b buf) (fun _ h' => HoldsD h' a n (recA L) ∧ HoldsD h' b n (recB L) ∧
      From h (RecW n moments a b buf) h') h := by
  have s0 : ∀ j, sig L al be 0 j = L (piP al be j) := fun j => by
    unfold sig; rw [Nat.zero_add]; simp [gsQ]
  unfold wheelerRecursion
  simp only [wp_mbind, wp_ld, wp_st]
  refine ⟨_, hal 0 (by omega), _, hm 1 (by omega), _, hm 0 (by omega), ?_⟩
  have e0 : al 0 + L (piP al be 1) / L (piP al be 0) = recA L 0 := by rw [← s0 1, ← s0 0, ← recA_zero hL al be]
  simp only [e0]
  have ab0 : b ≠ a := fun e => M.a_b 0 0 (by omega) (by omega) e.symm
  refine ⟨M.al_a 0 (by omega), by rw [Heap.setD_D_ne _ _ ab0]; exact M.al_b 0 (by omega), ?_⟩
  have F1 : From h (RecW n moments a b buf) ((h.setD a (recA L 0)).setD b 0) :=
    From.set' (From.set' (From.refl h _) _ (Or.inr (Or.inr (Or.inl ⟨0, by omega, rfl⟩)))) _ (Or.inr (Or.inr (Or.inr ⟨0, by omega, rfl⟩)))
  have key : ∀ q, RotW n moments buf q → ((h.setD a (recA L 0)).setD b 0).D q = h.D q := fun q hq => by
    rw [Heap.setD_D_ne _ _ (show q ≠ b from (M.rot hq).2.1 0 (by omega)), Heap.setD_D_ne _ _ (show q ≠ a from (M.rot hq).1 0 (by omega))]
  have A := PolyFits.wp_stores (n := n*2-2) (f := fun _ => (pure 0 : Prog ℝ ℝ)) (addr := fun i => buf + (i+2)) (v := fun _ => 0)
    (h := (h.setD a (recA L 0)).setD b 0) (fun i j e => by have := (Ptr.add_right_inj _ _ _).1 e; omega)
    (fun i hi => F1.al _ (M.al_buf _ (by omega))) (fun i hi h1 _ => ⟨rfl, rfl⟩)
  refine wp_mono A ?_
  intro _ h2 H2
  have F2 : From h (RecW n moments a b buf) h2 := from_assigned F1 H2 (fun k hk => Or.inr (Or.inl ⟨k+2, by omega, rfl⟩))
  have nb : ∀ q, ¬ Blk buf (4*n) q → h2.D q = ((h.setD a (recA L 0)).setD b 0).D q := fun q hq =>
    H2.frame q (fun k hk e => hq ⟨k+2, by omega, e⟩)
  refine wp_forS (fun t s h' => Inv L al be h n moments a b buf t s h') ?_ ?_ ?_
  · refine ⟨rfl, by simp [recB], fun j hj => ?_, fun j h2j hj => ?_, fun k hk => ?_, fun k hk => ?_, F2, fun i hi => Or.inl ⟨i, hi, rfl⟩,
      fun i hi => Or.inr ⟨i, by omega, rfl⟩, fun i hi => Or.inr ⟨n*2+i, by omega, by rw [Ptr.add_assoc]⟩, fun i j hi hj => M.m_buf i j hi (by omega),
      fun i j hi hj => by rw [Ptr.add_assoc]; exact M.m_buf i _ hi (by omega), fun i j hi hj e => ?_⟩
    · rw [nb _ (M.m_buf.not_blk (by omega)), key _ (Or.inl ⟨j, by omega, rfl⟩), s0]; exact hm j (by omega)
    · rw [if_pos rfl]
      have := H2.val (j-2) (by omega)
      rwa [show j - 2 + 2 = j by omega] at this
    · have : k = 0 := by omega
      subst this
      rw [nb _ (M.buf_a.symm.not_blk (by omega)), Ptr.add_zero, Heap.setD_D_ne _ _ (fun e => ab0 e.symm), Heap.setD_D_self]
    · have : k = 0 := by omega
      subst this
      rw [nb _ (M.buf_b.symm.not_blk (by omega)), Ptr.add_zero, Heap.setD_D_self]; simp [recB]
    · rw [Ptr.add_assoc] at e
      have := (Ptr.add_right_inj _ _ _).1 e
      omega
  · intro t ht s h1 I
    exact wheelerStep_wp hL M hal hbe (by omega) I
  · intro s h1 I
    rw [wp_pure]
    exact ⟨fun k hk => I.as k (by omega), fun k hk => I.bs k (by omega), I.fr⟩
end

theorem zeroRoots_wp {n : ℕ} {roots weights : Ptr} {h h1 : Heap ℝ} {R : Ptr → Prop} (F : From h R h1) (hr : AllocD h roots n) (hw : AllocD h weights n)
    (Rr : ∀ i, i < n → R (roots + i)) (Rw : ∀ i, i < n → R (weights + i)) (rw_ : Disj roots n weights n) :
    wp (zeroRoots n roots weights) (fun _ h' => From h R h' ∧ HoldsD h' roots n (fun _ => 0) ∧ HoldsD h' weights n (fun _ => 0)) h1 := by
  unfold zeroRoots
  refine wp_forN (fun i h' => From h R h' ∧ (∀ k, k < i → h'.D (roots + k) = .val 0) ∧ ∀ k, k < i → h'.D (weights + k) = .val 0)
    ⟨F, fun k hk => by omega, fun k hk => by omega⟩ ?_ (fun h' H => H)
  rintro i hi h2 ⟨F2, A, B⟩
  simp only [wp_mbind, wp_st]
  have F3 := From.set' F2 (0:ℝ) (Rr i hi)
  refine ⟨F2.al _ (hr i hi), F3.al _ (hw i hi), From.set' F3 _ (Rw i hi), fun k hk => ?_, fun k hk => ?_⟩
  · rw [Heap.setD_D_ne _ _ (rw_ k i (by omega) hi), Heap.setD_D]
    split
    · rfl
    · rename_i h'; exact A k (lt_of_le_of_ne (by omega) (fun e => h' (by rw [e])))
  · rw [Heap.setD_D]
    split
    · rfl
    · rename_i h'
      rw [Heap.setD_D_ne _ _ (fun e => rw_ i k hi (by omega) e.symm)]
      exact B k (lt_of_le_of_ne (by omega) (fun e => h' (by rw [e])))

theorem prepare_wp {thr : ℝ} {n : ℕ} {a b da db roots weights : Ptr} {h : Heap ℝ} {R : Ptr → Prop} {A B : ℕ → ℝ}
    (hA : HoldsD h a n A) (hB : HoldsD h b n B) (Ra : ∀ i, i < n → ¬ R (a + i)) (Rb : ∀ i, i < n → ¬ R (b + i))
    (hda : AllocD h da n) (hdb : AllocD h db n) (hr : AllocD h roots n) (hw : AllocD h weights n)
    (Rda : ∀ i, i < n → R (da + i)) (Rdb : ∀ i, i < n → R (db + i))
    (Rr : ∀ i, i < n → R (roots + i)) (Rw : ∀ i, i < n → R (weights + i)) (rw_ : Disj roots n weights n) (dd : Disj da n db n) :
    ∀ (k i : ℕ) (first : Bool) (h1 : Heap ℝ), i + k = n → From h R h1 → (∀ j, j < i → h1.D (da + j) = .val (A j)) →
      (∀ j, 1 ≤ j → j < i → h1.D (db + j) = .val (Real.sqrt (B j))) → (first = false → ∃ j, 1 ≤ j ∧ j < i ∧ B j < thr) → 1 ≤ i →
      (∀ m j, 1 ≤ m → m < j → j < i → B m < thr → thr ≤ B j) → (first = true → ∀ j, 1 ≤ j → j < i → thr ≤ B j) →
    wp (prepare Real.sqrt thr n a b da db roots weights i k first) (fun sing h' => From h R h' ∧
      (sing = false → HoldsD h' da n A ∧ (∀ j, 1 ≤ j → j < n → h'.D (db + j) = .val (Real.sqrt (B j))) ∧
        ∀ m j, 1 ≤ m → m < j → j < n → B m < thr → thr ≤ B j) ∧
      (sing = true → HoldsD h' roots n (fun _ => 0) ∧ HoldsD h' weights n (fun _ => 0) ∧
        ∃ j, 1 ≤ j ∧ j < n ∧ B j < thr ∧ (B j < 0 ∨ ∃ m, 1 ≤ m ∧ m < j ∧ B m < thr))) h1 := by
  intro k
  induction k with
  | zero =>
    intro i first h1 hi F d1 d2 _ _ hp _
    obtain rfl : i = n := by omega
    unfold prepare
    rw [wp_pure]
    exact ⟨F, fun _ => ⟨d1, d2, hp⟩, fun e => (by cases e)⟩
  | succ k ih =>
    intro i first h1 hi F d1 d2 hf h1i hp ht
    unfold prepare
    rw [wp_mbind, wp_ld]
    refine ⟨_, F.val (hB i (by omega)) (Rb i (by omega)), ?_⟩
    by_cases c : B i < thr ∧ (first = false ∨ B i < 0)
    · rw [if_pos c, wp_mbind]
      refine wp_mono (zeroRoots_wp F hr hw Rr Rw rw_) ?_
      rintro _ h2 ⟨F2, z1, z2⟩
      rw [wp_pure]
      refine ⟨F2, fun e => (by cases e), fun _ => ⟨z1, z2, i, h1i, by omega, c.1, ?_⟩⟩
      rcases c.2 with c2 | c2
      · obtain ⟨m, m1, m2, m3⟩ := hf c2; exact Or.inr ⟨m, m1, m2, m3⟩
      · exact Or.inl c2
    · rw [if_neg c, wp_mbind]
      have hi' : i < n := by omega
      unfold copyAB
      simp only [wp_mbind, wp_ld, wp_st]
      have F2 := From.set' F (A i) (Rda i hi')
      have F3 := From.set' F2 (Real.sqrt (B i)) (Rdb i hi')
      refine ⟨_, F.val (hA i hi') (Ra i hi'), F.al _ (hda i hi'), _, F2.val (hB i hi') (Rb i hi'), F2.al _ (hdb i hi'), ?_⟩
      refine ih (i+1) _ _ (by omega) F3 (fun j hj => ?_) (fun j h1j hj => ?_) (fun e => ?_) (by omega) (fun m j h1m hmj hj hm => ?_)
        (fun e j h1j hj => ?_)
      · rw [Heap.setD_D_ne _ _ (dd j i (by omega) hi'), Heap.setD_D]
        split
        · rename_i e; rw [(Ptr.add_right_inj _ _ _).1 e]
        · rename_i e; exact d1 j (lt_of_le_of_ne (by omega) (fun x => e (by rw [x])))
      · rw [Heap.setD_D]
        split
        · rename_i e; rw [(Ptr.add_right_inj _ _ _).1 e]
        · rename_i e
          rw [Heap.setD_D_ne _ _ (fun x => dd i j hi' (by omega) x.symm)]
          exact d2 j h1j (lt_of_le_of_ne (by omega) (fun x => e (by rw [x])))
      · by_cases hx : B i < thr
        · exact ⟨i, h1i, by omega, hx⟩
        · simp only [hx, decide_false, Bool.not_false, Bool.and_true] at e
          obtain ⟨m, m1, m2, m3⟩ := hf e
          exact ⟨m, m1, by omega, m3⟩
      · rcases Nat.lt_or_eq_of_le (Nat.lt_succ_iff.1 hj) with hj | rfl
        · exact hp m j h1m hmj hj hm
        · by_contra hlt
          cases hfi : first with
          | false => exact c ⟨lt_of_not_ge hlt, Or.inl hfi⟩
          | true => exact absurd hm (not_lt.2 (ht hfi m h1m hmj))
      · simp only [Bool.and_eq_true, Bool.not_eq_true', decide_eq_false_iff_not, not_lt] at e
        rcases Nat.lt_or_eq_of_le (Nat.lt_succ_iff.1 hj) with hj | rfl
        · exact ht e.1 j h1j hj
        · exact e.2

theorem loadVec_wp {p : Ptr} {n : ℕ} {d : ℕ → ℝ} {h : Heap ℝ} (H : HoldsD h p n d) :
    wp (loadVec p n) (fun f h' => h' = h ∧ ∀ k, k < n → f k = d k) h := by
  unfold loadVec
  refine wp_forS (fun i (f : ℕ → ℝ) h' => h' = h ∧ ∀ k, k < i → f k = d k) ⟨rfl, fun k hk => by omega⟩ ?_ (fun f h' x => x)
  rintro i hi f h1 ⟨rfl, A⟩
  rw [wp_mbind, wp_ld]
  refine ⟨_, H i hi, ?_⟩
  rw [wp_pure]
  refine ⟨rfl, fun k hk => ?_⟩
  by_cases e : k = i
  · simp [e]
  · simp only [if_neg e]; exact A k (by omega)

theorem IsEigen.congr {n : ℕ} {a a' e e' lam : ℕ → ℝ} {v : ℕ → ℕ → ℝ} (E : IsEigen n a e lam v) (ha : ∀ k, k < n → a' k = a k)
    (he : ∀ k, k < n-1 → e' k = e k) : IsEigen n a' e' lam v := by
  refine ⟨fun i k hi hk => ?_, E.orth⟩
  rw [← E.eig i k hi hk, ha k hk]
  congr 1
  · congr 1
    split
    · rfl
    · rw [he _ (by omega)]
  · split
    · rw [he _ (by omega)]
    · rfl

/-- what is asked of the solver: if it reports success, the result is an orthonormal eigensystem -/
def SolvesEigen (S : EigenSolver ℝ) (n : ℕ) : Prop := ∀ d e, (S n d e).1 = 0 → IsEigen n d e (S n d e).2.1 (S n d e).2.2

/-- the solver reports success -/
def Succeeds (S : EigenSolver ℝ) (n : ℕ) : Prop := ∀ d e, (S n d e).1 = 0

theorem diagonalize_wp {S : EigenSolver ℝ} {n : ℕ} (hn : 1 ≤ n) (hS : n = 1 ∨ SolvesEigen S n) {diag off eig vec : Ptr} {h : Heap ℝ} {d e : ℕ → ℝ}
    (hd : HoldsD h diag n d) (he : HoldsD h off (n-1) e) (ae : AllocD h eig n) (av : AllocD h vec (n*n)) (ev : Disj eig n vec (n*n)) :
    wp (diagonalize S n diag off eig vec) (fun err h' => ∃ (lam : ℕ → ℝ) (v : ℕ → ℕ → ℝ), HoldsD h' eig n lam ∧
      (∀ i, i < n → h'.D (vec + i*n) = .val (v i 0)) ∧ From h (fun q => Blk eig n q ∨ Blk vec (n*n) q) h' ∧
      (err = 0 → IsEigen n d e lam v) ∧ (n = 1 ∨ Succeeds S n → err = 0)) h := by
  unfold diagonalize
  by_cases h1 : n = 1
  · subst h1
    rw [if_pos rfl]
    simp only [wp_mbind, wp_ld, wp_st, wp_pure]
    have F1 := From.set' (From.refl h (fun q => Blk eig 1 q ∨ Blk vec (1*1) q)) (q := eig) (d 0) (Or.inl ⟨0, by omega, rfl⟩)
    refine ⟨_, hd 0 (by omega), ae 0 (by omega), F1.al _ (av 0 (by omega)), fun k => d k, fun _ _ => 1, fun k hk => ?_, fun i hi => ?_,
      From.set' F1 _ (Or.inr ⟨0, by omega, rfl⟩), fun _ => ⟨fun i k hi hk => ?_, fun i j hi hj => ?_⟩, fun _ => trivial⟩
    · obtain rfl : k = 0 := by omega
      rw [Ptr.add_zero, Heap.setD_D_ne _ _ (show eig ≠ vec from ev 0 0 (by omega) (by omega)), Heap.setD_D_self]
    · obtain rfl : i = 0 := by omega
      rw [Nat.zero_mul, Ptr.add_zero, Heap.setD_D_self]
    · obtain rfl : k = 0 := by omega
      obtain rfl : i = 0 := by omega
      simp
    · obtain rfl : j = 0 := by omega
      obtain rfl : i = 0 := by omega
      simp
  · rw [if_neg h1, wp_mbind]
    refine wp_mono (loadVec_wp hd) ?_
    rintro d' _ ⟨rfl, hd'⟩
    rw [wp_mbind]
    refine wp_mono (loadVec_wp he) ?_
    rintro e' h ⟨rfl, he'⟩
    dsimp only
    rw [wp_mbind]
    have A := PolyFits.wp_stores (n := n) (f := fun i => (pure ((S n d' e').2.1 i) : Prog ℝ ℝ)) (addr := fun i => eig + i) (v := fun i => (S n d' e').2.1 i)
      (h := h) (fun i j e => (Ptr.add_right_inj _ _ _).1 e) ae (fun i hi h1 _ => ⟨rfl, rfl⟩)
    refine wp_mono A ?_
    intro _ h2 H2
    rw [wp_mbind]
    have F2 : From h (fun q => Blk eig n q ∨ Blk vec (n*n) q) h2 := from_assigned (From.refl _ _) H2 (fun k hk => Or.inl ⟨k, hk, rfl⟩)
    have idx : ∀ i k, i < n → k < n → i*n + k < n*n := fun i k hi hk => by nlinarith
    refine wp_forN (fun i h' => From h (fun q => Blk eig n q ∨ Blk vec (n*n) q) h' ∧ HoldsD h' eig n (S n d' e').2.1 ∧
      ∀ j, j < i → h'.D (vec + j*n) = .val ((S n d' e').2.2 j 0)) ⟨F2, H2.val, fun j hj => by omega⟩ ?_ ?_
    · rintro i hi h3 ⟨F3, E3, V3⟩
      have B := PolyFits.wp_stores (n := n) (f := fun k => (pure ((S n d' e').2.2 i k) : Prog ℝ ℝ)) (addr := fun k => vec + (i*n+k)) (v := fun k => (S n d' e').2.2 i k)
        (h := h3) (fun k j e => by have := (Ptr.add_right_inj _ _ _).1 e; omega) (fun k hk => F3.al _ (av _ (idx i k hi hk))) (fun i hi h1 _ => ⟨rfl, rfl⟩)
      refine wp_mono B ?_
      intro _ h4 H4
      refine ⟨from_assigned F3 H4 (fun k hk => Or.inr ⟨_, idx i k hi hk, rfl⟩), fun k hk => ?_, fun j hj => ?_⟩
      · rw [H4.frame _ (fun k' hk' => ev k _ hk (idx i k' hi hk'))]; exact E3 k hk
      · rcases Nat.lt_or_eq_of_le (Nat.lt_succ_iff.1 hj) with hj | rfl
        · rw [H4.frame _ (fun k' hk' e => by
            have := (Ptr.add_right_inj _ _ _).1 e
            have : (j+1)*n ≤ i*n := Nat.mul_le_mul_right _ hj
            rw [Nat.add_mul, Nat.one_mul] at this
            omega)]
          exact V3 j hj
        · have := H4.val 0 (by show 0 < n; omega)
          simpa using this
    · rintro h3 ⟨F3, E3, V3⟩
      rw [wp_pure]
      refine ⟨_, _, E3, V3, F3, fun hz => ?_, fun hx => ?_⟩
      · exact IsEigen.congr ((hS.resolve_left h1) d' e' hz) (fun k hk => (hd' k hk).symm) (fun k hk => (he' k hk).symm)
      · exact (hx.resolve_left h1) d' e'

theorem finish_wp {n : ℕ} {mu0 : ℝ} {c0 roots weights : Ptr} {h h0 : Heap ℝ} {R : Ptr → Prop} {lam : ℕ → ℝ} {v : ℕ → ℕ → ℝ} (F : From h0 R h)
    (hl : HoldsD h roots n lam) (hv : ∀ i, i < n → h.D (c0 + i*n) = .val (v i 0)) (hw : AllocD h weights n)
    (Rr : ∀ i, i < n → R (roots + i)) (Rw : ∀ i, i < n → R (weights + i)) (rw_ : Disj roots n weights n) (rc : Disj roots n c0 (n*n)) (wc : Disj weights n c0 (n*n)) :
    wp (forN n fun i => finishRoot n mu0 c0 roots weights i) (fun _ h' => From h0 R h' ∧ HoldsD h' roots n (fun k => lam k / (1 - lam k)) ∧
      HoldsD h' weights n (fun k => v k 0 * v k 0 * mu0)) h := by
  have idx : ∀ i, i < n → i*n < n*n := fun i hi => by nlinarith
  refine wp_forN (fun i h' => From h0 R h' ∧ AllocD h' weights n ∧ (∀ k, k < n → h'.D (c0 + k*n) = .val (v k 0)) ∧ (∀ k, k < i → h'.D (roots + k) = .val (lam k / (1 - lam k))) ∧
    (∀ k, i ≤ k → k < n → h'.D (roots + k) = .val (lam k)) ∧ ∀ k, k < i → h'.D (weights + k) = .val (v k 0 * v k 0 * mu0))
    ⟨F, hw, hv, fun k hk => by omega, fun k _ hk => hl k hk, fun k hk => by omega⟩ ?_ (fun h' H => ⟨H.1, H.2.2.2.1, H.2.2.2.2.2⟩)
  rintro i hi h2 ⟨F2, W2, C2, A, B, D⟩
  unfold finishRoot
  simp only [wp_mbind, wp_ld, wp_st]
  refine ⟨_, B i le_rfl hi, by rw [B i le_rfl hi]; simp, v i 0, by rw [Heap.setD_D_ne _ _ (fun e => rc i _ hi (idx i hi) e.symm)]; exact C2 i hi,
    by rw [Heap.setD_D_ne _ _ (fun e => rw_ i i hi hi e.symm)]; exact W2 i hi, From.set' (From.set' F2 _ (Rr i hi)) _ (Rw i hi), fun k hk => ?_, fun k hk => ?_,
    fun k hk => ?_, fun k hk hk' => ?_, fun k hk => ?_⟩
  · rw [Heap.setD_D]
    split
    · simp
    · rw [Heap.setD_D_ne _ _ (fun e => rw_ i k hi hk e.symm)]; exact W2 k hk
  · rw [Heap.setD_D_ne _ _ (fun e => wc i _ hi (idx k hk) e.symm), Heap.setD_D_ne _ _ (fun e => rc i _ hi (idx k hk) e.symm)]; exact C2 k hk
  · rw [Heap.setD_D_ne _ _ (rw_ k i (by omega) hi), Heap.setD_D]
    split
    · rename_i e; rw [(Ptr.add_right_inj _ _ _).1 e]
    · rename_i e; exact A k (lt_of_le_of_ne (by omega) (fun x => e (by rw [x])))
  · rw [Heap.setD_D_ne _ _ (rw_ k i (by omega) hi), Heap.setD_D_ne _ _ (fun e => by have := (Ptr.add_right_inj _ _ _).1 e; omega)]
    exact B k (by omega) hk'
  · rw [Heap.setD_D]
    split
    · rename_i e; rw [(Ptr.add_right_inj _ _ _).1 e]
    · rename_i e
      rw [Heap.setD_D_ne _ _ (fun x => rw_ i k hi (by omega) x.symm)]
      exact D k (lt_of_le_of_ne (by omega) (fun x => e (by rw [x])))

/-- the memory of `wheelerPartial`: `a` has room for `2n`, `da` for `2n + n*n`, `buf` for `4n` numbers -/
structure PartMem (h : Heap ℝ) (n : ℕ) (alpha beta moments a da buf roots weights : Ptr) : Prop where
  al_m : AllocD h moments (2*n)
  al_a : AllocD h a (2*n)
  al_da : AllocD h da (2*n + n*n)
  al_buf : AllocD h buf (4*n)
  al_r : AllocD h roots n
  al_w : AllocD h weights n
  m_al : Disj moments (2*n) alpha (2*n-1)
  m_be : Disj moments (2*n) beta (2*n-1)
  m_a : Disj moments (2*n) a (2*n)
  m_da : Disj moments (2*n) da (2*n + n*n)
  m_buf : Disj moments (2*n) buf (4*n)
  m_r : Disj moments (2*n) roots n
  m_w : Disj moments (2*n) weights n
  buf_al : Disj buf (4*n) alpha (2*n-1)
  buf_be : Disj buf (4*n) beta (2*n-1)
  buf_a : Disj buf (4*n) a (2*n)
  a_al : Disj a (2*n) alpha (2*n-1)
  a_be : Disj a (2*n) beta (2*n-1)
  a_da : Disj a (2*n) da (2*n + n*n)
  a_r : Disj a (2*n) roots n
  a_w : Disj a (2*n) weights n
  da_r : Disj da (2*n + n*n) roots n
  da_w : Disj da (2*n + n*n) weights n
  r_w : Disj roots n weights n

/-- the cells `wheelerPartial` may write -/
def PartW (n : ℕ) (moments a da buf roots weights : Ptr) (q : Ptr) : Prop :=
  Blk moments (2*n) q ∨ Blk a (2*n) q ∨ Blk da (2*n + n*n) q ∨ Blk buf (4*n) q ∨ Blk roots n q ∨ Blk weights n q

theorem From.trans' {h0 h1 h2 : Heap ℝ} {R1 R2 R : Ptr → Prop} (F1 : From h0 R1 h1) (F2 : From h1 R2 h2) (i1 : ∀ q, R1 q → R q) (i2 : ∀ q, R2 q → R q) :
    From h0 R h2 :=
  ⟨fun q hq => by rw [F2.D q (fun x => hq (i2 q x)), F1.D q (fun x => hq (i1 q x))], fun q hq => F2.al q (F1.al q hq), by rw [F2.I, F1.I]⟩

theorem wheelerPartial_wp {L : ℝ[X] →ₗ[ℝ] ℝ} (hL : PosFun L) {al be : ℕ → ℝ} {thr : ℝ} {S : EigenSolver ℝ} {n : ℕ} (hn : 1 ≤ n)
    (hS : n = 1 ∨ SolvesEigen S n) {alpha beta moments a da buf roots weights : Ptr} {h : Heap ℝ}
    (M : PartMem h n alpha beta moments a da buf roots weights)
    (hal : HoldsD h alpha (2*n-1) al) (hbe : ∀ k, 0 < k → k < 2*n-1 → h.D (beta + k) = .val (be k))
    (hm : HoldsD h moments (2*n) (fun k => L (piP al be k))) :
    wp (wheelerPartial Real.sqrt thr S n alpha beta moments a da buf roots weights) (fun err h' =>
      From h (PartW n moments a da buf roots weights) h' ∧
      (err = 0 → ∃ lam w : ℕ → ℝ, HoldsD h' roots n (fun k => lam k / (1 - lam k)) ∧ HoldsD h' weights n w ∧
        (∀ k, k < n → 0 < lam k ∧ lam k < 1 ∧ 0 ≤ w k) ∧ ∀ F : ℝ[X], F.natDegree < 2*n → ∑ k ∈ Finset.range n, w k * F.eval (lam k) = L F) ∧
      ((∀ i j, 1 ≤ i → i < j → j < n → recB L i < thr → thr ≤ recB L j) → n = 1 ∨ Succeeds S n → err = 0) ∧
      ((∃ i j, 1 ≤ i ∧ i < j ∧ j < n ∧ recB L i < thr ∧ recB L j < thr) → err = n ∧ HoldsD h' roots n (fun _ => 0) ∧ HoldsD h' weights n (fun _ => 0))) h := by
  have an : ∀ i, a + n + i = a + (n + i) := fun i => Ptr.add_assoc _ _ _
  have RM : RecMem h n alpha beta moments a (a+n) buf := by
    refine ⟨M.al_m, M.al_buf, fun i hi => M.al_a i (by omega), fun i hi => by rw [an]; exact M.al_a _ (by omega), M.m_buf, M.m_al, M.m_be,
      fun i j hi hj => M.m_a i j hi (by omega), fun i j hi hj => by rw [an]; exact M.m_a i _ hi (by omega), M.buf_al, M.buf_be,
      fun i j hi hj => M.buf_a i j hi (by omega), fun i j hi hj => by rw [an]; exact M.buf_a i _ hi (by omega),
      fun i j hi hj e => ?_, fun i j hi hj => M.a_al i j (by omega) hj, fun i j hi hj => M.a_be i j (by omega) hj,
      fun i j hi hj => by rw [an]; exact M.a_al _ j (by omega) hj, fun i j hi hj => by rw [an]; exact M.a_be _ j (by omega) hj⟩
    rw [an] at e
    have := (Ptr.add_right_inj _ _ _).1 e
    omega
  have iW : ∀ q, RecW n moments a (a+n) buf q → PartW n moments a da buf roots weights q := by
    rintro q (hq | hq | ⟨i, hi, rfl⟩ | ⟨i, hi, rfl⟩)
    · exact Or.inl hq
    · exact Or.inr (Or.inr (Or.inr (Or.inl hq)))
    · exact Or.inr (Or.inl ⟨i, by omega, rfl⟩)
    · exact Or.inr (Or.inl ⟨n+i, by omega, an i⟩)
  have dn : ∀ i, da + n + i = da + (n + i) := fun i => Ptr.add_assoc _ _ _
  have d2n : ∀ i, da + 2*n + i = da + (2*n + i) := fun i => Ptr.add_assoc _ _ _
  let R : Ptr → Prop := fun q => Blk da (2*n + n*n) q ∨ Blk roots n q ∨ Blk weights n q
  have iR : ∀ q, R q → PartW n moments a da buf roots weights q := by
    rintro q (hq | hq | hq)
    · exact Or.inr (Or.inr (Or.inl hq))
    · exact Or.inr (Or.inr (Or.inr (Or.inr (Or.inl hq))))
    · exact Or.inr (Or.inr (Or.inr (Or.inr (Or.inr hq))))
  have Ra : ∀ i, i < 2*n → ¬ R (a + i) := by
    rintro i hi (⟨j, hj, e⟩ | ⟨j, hj, e⟩ | ⟨j, hj, e⟩)
    · exact M.a_da i j hi hj e
    · exact M.a_r i j hi hj e
    · exact M.a_w i j hi hj e
  unfold wheelerPartial
  dsimp only
  rw [wp_mbind, wp_ld]
  refine ⟨_, hm 0 (by omega), ?_⟩
  rw [wp_mbind]
  refine wp_mono (wheelerRecursion_wp hL hn RM hal hbe hm) ?_
  rintro _ h1 ⟨hA, hB, F1⟩
  simp only [wp_mbind, wp_ld, wp_st]
  refine ⟨_, hA 0 (by omega), F1.al _ (M.al_da 0 (by omega)), ?_⟩
  have Fd : From h1 R (h1.setD da (recA L 0)) := From.set' (From.refl _ _) _ (Or.inl ⟨0, by omega, rfl⟩)
  have P := prepare_wp (thr := thr) (R := R) (A := recA L) (B := recB L) (da := da) (db := da + n) (roots := roots) (weights := weights) hA hB
    (fun i hi => Ra i (by omega)) (fun i hi => by rw [an]; exact Ra _ (by omega))
    (fun i hi => F1.al _ (M.al_da i (by omega))) (fun i hi => by rw [dn]; exact F1.al _ (M.al_da _ (by omega)))
    (fun i hi => F1.al _ (M.al_r i hi)) (fun i hi => F1.al _ (M.al_w i hi))
    (fun i hi => Or.inl ⟨i, by omega, rfl⟩) (fun i hi => Or.inl ⟨n+i, by omega, dn i⟩)
    (fun i hi => Or.inr (Or.inl ⟨i, hi, rfl⟩)) (fun i hi => Or.inr (Or.inr ⟨i, hi, rfl⟩)) M.r_w
    (fun i j hi hj e => by rw [dn] at e; have := (Ptr.add_right_inj _ _ _).1 e; omega)
    (n-1) 1 true (h1.setD da (recA L 0)) (by omega) Fd
    (fun j hj => by obtain rfl : j = 0 := by omega
                    rw [Ptr.add_zero, Heap.setD_D_self])
    (fun j h1j hj => by omega) (fun e => by cases e) le_rfl (fun m j h1 h2 h3 => by omega) (fun _ j h1 h2 => by omega)
  refine wp_mono P ?_
  rintro sing h2 ⟨F2, P0, P1⟩
  cases sing with
  | true =>
    obtain ⟨z1, z2, j, j1, jn, jt, jx⟩ := P1 rfl
    rw [if_pos rfl, wp_pure]
    obtain ⟨m, m1, m2, m3⟩ := jx.resolve_left (not_lt.2 (recB_pos hL (by omega)).le)
    refine ⟨From.trans' F1 F2 iW iR, fun e => by omega, fun hx => ?_, fun _ => ⟨rfl, z1, z2⟩⟩
    exact absurd jt (not_lt.2 (hx m j m1 m2 jn m3))
  | false =>
    obtain ⟨hd, hdb, hpair⟩ := P0 rfl
    rw [if_neg (by decide), wp_mbind]
    have F12 : From h (PartW n moments a da buf roots weights) h2 := From.trans' F1 F2 iW iR
    have D := diagonalize_wp hn hS (diag := da) (off := da + n + 1) (eig := roots) (vec := da + 2*n) (h := h2) (d := recA L)
      (e := fun k => Real.sqrt (recB L (k+1))) hd
      (fun k hk => by have := hdb (k+1) (by omega) (by omega); rwa [Nat.add_comm k 1, ← Ptr.add_assoc, Nat.add_comm 1 k] at this)
      (fun i hi => F12.al _ (M.al_r i hi)) (fun i hi => by rw [d2n]; exact F12.al _ (M.al_da _ (by omega)))
      (fun i j hi hj => by rw [d2n]; exact fun e => M.da_r _ i (by omega) hi e.symm)
    refine wp_mono D ?_
    rintro err h3 ⟨lam, v, E1, E2, F3, E4, E5⟩
    have F13 : From h (PartW n moments a da buf roots weights) h3 := by
      refine From.trans' F12 F3 (fun q x => x) ?_
      rintro q (hq | ⟨i, hi, rfl⟩)
      · exact Or.inr (Or.inr (Or.inr (Or.inr (Or.inl hq))))
      · exact Or.inr (Or.inr (Or.inl ⟨2*n+i, by omega, d2n i⟩))
    rw [wp_mbind]
    refine wp_mono (finish_wp (v := v) F13 E1 E2 (fun i hi => F13.al _ (M.al_w i hi))
      (fun i hi => iR _ (Or.inr (Or.inl ⟨i, hi, rfl⟩))) (fun i hi => iR _ (Or.inr (Or.inr ⟨i, hi, rfl⟩))) M.r_w
      (fun i j hi hj => by rw [d2n]; exact fun e => M.da_r _ i (by omega) hi e.symm)
      (fun i j hi hj => by rw [d2n]; exact fun e => M.da_w _ i (by omega) hi e.symm)) ?_
    rintro _ h4 ⟨F4, R4, W4⟩
    rw [wp_pure]
    refine ⟨F4, fun e0 => ?_, fun _ hx => E5 hx, ?_⟩
    · obtain ⟨g1, g2⟩ := golub_welsch hL (E4 e0)
      have h1L : 0 ≤ L 1 := (hL 1 one_ne_zero (fun s _ _ => by rw [eval_one]; exact zero_le_one)).le
      refine ⟨lam, fun k => v k 0 * v k 0 * L 1, R4, W4, fun k hk => ⟨(g1 k hk).1, (g1 k hk).2, mul_nonneg (mul_self_nonneg _) h1L⟩, g2⟩
    · rintro ⟨i, j, hi, hij, hj, x1, x2⟩
      exact absurd x2 (not_lt.2 (hpair i j hi hij hj x1))

theorem lagQ_succ (t y : ℝ) (k : ℕ) : lagQ t y (k+1) = (y - (((k+1 : ℕ) : ℝ)*4-1) * (1/2/t)) * lagQ t y k -
    (((k+1 : ℕ) : ℝ)-1) * (((k+1 : ℕ) : ℝ)*2-1) * (1/2/(t*t)) * (if k = 0 then 0 else lagQ t y (k-1)) := by
  cases k with
  | zero => simp only [lagQ]; norm_num
  | succ k => rw [if_neg (by omega), Nat.add_sub_cancel]; rfl

/-- the first `na` coefficients and `nm` moments are there -/
structure LagPre (h0 : Heap ℝ) (R : Ptr → Prop) (n : ℕ) (alpha beta moments : Ptr) (A B m : ℕ → ℝ) (na nm : ℕ) (h : Heap ℝ) : Prop where
  fr : From h0 R h
  a : ∀ k, k < na → h.D (alpha + k) = .val (A k)
  b : ∀ k, k < na → h.D (beta + k) = .val (B k)
  m : ∀ k, k < nm → h.D (moments + k) = .val (m k)

section
variable {h0 h : Heap ℝ} {R : Ptr → Prop} {n na nm : ℕ} {alpha beta moments : Ptr} {A B m : ℕ → ℝ}

theorem LagPre.setM (H : LagPre h0 R n alpha beta moments A B m na nm h) (hm : nm < n) (ha : na ≤ n-1) (Rm : ∀ i, i < n → R (moments + i))
    (ma : Disj moments n alpha (n-1)) (mb : Disj moments n beta (n-1)) :
    LagPre h0 R n alpha beta moments A B m na (nm+1) (h.setD (moments + nm) (m nm)) := by
  refine ⟨From.set' H.fr _ (Rm nm hm), fun k hk => ?_, fun k hk => ?_, fun k hk => ?_⟩
  · rw [Heap.setD_D_ne _ _ (fun e => ma nm k hm (by omega) e.symm)]; exact H.a k hk
  · rw [Heap.setD_D_ne _ _ (fun e => mb nm k hm (by omega) e.symm)]; exact H.b k hk
  · rw [Heap.setD_D]
    split
    · rename_i e; rw [(Ptr.add_right_inj _ _ _).1 e]
    · rename_i e; exact H.m k (lt_of_le_of_ne (by omega) (fun x => e (by rw [x])))

theorem LagPre.setAB (H : LagPre h0 R n alpha beta moments A B m na nm h) (hm : nm ≤ n) (ha : na < n-1)
    (Ra : ∀ i, i < n-1 → R (alpha + i)) (Rb : ∀ i, i < n-1 → R (beta + i))
    (ab : Disj alpha (n-1) beta (n-1)) (ma : Disj moments n alpha (n-1)) (mb : Disj moments n beta (n-1)) :
    LagPre h0 R n alpha beta moments A B m (na+1) nm ((h.setD (alpha + na) (A na)).setD (beta + na) (B na)) := by
  refine ⟨From.set' (From.set' H.fr _ (Ra na ha)) _ (Rb na ha), fun k hk => ?_, fun k hk => ?_, fun k hk => ?_⟩
  · rw [Heap.setD_D_ne _ _ (ab k na (by omega) ha), Heap.setD_D]
    split
    · rename_i e; rw [(Ptr.add_right_inj _ _ _).1 e]
    · rename_i e; exact H.a k (lt_of_le_of_ne (by omega) (fun x => e (by rw [x])))
  · rw [Heap.setD_D]
    split
    · rename_i e; rw [(Ptr.add_right_inj _ _ _).1 e]
    · rename_i e
      rw [Heap.setD_D_ne _ _ (fun x => ab na k ha (by omega) x.symm)]
      exact H.b k (lt_of_le_of_ne (by omega) (fun x => e (by rw [x])))
  · rw [Heap.setD_D_ne _ _ (mb k na (by omega) ha), Heap.setD_D_ne _ _ (ma k na (by omega) ha)]; exact H.m k hk
end

theorem laguerreMoments_wp {L : BoysLib ℝ} (hL : LibExact L) {t l : ℝ} (ht : 0 < t) {n : ℕ} (hn : 2 ≤ n) {alpha beta moments : Ptr} {h h0 : Heap ℝ}
    {R : Ptr → Prop} (F : From h0 R h) (ha : AllocD h0 alpha (n-1)) (hb : AllocD h0 beta (n-1)) (hm : AllocD h0 moments n)
    (Ra : ∀ i, i < n-1 → R (alpha + i)) (Rb : ∀ i, i < n-1 → R (beta + i)) (Rm : ∀ i, i < n → R (moments + i))
    (ab : Disj alpha (n-1) beta (n-1)) (ma : Disj moments n alpha (n-1)) (mb : Disj moments n beta (n-1)) :
    wp (laguerreMoments L n t l alpha beta moments) (fun _ h' => From h0 R h' ∧ HoldsD h' alpha (n-1) (lagA t) ∧ HoldsD h' beta (n-1) (lagB t) ∧
      HoldsD h' moments n (fun k => rysL t l (piP (lagA t) (lagB t) k))) h := by
  have msr : ∀ k, (if (! decide (l = 0)) = true then lagQ t (l*l) k * (L.exp (-t*(l*l)) * l * (1/2/t)) - lagQ t 1 k * (L.exp (-t) * (1/2/t)) else
      -lagQ t 1 k * (L.exp (-t) * (1/2/t))) = rysL t l (piP (lagA t) (lagB t) (k+1)) := fun k => by
    rw [lag_moment t ht.ne', hL.exp, hL.exp]
    by_cases h0 : l = 0
    · simp [h0]
    · simp [h0]
  have m0 : (if (! decide (l = 0)) = true then L.sqrtpie4 / L.sqrt t * (L.erfc (l*L.sqrt t) - L.erfc (L.sqrt t)) else L.sqrtpie4 / L.sqrt t * L.erf (L.sqrt t)) =
      rysL t l (piP (lagA t) (lagB t) 0) := by
    show _ = rysL t l 1
    rw [rysL_one t ht, hL.sqrt, hL.pi, hL.erf, hL.erfc, hL.erfc]
    by_cases h0 : l = 0
    · subst h0; simp [Spec.erf]
    · simp only [h0, decide_false, Bool.not_false, if_true]
      unfold Spec.erfc
      ring
  have m1 : (if (! decide (l = 0)) = true then L.exp (-t*(l*l)) * l * (1/2/t) - L.exp (-t) * (1/2/t) else -(L.exp (-t) * (1/2/t))) =
      rysL t l (piP (lagA t) (lagB t) 1) := by
    rw [← msr 0]; simp only [lagQ, one_mul, neg_mul]
  unfold laguerreMoments
  dsimp only
  rw [m0, m1]
  simp only [wp_mbind, wp_st]
  have e0 : (1/2/t : ℝ) = lagA t 0 := by unfold lagA; simp
  have f0 : (0:ℝ) = lagB t 0 := by unfold lagB; simp
  have P0 : LagPre h0 R n alpha beta moments (lagA t) (lagB t) (fun k => rysL t l (piP (lagA t) (lagB t) k)) 0 0 h :=
    ⟨F, fun k hk => by omega, fun k hk => by omega, fun k hk => by omega⟩
  have P1 := P0.setAB (by omega) (by omega) Ra Rb ab ma mb
  have P2 := P1.setM (by omega) (by omega) Rm ma mb
  have P3 := P2.setM (by omega) (by omega) Rm ma mb
  have H1 := From.set' F (lagA t 0) (Ra 0 (by omega))
  refine ⟨F.al _ (ha 0 (by omega)), ?_, ?_, ?_, ?_⟩
  · rw [e0]; exact H1.al _ (hb 0 (by omega))
  · rw [e0]
    have := P1.fr.al _ (hm 0 (by omega))
    rw [← f0] at this
    exact this
  · rw [e0]
    have := P2.fr.al _ (hm 1 (by omega))
    rw [← f0] at this
    exact this
  have P3' : LagPre h0 R n alpha beta moments (lagA t) (lagB t) (fun k => rysL t l (piP (lagA t) (lagB t) k)) 1 2
      ((((h.setD alpha (1/2/t)).setD beta 0).setD moments (rysL t l (piP (lagA t) (lagB t) 0))).setD (moments + 1) (rysL t l (piP (lagA t) (lagB t) 1))) := by
    have := P3
    rw [← f0, ← e0] at this
    exact this
  refine wp_forS (fun k (s : ℝ × ℝ × ℝ × ℝ) h' => LagPre h0 R n alpha beta moments (lagA t) (lagB t) (fun k => rysL t l (piP (lagA t) (lagB t) k)) (k+1) (k+2) h' ∧
    s = (if k = 0 then 0 else lagQ t 1 (k-1), lagQ t 1 k, if k = 0 then 0 else lagQ t (l*l) (k-1), lagQ t (l*l) k)) ⟨P3', rfl⟩ ?_ ?_
  · rintro k hk s h1 ⟨P, rfl⟩
    unfold laguerreStep
    dsimp only
    have q1 := lagQ_succ t 1 k
    have q2 := lagQ_succ t (l*l) k
    have ea : ((k+1 : ℕ) : ℝ) * 4 + 1 = ((k+1 : ℕ) : ℝ) * 4 + 1 := rfl
    rw [← q1, ← q2, msr (k+1), show (((k+1 : ℕ) : ℝ) * 4 + 1) * (1/2/t) = lagA t (k+1) from rfl,
      show ((k+1 : ℕ) : ℝ) * (((k+1 : ℕ) : ℝ) * 2 - 1) * (1/2/(t*t)) = lagB t (k+1) from rfl]
    simp only [wp_mbind, wp_st, wp_pure]
    have Q1 := P.setAB (by omega) (by omega) Ra Rb ab ma mb
    have Q2 := Q1.setM (by omega) (by omega) Rm ma mb
    refine ⟨P.fr.al _ (ha _ (by omega)), (From.set' P.fr _ (Ra (k+1) (by omega))).al _ (hb _ (by omega)), Q1.fr.al _ (hm _ (by omega)), Q2, ?_⟩
    rw [if_neg (by omega), if_neg (by omega), Nat.add_sub_cancel]
  · rintro s h1 ⟨P, -⟩
    rw [wp_pure]
    exact ⟨P.fr, fun k hk => P.a k (by omega), fun k hk => P.b k (by omega), fun k hk => P.m k (by omega)⟩

end Verif.Lemmas.Wheeler
