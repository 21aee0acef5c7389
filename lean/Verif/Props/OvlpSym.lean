import Verif.Props.Ovlp

/-!
C22 — the overlap matrix is symmetric.
C23 — overlap integrals are invariant under a common shift of all centres.
-/
namespace Verif.Props
open Verif Verif.Model Verif.Prog Verif.Lemmas Verif.Spec MeasureTheory

/-- the call with the two shells exchanged -/
def swapCall (s : Call ℝ) : Call ℝ := { s with si := s.sj, sj := s.si }

/-- a shell moved by `v` -/
def shiftShell (v : Nat → ℝ) (t : PShell ℝ) : PShell ℝ := { t with r := fun c => t.r c + v c }
/-- the call with both shells moved by `v` -/
def shiftCall (v : Nat → ℝ) (s : Call ℝ) : Call ℝ := { s with si := shiftShell v s.si, sj := shiftShell v s.sj }

/-- Where and with what memory int1e_ovlp_cart is called; the memory, cache size and output arrays of
different calls need not have anything in common. -/
structure OvlpCall (s : Call ℝ) where
  fpd : Nat
  buf : Nat
  size : Nat
  fl : Ptr
  loc : Ptr
  counts : Ptr
  out : Ptr
  dims : Option Ptr
  nd : Nat → Nat
  h : Heap ℝ
  hs : Sizes 2 (two (ncart s.si.l) (ncart s.sj.l)) (two s.si.nctr s.sj.nctr) nd
  M : CallMem h fpd buf size fl loc counts
  hsize : cacheSize1e ovlpInt s ≤ size
  O : OutArg h nd (fun t => two (ncart s.si.l) (ncart s.sj.l) t * two s.si.nctr s.sj.nctr t) 1 out dims
      buf fl loc counts

/-- the call is made and ends with memory `h'` -/
def OvlpCall.Ends {s : Call ℝ} (A : OvlpCall s) (L : MathLib ℝ) (h' : Heap ℝ) : Prop :=
  ∃ has, run (drv1e ovlpInt s realK L A.fpd (fun _ _ => pure) (two (ncart s.si.l) (ncart s.sj.l)) A.out A.dims
        A.buf 0 A.fl A.loc A.counts) A.h = some (has, h')

/-- content of the output array for function `i` of contraction `ic` and function `j` of `jc` -/
def OvlpCall.elem {s : Call ℝ} (A : OvlpCall s) (h' : Heap ℝ) (ic i jc j : Nat) : Cell ℝ :=
  h'.D (A.out + outAt A.nd 0 (ic*ncart s.si.l+i) (jc*ncart s.sj.l+j) 0 0)

theorem ovlpCall_value {L : MathLib ℝ} {s : Call ℝ} (A : OvlpCall s) {mi mj : Nat → ℝ} (hL : L.exp = Real.exp)
    (hi : MaxCoeff s.si mi) (hj : MaxCoeff s.sj mj)
    (hpos : ∀ ip jp, ip < s.si.nprim → jp < s.sj.nprim → 0 < s.si.a ip + s.sj.a jp)
    (hli : s.si.l ≤ 15) (hlj : s.sj.l ≤ 15) :
    ∃ h', A.Ends L h' ∧
      ∀ ic jc i j, ic < s.si.nctr → jc < s.sj.nctr → i < ncart s.si.l → j < ncart s.sj.l →
        A.elem h' ic i jc j = .val (spNorm s.si.l * spNorm s.sj.l * contract2 s.si.nprim s.sj.nprim s.si.c s.sj.c (fun ip jp =>
            open Classical in if Kept L s mi mj (s.si.l + s.sj.l) ip jp then
              braket (gto (s.si.a ip) (centre s.si) (powers s.si.l i))
                (gto (s.sj.a jp) (centre s.sj) (powers s.sj.l j)) else 0) ic jc) := by
  obtain ⟨has, h', h1, h2⟩ := C21_overlap hL hi hj hpos hli hlj A.hs A.M A.hsize A.O
  exact ⟨h', ⟨has, h1⟩, h2⟩

theorem maxCoeff_exists (t : PShell ℝ) : MaxCoeff t (fun ip => maxAbsC t.c t.nprim ip t.nctr) :=
  fun ip _ => maxAbsC_spec t ip

theorem braket_symm (f g : (Fin 3 → ℝ) → ℝ) : braket f g = braket g f := by
  unfold braket
  congr 1; funext r; ring

theorem contract2_swap (ni nj : ℕ) (ci cj : ℕ → ℝ) (f : ℕ → ℕ → ℝ) (ic jc : ℕ) :
    contract2 ni nj ci cj f ic jc = contract2 nj ni cj ci (fun jp ip => f ip jp) jc ic := by
  unfold contract2
  rw [Finset.sum_comm]
  refine Finset.sum_congr rfl (fun _ _ => Finset.sum_congr rfl (fun _ _ => by ring))

/-- **C22** int1e_ovlp_cart of shells (j,i) is the transpose of that of (i,j): for any two calls, in any
memory, both complete and the elements agree. -/
theorem C22_symmetric {L : MathLib ℝ} {s : Call ℝ} (A : OvlpCall s) (B : OvlpCall (swapCall s))
    (hL : L.exp = Real.exp)
    (hpos : ∀ ip jp, ip < s.si.nprim → jp < s.sj.nprim → 0 < s.si.a ip + s.sj.a jp)
    (hli : s.si.l ≤ 15) (hlj : s.sj.l ≤ 15) :
    ∃ h1 h2, A.Ends L h1 ∧ B.Ends L h2 ∧
      ∀ ic jc i j, ic < s.si.nctr → jc < s.sj.nctr → i < ncart s.si.l → j < ncart s.sj.l →
        ∃ x, A.elem h1 ic i jc j = .val x ∧ B.elem h2 jc j ic i = .val x := by
  obtain ⟨h1, r1, v1⟩ := ovlpCall_value A hL (maxCoeff_exists s.si) (maxCoeff_exists s.sj) hpos hli hlj
  obtain ⟨h2, r2, v2⟩ := ovlpCall_value B hL (maxCoeff_exists s.sj) (maxCoeff_exists s.si)
    (fun ip jp h1 h2 => by rw [add_comm]; exact hpos jp ip h2 h1) hlj hli
  refine ⟨h1, h2, r1, r2, fun ic jc i j a b c d => ⟨_, v1 ic jc i j a b c d, ?_⟩⟩
  rw [v2 jc ic j i b a d c]
  congr 1
  rw [mul_comm (spNorm s.si.l), contract2_swap]
  congr 2
  funext ip jp
  have : Kept L (swapCall s) (fun ip => maxAbsC s.sj.c s.sj.nprim ip s.sj.nctr)
      (fun ip => maxAbsC s.si.c s.si.nprim ip s.si.nctr) ((swapCall s).si.l + (swapCall s).sj.l) jp ip ↔
    Kept L s (fun ip => maxAbsC s.si.c s.si.nprim ip s.si.nctr)
      (fun ip => maxAbsC s.sj.c s.sj.nprim ip s.sj.nctr) (s.si.l + s.sj.l) ip jp := by
    unfold Kept
    rw [est_symm]
    show est L s.si s.sj _ _ (rr2 s.sj.r s.si.r) s.omega (s.sj.l + s.si.l) ip jp < _ ↔ _
    rw [rr2_symm, add_comm s.sj.l]
    rfl
  rw [braket_symm]
  by_cases hk : Kept L s (fun ip => maxAbsC s.si.c s.si.nprim ip s.si.nctr)
      (fun ip => maxAbsC s.sj.c s.sj.nprim ip s.sj.nctr) (s.si.l + s.sj.l) ip jp
  · rw [if_pos hk, if_pos (this.2 hk)]; rfl
  · rw [if_neg hk, if_neg (fun x => hk (this.1 x))]

theorem gto_shift (a : ℝ) (A v : Fin 3 → ℝ) (n : Fin 3 → ℕ) (r : Fin 3 → ℝ) :
    gto a (fun k => A k + v k) n (r + v) = gto a A n r := by
  unfold gto
  simp

theorem braket_shift (a b : ℝ) (A B v : Fin 3 → ℝ) (n m : Fin 3 → ℕ) :
    braket (gto a (fun k => A k + v k) n) (gto b (fun k => B k + v k) m) = braket (gto a A n) (gto b B m) := by
  unfold braket
  rw [← integral_add_right_eq_self (fun r => gto a (fun k => A k + v k) n r * gto b (fun k => B k + v k) m r) v]
  simp only [gto_shift]

/-- **C23** Moving both shells by the same vector changes no overlap integral (and no screening
decision). -/
theorem C23_translation {L : MathLib ℝ} {s : Call ℝ} (v : Nat → ℝ) (A : OvlpCall s) (B : OvlpCall (shiftCall v s))
    (hL : L.exp = Real.exp)
    (hpos : ∀ ip jp, ip < s.si.nprim → jp < s.sj.nprim → 0 < s.si.a ip + s.sj.a jp)
    (hli : s.si.l ≤ 15) (hlj : s.sj.l ≤ 15) :
    ∃ h1 h2, A.Ends L h1 ∧ B.Ends L h2 ∧
      ∀ ic jc i j, ic < s.si.nctr → jc < s.sj.nctr → i < ncart s.si.l → j < ncart s.sj.l →
        ∃ x, A.elem h1 ic i jc j = .val x ∧ B.elem h2 ic i jc j = .val x := by
  obtain ⟨h1, r1, v1⟩ := ovlpCall_value A hL (maxCoeff_exists s.si) (maxCoeff_exists s.sj) hpos hli hlj
  obtain ⟨h2, r2, v2⟩ := ovlpCall_value B hL (maxCoeff_exists (shiftShell v s.si))
    (maxCoeff_exists (shiftShell v s.sj)) hpos hli hlj
  refine ⟨h1, h2, r1, r2, fun ic jc i j a b c d => ⟨_, v1 ic jc i j a b c d, ?_⟩⟩
  rw [v2 ic jc i j a b c d]
  congr 3
  funext ip jp
  have hrr : rr2 (shiftShell v s.si).r (shiftShell v s.sj).r = rr2 s.si.r s.sj.r := by
    unfold rr2 shiftShell; dsimp only; ring
  have hK : Kept L (shiftCall v s) (fun ip => maxAbsC s.si.c s.si.nprim ip s.si.nctr)
      (fun ip => maxAbsC s.sj.c s.sj.nprim ip s.sj.nctr) (s.si.l + s.sj.l) ip jp ↔
    Kept L s (fun ip => maxAbsC s.si.c s.si.nprim ip s.si.nctr)
      (fun ip => maxAbsC s.sj.c s.sj.nprim ip s.sj.nctr) (s.si.l + s.sj.l) ip jp := by
    unfold Kept
    show est L (shiftShell v s.si) (shiftShell v s.sj) _ _ (rr2 (shiftShell v s.si).r (shiftShell v s.sj).r) _ _ _ _ < _ ↔ _
    rw [hrr]
    rfl
  have hB : braket (gto (s.si.a ip) (centre (shiftShell v s.si)) (powers s.si.l i))
      (gto (s.sj.a jp) (centre (shiftShell v s.sj)) (powers s.sj.l j)) =
      braket (gto (s.si.a ip) (centre s.si) (powers s.si.l i)) (gto (s.sj.a jp) (centre s.sj) (powers s.sj.l j)) :=
    braket_shift (s.si.a ip) (s.sj.a jp) (centre s.si) (centre s.sj) (fun k => v k) (powers s.si.l i) (powers s.sj.l j)
  by_cases hk : Kept L s (fun ip => maxAbsC s.si.c s.si.nprim ip s.si.nctr)
      (fun ip => maxAbsC s.sj.c s.sj.nprim ip s.sj.nctr) (s.si.l + s.sj.l) ip jp
  · rw [if_pos hk, ← hB]; exact if_pos (hK.2 hk)
  · rw [if_neg hk]; exact if_neg (fun x => hk (hK.1 x))

/-- **C23** for the pair data: prefactor and estimate are unchanged, the product centre moves along. -/
theorem C23_pairdata {L : MathLib ℝ} (v : Nat → ℝ) (s : Call ℝ) (X : Int1e ℝ) (ip jp : Nat)
    (hk : pairCC L (s.pairArgs X) ip jp < setijCutoff s.envCut) :
    pairVal L ((shiftCall v s).pairArgs X) ip jp 4 = pairVal L (s.pairArgs X) ip jp 4 ∧
    pairVal L ((shiftCall v s).pairArgs X) ip jp 3 = pairVal L (s.pairArgs X) ip jp 3 ∧
    ∀ c, c < 3 → pairVal L ((shiftCall v s).pairArgs X) ip jp c = pairVal L (s.pairArgs X) ip jp c + v c := by
  have hrr : ((shiftCall v s).pairArgs X).rr = (s.pairArgs X).rr := by
    show rr2 (shiftShell v s.si).r (shiftShell v s.sj).r = rr2 s.si.r s.sj.r
    unfold rr2 shiftShell; dsimp only; ring
  have hcc : pairCC L ((shiftCall v s).pairArgs X) ip jp = pairCC L (s.pairArgs X) ip jp := by
    unfold pairCC logRR
    rw [hrr]; rfl
  have hk2 : pairCC L ((shiftCall v s).pairArgs X) ip jp < ((shiftCall v s).pairArgs X).cutoff := by
    rw [hcc]; exact hk
  have hk1 : pairCC L (s.pairArgs X) ip jp < (s.pairArgs X).cutoff := hk
  refine ⟨?_, ?_, fun c hc => ?_⟩
  · unfold pairVal; simpa using hcc
  · unfold pairVal
    simp only [hk1, hk2, if_true, hrr]
    rfl
  · unfold pairVal
    simp only [hk1, hk2, if_true, show c ≠ 4 by omega, show c ≠ 3 by omega, if_false]
    show s.si.r c + v c + s.sj.a jp * (1/(s.si.a ip + s.sj.a jp)) * (s.sj.r c + v c - (s.si.r c + v c)) =
      s.si.r c + s.sj.a jp * (1/(s.si.a ip + s.sj.a jp)) * (s.sj.r c - s.si.r c) + v c
    ring

/-! ### The hypotheses can be met -/
namespace OvlpDemo
noncomputable def ovlpCall (s : Call ℝ) (h1 : 0 < s.si.nctr) (h2 : 0 < s.sj.nctr) : OvlpCall s where
  fpd := 1
  buf := 0
  size := cacheSize1e ovlpInt s
  fl := ⟨1, 0⟩
  loc := ⟨2, 0⟩
  counts := ⟨3, 0⟩
  out := ⟨5, 7⟩
  dims := none
  nd := fun t => two (ncart s.si.l) (ncart s.sj.l) t * two s.si.nctr s.sj.nctr t
  h := blank
  hs := by
    have hp : ∀ l, 0 < ncart l := fun l => by
      have : (l+1)*(l+2) = (l*l + 3*l) + 2 := by ring
      unfold ncart; omega
    refine ⟨Or.inl rfl, fun t _ => ?_, fun t _ => ?_, fun t a b => ?_, fun t _ => le_refl _⟩
    · unfold two; split
      · exact hp _
      · split
        · exact hp _
        · omega
    · unfold two; split
      · exact h1
      · split
        · exact h2
        · omega
    · unfold two; simp [show t ≠ 0 by omega, show t ≠ 1 by omega]
  M := ⟨by omega, fun k _ => by simp [blank], fun k _ => by simp [blank], fun k _ => by simp [blank],
    fun k _ => by simp [blank], fun k _ => by simp [blank], by decide, by decide⟩
  hsize := le_refl _
  O := { h_dims := fun t _ => rfl
         h_dims2 := fun d hd => nomatch hd
         h_dbuf := fun d hd => nomatch hd
         h_out := fun m _ => by simp [blank]
         h_obuf := by decide }

/-- the p and d shells of the demo call, in both orders -/
example : ∃ h1 h2, (ovlpCall call (by decide) (by decide)).Ends lib h1 ∧
    (ovlpCall (swapCall call) (by decide) (by decide)).Ends lib h2 ∧ ∃ x,
      (ovlpCall call (by decide) (by decide)).elem h1 1 2 0 4 = .val x ∧
      (ovlpCall (swapCall call) (by decide) (by decide)).elem h2 0 4 1 2 = .val x := by
  obtain ⟨h1, h2, a, b, c⟩ := C22_symmetric (ovlpCall call (by decide) (by decide))
    (ovlpCall (swapCall call) (by decide) (by decide)) (L := lib) rfl
    (fun _ _ _ _ => by show (0:ℝ) < 1 + 1; norm_num) (by decide) (by decide)
  exact ⟨h1, h2, a, b, c 1 0 2 4 (by decide) (by decide) (by decide) (by decide)⟩

example : ∃ h1 h2, (ovlpCall call (by decide) (by decide)).Ends lib h1 ∧
    (ovlpCall (shiftCall (fun c => c + 1) call) (by decide) (by decide)).Ends lib h2 ∧ ∃ x,
      (ovlpCall call (by decide) (by decide)).elem h1 1 2 0 4 = .val x ∧
      (ovlpCall (shiftCall (fun c => c + 1) call) (by decide) (by decide)).elem h2 1 2 0 4 = .val x := by
  obtain ⟨h1, h2, a, b, c⟩ := C23_translation (fun c => c + 1) (ovlpCall call (by decide) (by decide))
    (ovlpCall (shiftCall (fun c => c + 1) call) (by decide) (by decide)) (L := lib) rfl
    (fun _ _ _ _ => by show (0:ℝ) < 1 + 1; norm_num) (by decide) (by decide)
  exact ⟨h1, h2, a, b, c 1 0 2 4 (by decide) (by decide) (by decide) (by decide)⟩
end OvlpDemo

end Verif.Props
