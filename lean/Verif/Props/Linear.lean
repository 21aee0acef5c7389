import Verif.Props.EriExact

/-!
C37 — integrals are linear in the contraction coefficients of each shell.
-/
namespace Verif.Props
open Verif Verif.Model Verif.Prog Verif.Lemmas Verif.Spec MeasureTheory

/-- the shell with other contraction coefficients -/
def PShell.withC {α : Type} (t : PShell α) (c : Nat → α) : PShell α := { t with c := c }

/-- the call with other contraction coefficients in shell `t` -/
def setC4 {α : Type} (s : Call2 α) (t : Fin 4) (c : Nat → α) : Call2 α :=
  match t with
  | 0 => { s with si := PShell.withC s.si c }
  | 1 => { s with sj := PShell.withC s.sj c }
  | 2 => { s with sk := PShell.withC s.sk c }
  | 3 => { s with sl := PShell.withC s.sl c }

/-- the call with other contraction coefficients in shell `t` -/
def setC2 {α : Type} (s : Call α) (t : Fin 2) (c : Nat → α) : Call α :=
  match t with
  | 0 => { s with si := PShell.withC s.si c }
  | 1 => { s with sj := PShell.withC s.sj c }

/-- which primitives are screened for given contraction coefficients -/
def kept4 (L : MathLib ℝ) (s : Call2 ℝ) : Nat → Nat → Nat → Nat → Prop :=
  Kept4 L s (fun ip => maxAbsC s.si.c s.si.nprim ip s.si.nctr) (fun ip => maxAbsC s.sj.c s.sj.nprim ip s.sj.nctr)
    (fun ip => maxAbsC s.sk.c s.sk.nprim ip s.sk.nctr) (fun ip => maxAbsC s.sl.c s.sl.nprim ip s.sl.nctr)

theorem contract4_linear (t : Fin 4) (ni nj nk nl : ℕ) (c c1 c2 : ℕ → ℝ) (x y : ℝ) (hc : ∀ n, c n = x * c1 n + y * c2 n)
    (d0 d1 d2 d3 : ℕ → ℝ) (p : ℕ → ℕ → ℕ → ℕ → ℝ) (ic jc kc lc : ℕ) :
    contract4 ni nj nk nl (if t = 0 then c else d0) (if t = 1 then c else d1) (if t = 2 then c else d2)
        (if t = 3 then c else d3) p ic jc kc lc =
      x * contract4 ni nj nk nl (if t = 0 then c1 else d0) (if t = 1 then c1 else d1) (if t = 2 then c1 else d2)
        (if t = 3 then c1 else d3) p ic jc kc lc +
      y * contract4 ni nj nk nl (if t = 0 then c2 else d0) (if t = 1 then c2 else d1) (if t = 2 then c2 else d2)
        (if t = 3 then c2 else d3) p ic jc kc lc := by
  unfold contract4
  simp only [Finset.mul_sum, ← Finset.sum_add_distrib]
  refine Finset.sum_congr rfl fun lp _ => Finset.sum_congr rfl fun kp _ => Finset.sum_congr rfl fun jp _ =>
    Finset.sum_congr rfl fun ip _ => ?_
  fin_cases t <;> simp [hc] <;> ring

theorem contract2_linear (t : Fin 2) (ni nj : ℕ) (c c1 c2 : ℕ → ℝ) (x y : ℝ) (hc : ∀ n, c n = x * c1 n + y * c2 n)
    (d0 d1 : ℕ → ℝ) (p : ℕ → ℕ → ℝ) (ic jc : ℕ) :
    contract2 ni nj (if t = 0 then c else d0) (if t = 1 then c else d1) p ic jc =
      x * contract2 ni nj (if t = 0 then c1 else d0) (if t = 1 then c1 else d1) p ic jc +
      y * contract2 ni nj (if t = 0 then c2 else d0) (if t = 1 then c2 else d1) p ic jc := by
  unfold contract2
  simp only [Finset.mul_sum, ← Finset.sum_add_distrib]
  refine Finset.sum_congr rfl fun jp _ => Finset.sum_congr rfl fun ip _ => ?_
  fin_cases t <;> simp [hc] <;> ring

/-- **C37** electron repulsion integrals: if the coefficients of one shell are `x c₁ + y c₂`, the block is `x` times that for
`c₁` plus `y` times that for `c₂`, provided the same primitives survive the screening in the three calls. -/
theorem C37_eri {L : MathLib ℝ} {s : Call2 ℝ} {R : Rys2 ℝ} {t : Fin 4} {c c1 c2 : Nat → ℝ} {x y : ℝ}
    (hc : ∀ n, c n = x * c1 n + y * c2 n)
    (C : CartMem4 eriInt (setC4 s t c)) (A : CartMem4 eriInt (setC4 s t c1)) (B : CartMem4 eriInt (setC4 s t c2))
    (h1 : ∀ ip jp kp lp, kept4 L (setC4 s t c1) ip jp kp lp ↔ kept4 L (setC4 s t c) ip jp kp lp)
    (h2 : ∀ ip jp kp lp, kept4 L (setC4 s t c2) ip jp kp lp ↔ kept4 L (setC4 s t c) ip jp kp lp)
    (hL : L.exp = Real.exp) (hp : PosExp s) (hR : RootsOK R s) (h15 : LOK s) :
    ∃ rc h rc1 ha rc2 hb, CartEnds4 C R realK L rc h ∧ CartEnds4 A R realK L rc1 ha ∧ CartEnds4 B R realK L rc2 hb ∧
      ∀ ic jc kc lc i j k l, ic < s.si.nctr → jc < s.sj.nctr → kc < s.sk.nctr → lc < s.sl.nctr →
        i < ncart s.si.l → j < ncart s.sj.l → k < ncart s.sk.l → l < ncart s.sl.l →
        ∃ u v, A.elem ha 0 ic i jc j kc k lc l = .val u ∧ B.elem hb 0 ic i jc j kc k lc l = .val v ∧
          C.elem h 0 ic i jc j kc k lc l = .val (x*u + y*v) := by
  have key : ∀ c, PosExp (setC4 s t c) ∧ RootsOK R (setC4 s t c) ∧ LOK (setC4 s t c) := by
    intro c
    have h15' := (lok_iff s).1 h15
    refine ⟨?_, ?_, (lok_iff _).2 ?_⟩
    · fin_cases t <;> exact ⟨hp.ij, hp.kl⟩
    · fin_cases t <;> exact hR
    · fin_cases t <;> exact h15'
  have val := fun (c : Nat → ℝ) (M : CartMem4 eriInt (setC4 s t c)) => C44_eri (L := L) (R := R) M hL
    (maxCoeff_exists (setC4 s t c).si) (maxCoeff_exists (setC4 s t c).sj) (maxCoeff_exists (setC4 s t c).sk)
    (maxCoeff_exists (setC4 s t c).sl) (key c).1 (key c).2.1 (key c).2.2
  obtain ⟨rc, h, e0, v0⟩ := val c C
  obtain ⟨rc1, ha, e1, v1⟩ := val c1 A
  obtain ⟨rc2, hb, e2, v2⟩ := val c2 B
  refine ⟨rc, h, rc1, ha, rc2, hb, e0, e1, e2, fun ic jc kc lc i j k l a2 a3 a4 a5 a6 a7 a8 a9 => ?_⟩
  have sh : ∀ c, (setC4 s t c).si.nctr = s.si.nctr ∧ (setC4 s t c).sj.nctr = s.sj.nctr ∧ (setC4 s t c).sk.nctr = s.sk.nctr ∧
      (setC4 s t c).sl.nctr = s.sl.nctr ∧ (setC4 s t c).si.l = s.si.l ∧ (setC4 s t c).sj.l = s.sj.l ∧
      (setC4 s t c).sk.l = s.sk.l ∧ (setC4 s t c).sl.l = s.sl.l := by
    intro c
    fin_cases t <;> exact ⟨rfl, rfl, rfl, rfl, rfl, rfl, rfl, rfl⟩
  have app : ∀ c, ic < (setC4 s t c).si.nctr ∧ jc < (setC4 s t c).sj.nctr ∧ kc < (setC4 s t c).sk.nctr ∧
      lc < (setC4 s t c).sl.nctr ∧ i < ncart (setC4 s t c).si.l ∧ j < ncart (setC4 s t c).sj.l ∧
      k < ncart (setC4 s t c).sk.l ∧ l < ncart (setC4 s t c).sl.l := by
    intro c
    obtain ⟨b1, b2, b3, b4, b5, b6, b7, b8⟩ := sh c
    rw [b1, b2, b3, b4, b5, b6, b7, b8]
    exact ⟨a2, a3, a4, a5, a6, a7, a8, a9⟩
  have w0 := v0 ic jc kc lc i j k l (app c).1 (app c).2.1 (app c).2.2.1 (app c).2.2.2.1 (app c).2.2.2.2.1 (app c).2.2.2.2.2.1
    (app c).2.2.2.2.2.2.1 (app c).2.2.2.2.2.2.2
  have w1 := v1 ic jc kc lc i j k l (app c1).1 (app c1).2.1 (app c1).2.2.1 (app c1).2.2.2.1 (app c1).2.2.2.2.1
    (app c1).2.2.2.2.2.1 (app c1).2.2.2.2.2.2.1 (app c1).2.2.2.2.2.2.2
  have w2 := v2 ic jc kc lc i j k l (app c2).1 (app c2).2.1 (app c2).2.2.1 (app c2).2.2.2.1 (app c2).2.2.2.2.1
    (app c2).2.2.2.2.2.1 (app c2).2.2.2.2.2.2.1 (app c2).2.2.2.2.2.2.2
  refine ⟨_, _, w1, w2, w0.trans ?_⟩
  congr 1
  have hk : ∀ c', (∀ ip jp kp lp, kept4 L (setC4 s t c') ip jp kp lp ↔ kept4 L (setC4 s t c) ip jp kp lp) →
      spNorm (setC4 s t c').si.l * spNorm (setC4 s t c').sj.l * spNorm (setC4 s t c').sk.l * spNorm (setC4 s t c').sl.l *
        contract4 (setC4 s t c').si.nprim (setC4 s t c').sj.nprim (setC4 s t c').sk.nprim (setC4 s t c').sl.nprim
          (setC4 s t c').si.c (setC4 s t c').sj.c (setC4 s t c').sk.c (setC4 s t c').sl.c (fun ip jp kp lp =>
            open Classical in if kept4 L (setC4 s t c') ip jp kp lp then
              primERI (setC4 s t c') ip jp kp lp (powers (setC4 s t c').si.l i) (powers (setC4 s t c').sj.l j)
                (powers (setC4 s t c').sk.l k) (powers (setC4 s t c').sl.l l) else 0) ic jc kc lc =
      spNorm s.si.l * spNorm s.sj.l * spNorm s.sk.l * spNorm s.sl.l *
        contract4 s.si.nprim s.sj.nprim s.sk.nprim s.sl.nprim (if t = 0 then c' else s.si.c) (if t = 1 then c' else s.sj.c)
          (if t = 2 then c' else s.sk.c) (if t = 3 then c' else s.sl.c) (fun ip jp kp lp =>
            open Classical in if kept4 L (setC4 s t c) ip jp kp lp then
              primERI s ip jp kp lp (powers s.si.l i) (powers s.sj.l j) (powers s.sk.l k) (powers s.sl.l l) else 0)
          ic jc kc lc := by
    intro c' hk
    have hf : kept4 L (setC4 s t c') = kept4 L (setC4 s t c) := by
      funext ip jp kp lp
      exact propext (hk ip jp kp lp)
    rw [hf]
    fin_cases t <;> rfl
  refine (hk c fun _ _ _ _ => Iff.rfl).trans ?_
  refine Eq.trans ?_ (congrArg₂ (fun u v => x*u + y*v) (hk c1 h1).symm (hk c2 h2).symm)
  rw [contract4_linear t s.si.nprim s.sj.nprim s.sk.nprim s.sl.nprim c c1 c2 x y hc s.si.c s.sj.c s.sk.c s.sl.c]
  ring

/-- which primitives are screened for given contraction coefficients -/
def kept2 (L : MathLib ℝ) (s : Call ℝ) : Nat → Nat → Prop :=
  Kept L s (fun ip => maxAbsC s.si.c s.si.nprim ip s.si.nctr) (fun ip => maxAbsC s.sj.c s.sj.nprim ip s.sj.nctr) (s.si.l + s.sj.l)

/-- **C37** overlap integrals. -/
theorem C37_overlap {L : MathLib ℝ} {s : Call ℝ} {t : Fin 2} {c c1 c2 : Nat → ℝ} {x y : ℝ} (hc : ∀ n, c n = x * c1 n + y * c2 n)
    (C : CartMem ovlpInt (setC2 s t c)) (A : CartMem ovlpInt (setC2 s t c1)) (B : CartMem ovlpInt (setC2 s t c2))
    (h1 : ∀ ip jp, kept2 L (setC2 s t c1) ip jp ↔ kept2 L (setC2 s t c) ip jp)
    (h2 : ∀ ip jp, kept2 L (setC2 s t c2) ip jp ↔ kept2 L (setC2 s t c) ip jp)
    (hL : L.exp = Real.exp) (hpos : ∀ ip jp, ip < s.si.nprim → jp < s.sj.nprim → 0 < s.si.a ip + s.sj.a jp)
    (hli : s.si.l ≤ 15) (hlj : s.sj.l ≤ 15) :
    ∃ rc h rc1 ha rc2 hb, CartEnds C realK L rc h ∧ CartEnds A realK L rc1 ha ∧ CartEnds B realK L rc2 hb ∧
      ∀ ic jc i j, ic < s.si.nctr → jc < s.sj.nctr → i < ncart s.si.l → j < ncart s.sj.l →
        ∃ u v, A.elem ha 0 ic i jc j = .val u ∧ B.elem hb 0 ic i jc j = .val v ∧ C.elem h 0 ic i jc j = .val (x*u + y*v) := by
  have key : ∀ c, (∀ ip jp, ip < (setC2 s t c).si.nprim → jp < (setC2 s t c).sj.nprim → 0 < (setC2 s t c).si.a ip + (setC2 s t c).sj.a jp) ∧
      (setC2 s t c).si.l ≤ 15 ∧ (setC2 s t c).sj.l ≤ 15 := by
    intro c
    fin_cases t <;> exact ⟨hpos, hli, hlj⟩
  have val := fun (c : Nat → ℝ) (M : CartMem ovlpInt (setC2 s t c)) => C21_overlap (L := L) hL
    (maxCoeff_exists (setC2 s t c).si) (maxCoeff_exists (setC2 s t c).sj) (key c).1 (key c).2.1 (key c).2.2 M.hs M.M M.hsize M.O
  obtain ⟨rc, h, e0, v0⟩ := val c C
  obtain ⟨rc1, ha, e1, v1⟩ := val c1 A
  obtain ⟨rc2, hb, e2, v2⟩ := val c2 B
  refine ⟨rc, h, rc1, ha, rc2, hb, e0, e1, e2, fun ic jc i j a2 a3 a6 a7 => ?_⟩
  have app : ∀ c, ic < (setC2 s t c).si.nctr ∧ jc < (setC2 s t c).sj.nctr ∧ i < ncart (setC2 s t c).si.l ∧ j < ncart (setC2 s t c).sj.l := by
    intro c
    fin_cases t <;> exact ⟨a2, a3, a6, a7⟩
  have w0 := v0 ic jc i j (app c).1 (app c).2.1 (app c).2.2.1 (app c).2.2.2
  have w1 := v1 ic jc i j (app c1).1 (app c1).2.1 (app c1).2.2.1 (app c1).2.2.2
  have w2 := v2 ic jc i j (app c2).1 (app c2).2.1 (app c2).2.2.1 (app c2).2.2.2
  refine ⟨_, _, w1, w2, w0.trans ?_⟩
  congr 1
  have hk : ∀ c', (∀ ip jp, kept2 L (setC2 s t c') ip jp ↔ kept2 L (setC2 s t c) ip jp) →
      spNorm (setC2 s t c').si.l * spNorm (setC2 s t c').sj.l *
        contract2 (setC2 s t c').si.nprim (setC2 s t c').sj.nprim (setC2 s t c').si.c (setC2 s t c').sj.c (fun ip jp =>
            open Classical in if kept2 L (setC2 s t c') ip jp then
              braket (gto ((setC2 s t c').si.a ip) (centre (setC2 s t c').si) (powers (setC2 s t c').si.l i))
                (gto ((setC2 s t c').sj.a jp) (centre (setC2 s t c').sj) (powers (setC2 s t c').sj.l j)) else 0) ic jc =
      spNorm s.si.l * spNorm s.sj.l *
        contract2 s.si.nprim s.sj.nprim (if t = 0 then c' else s.si.c) (if t = 1 then c' else s.sj.c) (fun ip jp =>
            open Classical in if kept2 L (setC2 s t c) ip jp then
              braket (gto (s.si.a ip) (centre s.si) (powers s.si.l i)) (gto (s.sj.a jp) (centre s.sj) (powers s.sj.l j)) else 0)
          ic jc := by
    intro c' hk
    have hf : kept2 L (setC2 s t c') = kept2 L (setC2 s t c) := by
      funext ip jp
      exact propext (hk ip jp)
    rw [hf]
    fin_cases t <;> rfl
  refine (hk c fun _ _ => Iff.rfl).trans ?_
  refine Eq.trans ?_ (congrArg₂ (fun u v => x*u + y*v) (hk c1 h1).symm (hk c2 h2).symm)
  rw [contract2_linear t s.si.nprim s.sj.nprim c c1 c2 x y hc s.si.c s.sj.c]
  ring

/-! ### The hypotheses can be met -/
namespace LinearDemo
open OvlpDemo EriDemo

theorem maxAbs_neg (ip : Nat) : maxAbsC (fun _ => (-1:ℝ)) 2 ip 2 = maxAbsC (fun _ => (1:ℝ)) 2 ip 2 := by
  norm_num [maxAbsC]

/-- coefficients 1 = 2·1 + 1·(-1) in the first shell -/
example : ∃ R rc h rc1 ha rc2 hb,
    CartEnds4 (cartMem4 (setC4 (call4 0) 0 fun _ => 1) (EriDemo.ctr_pos 0)) R realK lib rc h ∧
    CartEnds4 (cartMem4 (setC4 (call4 0) 0 fun _ => 1) (EriDemo.ctr_pos 0)) R realK lib rc1 ha ∧
    CartEnds4 (cartMem4 (setC4 (call4 0) 0 fun _ => -1) (EriDemo.ctr_pos 0)) R realK lib rc2 hb := by
  obtain ⟨R, hR⟩ := exists_rys2
  obtain ⟨rc, h, rc1, ha, rc2, hb, e0, e1, e2, _⟩ := C37_eri (L := lib) (R := R) (s := call4 0) (t := 0) (x := 2) (y := 1)
    (c := fun _ => 1) (c1 := fun _ => 1) (c2 := fun _ => -1) (fun _ => by norm_num)
    (cartMem4 _ (EriDemo.ctr_pos 0)) (cartMem4 _ (EriDemo.ctr_pos 0)) (cartMem4 _ (EriDemo.ctr_pos 0)) (fun _ _ _ _ => Iff.rfl)
    (fun ip jp kp lp => by
      have e : (fun ip => maxAbsC (setC4 (call4 0) 0 fun _ => (-1:ℝ)).si.c (setC4 (call4 0) 0 fun _ => (-1:ℝ)).si.nprim ip
          (setC4 (call4 0) 0 fun _ => (-1:ℝ)).si.nctr) = fun ip => maxAbsC (setC4 (call4 0) 0 fun _ => (1:ℝ)).si.c
          (setC4 (call4 0) 0 fun _ => (1:ℝ)).si.nprim ip (setC4 (call4 0) 0 fun _ => (1:ℝ)).si.nctr := by
        funext ip
        exact maxAbs_neg ip
      unfold kept4
      rw [e]
      constructor
      · rintro ⟨h1, h2, h3, h4⟩
        exact ⟨h1, h2, h3, h4⟩
      · rintro ⟨h1, h2, h3, h4⟩
        exact ⟨h1, h2, h3, h4⟩)
    rfl (posExp 0) (hR _) (lok 0)
  exact ⟨R, rc, h, rc1, ha, rc2, hb, e0, e1, e2⟩

example : ∃ rc h rc1 ha rc2 hb,
    CartEnds (blankMem ovlpInt (setC2 call 1 fun _ => (1:ℝ)) (by decide) (by decide)) realK lib rc h ∧
    CartEnds (blankMem ovlpInt (setC2 call 1 fun _ => (1:ℝ)) (by decide) (by decide)) realK lib rc1 ha ∧
    CartEnds (blankMem ovlpInt (setC2 call 1 fun _ => (-1:ℝ)) (by decide) (by decide)) realK lib rc2 hb := by
  obtain ⟨rc, h, rc1, ha, rc2, hb, e0, e1, e2, _⟩ := C37_overlap (L := lib) (s := call) (t := 1) (x := 2) (y := 1)
    (c := fun _ => 1) (c1 := fun _ => 1) (c2 := fun _ => -1) (fun _ => by norm_num)
    (blankMem _ _ (by decide) (by decide)) (blankMem _ _ (by decide) (by decide)) (blankMem _ _ (by decide) (by decide))
    (fun _ _ => Iff.rfl)
    (fun ip jp => by
      have e : (fun ip => maxAbsC (setC2 call 1 fun _ => (-1:ℝ)).sj.c (setC2 call 1 fun _ => (-1:ℝ)).sj.nprim ip
          (setC2 call 1 fun _ => (-1:ℝ)).sj.nctr) = fun ip => maxAbsC (setC2 call 1 fun _ => (1:ℝ)).sj.c
          (setC2 call 1 fun _ => (1:ℝ)).sj.nprim ip (setC2 call 1 fun _ => (1:ℝ)).sj.nctr := by
        funext ip
        exact maxAbs_neg ip
      unfold kept2
      rw [e]
      exact Iff.rfl)
    rfl (fun _ _ _ _ => by show (0:ℝ) < 1 + 1; norm_num) (by decide) (by decide)
  exact ⟨rc, h, rc1, ha, rc2, hb, e0, e1, e2⟩
end LinearDemo

end Verif.Props
