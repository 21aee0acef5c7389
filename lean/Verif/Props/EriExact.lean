import Verif.Props.Eri
import Verif.Props.SphDrv
import Verif.Lemmas.RysExist

/-!
C29 — permutation symmetries of electron repulsion integrals.
C38 — short-range integrals are the difference of full and long-range integrals.
C44 — electron repulsion integrals are the integrals over the selected interaction.
-/
namespace Verif.Props
open Verif Verif.Model Verif.Prog Verif.Lemmas Verif.Spec MeasureTheory

/-! ### Facts about the integral -/

theorem repulsion_sum {ι κ : Type} (S : Finset ι) (T : Finset κ) {V : (Fin 3 → ℝ) → (Fin 3 → ℝ) → ℝ} (x : ι → ℝ) (y : κ → ℝ)
    {f : ι → (Fin 3 → ℝ) → ℝ} {g : κ → (Fin 3 → ℝ) → ℝ}
    (h : ∀ a ∈ S, ∀ b ∈ T, Integrable fun z : (Fin 3 → ℝ) × (Fin 3 → ℝ) => f a z.1 * V z.1 z.2 * g b z.2) :
    (Integrable fun z : (Fin 3 → ℝ) × (Fin 3 → ℝ) => (∑ a ∈ S, x a * f a z.1) * V z.1 z.2 * (∑ b ∈ T, y b * g b z.2)) ∧
    repulsion V (fun r => ∑ a ∈ S, x a * f a r) (fun r => ∑ b ∈ T, y b * g b r) =
      ∑ a ∈ S, ∑ b ∈ T, x a * y b * repulsion V (f a) (g b) := by
  have e : ∀ z : (Fin 3 → ℝ) × (Fin 3 → ℝ), (∑ a ∈ S, x a * f a z.1) * V z.1 z.2 * (∑ b ∈ T, y b * g b z.2) =
      ∑ a ∈ S, ∑ b ∈ T, x a * y b * (f a z.1 * V z.1 z.2 * g b z.2) := by
    intro z
    rw [Finset.sum_mul, Finset.sum_mul_sum]
    refine Finset.sum_congr rfl fun a _ => Finset.sum_congr rfl fun b _ => ?_
    ring
  have hi : ∀ a ∈ S, ∀ b ∈ T, Integrable fun z : (Fin 3 → ℝ) × (Fin 3 → ℝ) => x a * y b * (f a z.1 * V z.1 z.2 * g b z.2) :=
    fun a ha b hb => (h a ha b hb).const_mul _
  constructor
  · simp_rw [e]
    exact integrable_finset_sum _ fun a ha => integrable_finset_sum _ (hi a ha)
  · unfold repulsion
    simp_rw [e]
    rw [integral_finset_sum _ fun a ha => integrable_finset_sum _ (hi a ha)]
    refine Finset.sum_congr rfl fun a ha => ?_
    rw [integral_finset_sum _ (hi a ha)]
    refine Finset.sum_congr rfl fun b hb => ?_
    rw [integral_const_mul]

theorem integrable_pg_int {a b : ℝ} (ha : 0 < a) (hb : 0 < b) (P Q : Fin 3 → ℝ) (f g : Fin 3 → Polynomial ℝ) (omega : ℝ) :
    Integrable fun z : (Fin 3 → ℝ) × (Fin 3 → ℝ) => pg a P f z.1 * interaction omega z.1 z.2 * pg b Q g z.2 := by
  unfold interaction
  split
  · exact (eri_coulomb ha hb P Q f g).1
  · rename_i h0
    split
    · rename_i h1
      exact (eri_coulombSR ha hb P Q f g (by linarith)).1
    · rename_i h1
      exact (eri_coulombLR ha hb P Q f g (lt_of_le_of_ne (not_lt.1 h1) (Ne.symm h0))).1

theorem integrable_gto_int {a b c d : ℝ} (h1 : 0 < a + b) (h2 : 0 < c + d) (A B C D : Fin 3 → ℝ) (n m p q : Fin 3 → ℕ)
    (omega : ℝ) : Integrable fun z : (Fin 3 → ℝ) × (Fin 3 → ℝ) =>
      (gto a A n z.1 * gto b B m z.1) * interaction omega z.1 z.2 * (gto c C p z.2 * gto d D q z.2) := by
  simp_rw [gto_mul_eq h1.ne', gto_mul_eq h2.ne']
  have := (integrable_pg_int h1 h2 (fun k => (a * A k + b * B k) / (a + b)) (fun k => (c * C k + d * D k) / (c + d))
    (fun k => pq (A k) (B k) (n k) (m k)) (fun k => pq (C k) (D k) (p k) (q k)) omega).const_mul
    (Real.exp (-(a * b / (a + b)) * ∑ k, (A k - B k)^2) * Real.exp (-(c * d / (c + d)) * ∑ k, (C k - D k)^2))
  refine this.congr (Filter.Eventually.of_forall fun z => ?_)
  ring

/-- the contracted function `i` of contraction `ic`, without the normalisation of s and p functions -/
noncomputable def cfun (t : PShell ℝ) (ic i : Nat) : (Fin 3 → ℝ) → ℝ := cgto t.nprim t.a t.c (centre t) ic (powers t.l i)

theorem cfun_mul (t u : PShell ℝ) (ic jc i j : Nat) (r : Fin 3 → ℝ) : cfun t ic i r * cfun u jc j r =
    ∑ p ∈ Finset.range t.nprim ×ˢ Finset.range u.nprim, (t.c (t.nprim*ic+p.1) * u.c (u.nprim*jc+p.2)) *
      (gto (t.a p.1) (centre t) (powers t.l i) r * gto (u.a p.2) (centre u) (powers u.l j) r) := by
  unfold cfun cgto
  rw [Finset.sum_mul_sum, Finset.sum_product]
  refine Finset.sum_congr rfl fun _ _ => Finset.sum_congr rfl fun _ _ => ?_
  ring

theorem repulsion_cfun {s : Call2 ℝ} (hp : PosExp s) (omega : ℝ) (ic jc kc lc i j k l : Nat) :
    (Integrable fun z : (Fin 3 → ℝ) × (Fin 3 → ℝ) => (cfun s.si ic i z.1 * cfun s.sj jc j z.1) * interaction omega z.1 z.2 *
      (cfun s.sk kc k z.2 * cfun s.sl lc l z.2)) ∧
    repulsion (interaction omega) (fun r => cfun s.si ic i r * cfun s.sj jc j r) (fun r => cfun s.sk kc k r * cfun s.sl lc l r) =
      contract4 s.si.nprim s.sj.nprim s.sk.nprim s.sl.nprim s.si.c s.sj.c s.sk.c s.sl.c (fun ip jp kp lp =>
        repulsion (interaction omega)
          (fun r => gto (s.si.a ip) (centre s.si) (powers s.si.l i) r * gto (s.sj.a jp) (centre s.sj) (powers s.sj.l j) r)
          (fun r => gto (s.sk.a kp) (centre s.sk) (powers s.sk.l k) r * gto (s.sl.a lp) (centre s.sl) (powers s.sl.l l) r))
        ic jc kc lc := by
  simp_rw [cfun_mul]
  obtain ⟨h1, h2⟩ := repulsion_sum (V := interaction omega) (Finset.range s.si.nprim ×ˢ Finset.range s.sj.nprim)
    (Finset.range s.sk.nprim ×ˢ Finset.range s.sl.nprim)
    (fun p => s.si.c (s.si.nprim*ic+p.1) * s.sj.c (s.sj.nprim*jc+p.2))
    (fun p => s.sk.c (s.sk.nprim*kc+p.1) * s.sl.c (s.sl.nprim*lc+p.2))
    (f := fun p r => gto (s.si.a p.1) (centre s.si) (powers s.si.l i) r * gto (s.sj.a p.2) (centre s.sj) (powers s.sj.l j) r)
    (g := fun p r => gto (s.sk.a p.1) (centre s.sk) (powers s.sk.l k) r * gto (s.sl.a p.2) (centre s.sl) (powers s.sl.l l) r)
    (fun a ha b hb => by
      rw [Finset.mem_product, Finset.mem_range, Finset.mem_range] at ha hb
      exact integrable_gto_int (hp.ij _ _ ha.1 ha.2) (hp.kl _ _ hb.1 hb.2) _ _ _ _ _ _ _ _ _)
  refine ⟨h1, h2.trans ?_⟩
  unfold contract4
  rw [Finset.sum_comm, Finset.sum_product_right]
  refine Finset.sum_congr rfl fun lp _ => Finset.sum_congr rfl fun kp _ => ?_
  rw [Finset.sum_product_right]
  refine Finset.sum_congr rfl fun jp _ => Finset.sum_congr rfl fun ip _ => ?_
  ring

theorem sgto_mul (t u : PShell ℝ) (ic jc i j : Nat) (r : Fin 3 → ℝ) : sgto t ic i r * sgto u jc j r =
    ∑ p ∈ Finset.range (ncart t.l) ×ˢ Finset.range (ncart u.l), ((spNorm t.l * c2sCoef t.l i p.1) *
      (spNorm u.l * c2sCoef u.l j p.2)) * (cfun t ic p.1 r * cfun u jc p.2 r) := by
  unfold sgto cfun
  rw [Finset.sum_mul_sum, Finset.sum_product]
  refine Finset.sum_congr rfl fun _ _ => Finset.sum_congr rfl fun _ _ => ?_
  ring

theorem repulsion_sgto {s : Call2 ℝ} (hp : PosExp s) (omega : ℝ) (ic jc kc lc i j k l : Nat) :
    repulsion (interaction omega) (fun r => sgto s.si ic i r * sgto s.sj jc j r) (fun r => sgto s.sk kc k r * sgto s.sl lc l r) =
      ∑ a ∈ Finset.range (ncart s.si.l), ∑ b ∈ Finset.range (ncart s.sj.l),
        ∑ c ∈ Finset.range (ncart s.sk.l), ∑ d ∈ Finset.range (ncart s.sl.l),
        c2sCoef s.si.l i a * c2sCoef s.sj.l j b * c2sCoef s.sk.l k c * c2sCoef s.sl.l l d *
          (spNorm s.si.l * spNorm s.sj.l * spNorm s.sk.l * spNorm s.sl.l * repulsion (interaction omega)
            (fun r => cfun s.si ic a r * cfun s.sj jc b r) (fun r => cfun s.sk kc c r * cfun s.sl lc d r)) := by
  simp_rw [sgto_mul]
  refine (repulsion_sum (V := interaction omega) _ _ _ _ (fun a _ b _ => (repulsion_cfun hp omega ic jc kc lc a.1 a.2 b.1 b.2).1)).2.trans ?_
  rw [Finset.sum_product]
  refine Finset.sum_congr rfl fun a _ => Finset.sum_congr rfl fun b _ => ?_
  rw [Finset.sum_product]
  refine Finset.sum_congr rfl fun c _ => Finset.sum_congr rfl fun d _ => ?_
  ring

theorem interaction_comm (omega : ℝ) (x y : Fin 3 → ℝ) : interaction omega x y = interaction omega y x := by
  have h : dist3 x y = dist3 y x := by
    unfold dist3
    congr 1
    refine Finset.sum_congr rfl fun k _ => ?_
    ring
  unfold interaction
  split
  · show coulomb x y = coulomb y x
    unfold coulomb
    have h' : (∑ k, (y k - x k)^2) = ∑ k, (x k - y k)^2 := Finset.sum_congr rfl fun k _ => by ring
    rw [h']
  · split
    · unfold coulombSR; rw [h]
    · unfold coulombLR; rw [h]

theorem repulsion_comm (omega : ℝ) (f g : (Fin 3 → ℝ) → ℝ) :
    repulsion (interaction omega) f g = repulsion (interaction omega) g f := by
  unfold repulsion
  rw [Measure.volume_eq_prod, ← integral_prod_swap]
  congr 1
  funext z
  show f z.2 * interaction omega z.2 z.1 * g z.1 = _
  rw [interaction_comm]
  ring

/-! ### Values -/

/-- Four shells are as tall as the library supports. -/
def LOK (s : Call2 ℝ) : Prop := ∀ t, t < 4 → Call2.ls s t ≤ 15

/-- **C44** int2e_cart: each element is, up to the normalisation of s and p functions, the contraction of the repulsion
integrals of the primitive quartets that survive the screening, over the interaction selected by `env[PTR_RANGE_OMEGA]`. -/
theorem C44_eri {L : MathLib ℝ} {s : Call2 ℝ} {R : Rys2 ℝ} {mi mj mk ml : Nat → ℝ} (A : CartMem4 eriInt s)
    (hL : L.exp = Real.exp) (hi : MaxCoeff s.si mi) (hj : MaxCoeff s.sj mj) (hk : MaxCoeff s.sk mk) (hl : MaxCoeff s.sl ml)
    (hp : PosExp s) (hR : RootsOK R s) (h15 : LOK s) :
    ∃ has h', CartEnds4 A R realK L has h' ∧
      ∀ ic jc kc lc i j k l, ic < s.si.nctr → jc < s.sj.nctr → kc < s.sk.nctr → lc < s.sl.nctr →
        i < ncart s.si.l → j < ncart s.sj.l → k < ncart s.sk.l → l < ncart s.sl.l →
        A.elem h' 0 ic i jc j kc k lc l = .val (spNorm s.si.l * spNorm s.sj.l * spNorm s.sk.l * spNorm s.sl.l *
          contract4 s.si.nprim s.sj.nprim s.sk.nprim s.sl.nprim s.si.c s.sj.c s.sk.c s.sl.c (fun ip jp kp lp =>
            open Classical in if Kept4 L s mi mj mk ml ip jp kp lp then
              repulsion (interaction s.omega)
                (fun r => gto (s.si.a ip) (centre s.si) (powers s.si.l i) r * gto (s.sj.a jp) (centre s.sj) (powers s.sj.l j) r)
                (fun r => gto (s.sk.a kp) (centre s.sk) (powers s.sk.l k) r * gto (s.sl.a lp) (centre s.sl) (powers s.sl.l l) r)
            else 0) ic jc kc lc) := by
  obtain ⟨has, h', hr, hv, _⟩ := drv2e_cart A.M A.hsize A.hs A.O (eri_eval (L := L) hp hR) (le_refl 1) h15
  refine ⟨has, h', hr, fun ic jc kc lc i j k l a2 a3 a4 a5 a6 a7 a8 a9 => ?_⟩
  refine (hv 0 ic jc kc lc i j k l Nat.zero_lt_one a2 a3 a4 a5 a6 a7 a8 a9).trans ?_
  exact congrArg Cell.val (eri_loopVal hL hi hj hk hl hp a6 a7 a8 a9)

/-- no primitive quartet of the call is screened -/
def AllKept (L : MathLib ℝ) (s : Call2 ℝ) : Prop :=
  ∃ mi mj mk ml, MaxCoeff s.si mi ∧ MaxCoeff s.sj mj ∧ MaxCoeff s.sk mk ∧ MaxCoeff s.sl ml ∧
    ∀ ip jp kp lp, ip < s.si.nprim → jp < s.sj.nprim → kp < s.sk.nprim → lp < s.sl.nprim → Kept4 L s mi mj mk ml ip jp kp lp

/-- **C44** int2e_cart, nothing screened: exactly the repulsion integral of the two products of contracted functions. -/
theorem C44_eri_exact {L : MathLib ℝ} {s : Call2 ℝ} {R : Rys2 ℝ} (A : CartMem4 eriInt s) (hL : L.exp = Real.exp)
    (hkept : AllKept L s) (hp : PosExp s) (hR : RootsOK R s) (h15 : LOK s) :
    ∃ has h', CartEnds4 A R realK L has h' ∧
      ∀ ic jc kc lc i j k l, ic < s.si.nctr → jc < s.sj.nctr → kc < s.sk.nctr → lc < s.sl.nctr →
        i < ncart s.si.l → j < ncart s.sj.l → k < ncart s.sk.l → l < ncart s.sl.l →
        A.elem h' 0 ic i jc j kc k lc l = .val (spNorm s.si.l * spNorm s.sj.l * spNorm s.sk.l * spNorm s.sl.l *
          repulsion (interaction s.omega) (fun r => cfun s.si ic i r * cfun s.sj jc j r)
            (fun r => cfun s.sk kc k r * cfun s.sl lc l r)) := by
  obtain ⟨mi, mj, mk, ml, hi, hj, hk, hl, hkp⟩ := hkept
  obtain ⟨has, h', hr, hv⟩ := C44_eri (L := L) A hL hi hj hk hl hp hR h15
  refine ⟨has, h', hr, fun ic jc kc lc i j k l a2 a3 a4 a5 a6 a7 a8 a9 => ?_⟩
  rw [hv ic jc kc lc i j k l a2 a3 a4 a5 a6 a7 a8 a9, (repulsion_cfun hp _ _ _ _ _ _ _ _ _).2]
  congr 2
  unfold contract4
  refine Finset.sum_congr rfl fun lp b1 => Finset.sum_congr rfl fun kp b2 => Finset.sum_congr rfl fun jp b3 =>
    Finset.sum_congr rfl fun ip b4 => ?_
  rw [Finset.mem_range] at b1 b2 b3 b4
  dsimp only
  rw [if_pos (hkp ip jp kp lp b4 b3 b2 b1)]

/-- a Cartesian call in memory that is allocated but not initialised -/
def blankMem4 {α : Type} [Field α] [LinearOrder α] (X : Int2e α) (s : Call2 α) (h : ∀ t, t < 4 → 0 < Call2.nctrs s t) :
    CartMem4 X s where
  fpd := 1
  buf := 0
  size := cacheSize2e X s
  empty := ⟨4, 0⟩
  fl := ⟨1, 0⟩
  loc := ⟨2, 0⟩
  counts := ⟨3, 0⟩
  out := ⟨5, 7⟩
  dims := none
  nd := fun t => ncar (Call2.ls s) t * Call2.nctrs s t
  h := ⟨fun _ => .undef, fun _ => .undef⟩
  hs := ⟨Or.inr (Or.inr rfl), fun t _ => ncart_pos _, fun t ht => h t ht, fun t a b => absurd a (by omega), fun t _ => le_refl _⟩
  M := ⟨by omega, fun k _ => by simp, fun k _ => by simp, by simp, fun k _ => by simp, fun k _ => by simp,
    fun k _ => by simp, by decide, by decide, by decide, by decide, by decide⟩
  hsize := le_refl _
  O := { h_dims := fun t _ => rfl
         h_dbuf := fun d hd => nomatch hd
         h_out := fun m _ => by simp
         h_obuf := by decide }

/-- **C44** int2e_sph, nothing screened: exactly the repulsion integral of the spherical functions. -/
theorem C44_eri_spherical {L : MathLib ℝ} {s : Call2 ℝ} {R : Rys2 ℝ} (B : SphMem4 eriInt s) (hL : L.exp = Real.exp)
    (hkept : AllKept L s) (hp : PosExp s) (hR : RootsOK R s) (h15 : LOK s) :
    ∃ has h', SphEnds4 B R realK L has h' ∧
      ∀ ic jc kc lc i j k l, ic < s.si.nctr → jc < s.sj.nctr → kc < s.sk.nctr → lc < s.sl.nctr →
        i < s.si.l*2+1 → j < s.sj.l*2+1 → k < s.sk.l*2+1 → l < s.sl.l*2+1 →
        B.elem h' 0 ic i jc j kc k lc l = .val (repulsion (interaction s.omega)
          (fun r => sgto s.si ic i r * sgto s.sj jc j r) (fun r => sgto s.sk kc k r * sgto s.sl lc l r)) := by
  let A := blankMem4 eriInt s B.hs.nctr_pos
  obtain ⟨ra, ha, rb, hb, eA, eB, x, vA, vB⟩ := C19_four_centre A B (eri_eval (L := L) hp hR) (le_refl 1) h15
  obtain ⟨rc, hc, eC, vC⟩ := C44_eri_exact (R := R) A hL hkept hp hR h15
  have hAC : ha = hc := by
    have e : some (ra, ha) = some (rc, hc) := eA.symm.trans eC
    simp only [Option.some.injEq, Prod.mk.injEq] at e
    exact e.2
  refine ⟨rb, hb, eB, fun ic jc kc lc i j k l a2 a3 a4 a5 a6 a7 a8 a9 => ?_⟩
  rw [vB 0 ic jc kc lc i j k l Nat.zero_lt_one a2 a3 a4 a5 a6 a7 a8 a9, repulsion_sgto hp]
  congr 1
  refine Finset.sum_congr rfl fun a b1 => Finset.sum_congr rfl fun b b2 => Finset.sum_congr rfl fun c b3 =>
    Finset.sum_congr rfl fun d b4 => ?_
  rw [Finset.mem_range] at b1 b2 b3 b4
  congr 1
  have c1 := vA 0 ic jc kc lc a b c d Nat.zero_lt_one a2 a3 a4 a5 b1 b2 b3 b4
  have c2 := vC ic jc kc lc a b c d a2 a3 a4 a5 b1 b2 b3 b4
  rw [← hAC] at c2
  exact Cell.val.inj (c1.symm.trans c2)

/-! ### Permutations -/

/-- the call with the first two shells exchanged -/
def swapIJ {α : Type} (s : Call2 α) : Call2 α := { s with si := s.sj, sj := s.si }
/-- the call with the last two shells exchanged -/
def swapKL {α : Type} (s : Call2 α) : Call2 α := { s with sk := s.sl, sl := s.sk }
/-- the call with the electrons exchanged -/
def swapE {α : Type} (s : Call2 α) : Call2 α := { s with si := s.sk, sj := s.sl, sk := s.si, sl := s.sj }

theorem posExp_swapIJ {s : Call2 ℝ} (hp : PosExp s) : PosExp (swapIJ s) :=
  ⟨fun ip jp h1 h2 => by rw [add_comm]; exact hp.ij jp ip h2 h1, hp.kl⟩
theorem posExp_swapKL {s : Call2 ℝ} (hp : PosExp s) : PosExp (swapKL s) :=
  ⟨hp.ij, fun ip jp h1 h2 => by rw [add_comm]; exact hp.kl jp ip h2 h1⟩
theorem posExp_swapE {s : Call2 ℝ} (hp : PosExp s) : PosExp (swapE s) := ⟨hp.kl, hp.ij⟩

theorem roots_eq (s : Call2 ℝ) : (s.env eriInt).nrys_roots =
    srRoots (decide (s.omega < 0)) ((s.si.l + s.sj.l + s.sk.l + s.sl.l)/2 + 1) := rfl

theorem order_eq (s : Call2 ℝ) : (s.env eriInt).rys_order = (s.si.l + s.sj.l + s.sk.l + s.sl.l)/2 + 1 := rfl

theorem rootsOK_swapIJ {s : Call2 ℝ} {R : Rys2 ℝ} (h : RootsOK R s) : RootsOK R (swapIJ s) := by
  unfold RootsOK at *
  rw [roots_eq] at *
  rwa [show (swapIJ s).si.l + (swapIJ s).sj.l = s.si.l + s.sj.l from Nat.add_comm _ _]

theorem rootsOK_swapKL {s : Call2 ℝ} {R : Rys2 ℝ} (h : RootsOK R s) : RootsOK R (swapKL s) := by
  unfold RootsOK at *
  rw [roots_eq] at *
  rwa [show (swapKL s).si.l + (swapKL s).sj.l + (swapKL s).sk.l + (swapKL s).sl.l = s.si.l + s.sj.l + s.sk.l + s.sl.l by
    show s.si.l + s.sj.l + s.sl.l + s.sk.l = _
    omega]

theorem rootsOK_swapE {s : Call2 ℝ} {R : Rys2 ℝ} (h : RootsOK R s) : RootsOK R (swapE s) := by
  unfold RootsOK at *
  rw [roots_eq] at *
  rwa [show (swapE s).si.l + (swapE s).sj.l + (swapE s).sk.l + (swapE s).sl.l = s.si.l + s.sj.l + s.sk.l + s.sl.l by
    show s.sk.l + s.sl.l + s.si.l + s.sj.l = _
    omega]

theorem lok_iff (s : Call2 ℝ) : LOK s ↔ s.si.l ≤ 15 ∧ s.sj.l ≤ 15 ∧ s.sk.l ≤ 15 ∧ s.sl.l ≤ 15 := by
  constructor
  · intro h
    exact ⟨h 0 (by omega), h 1 (by omega), h 2 (by omega), h 3 (by omega)⟩
  · rintro ⟨h0, h1, h2, h3⟩ t ht
    obtain rfl | rfl | rfl | rfl : t = 0 ∨ t = 1 ∨ t = 2 ∨ t = 3 := by omega
    · exact h0
    · exact h1
    · exact h2
    · exact h3

theorem rr2_comm (a b : Nat → ℝ) : rr2 a b = rr2 b a := by
  unfold rr2
  ring

theorem estIJ_swap (L : MathLib ℝ) (s : Call2 ℝ) (mi mj : Nat → ℝ) (ip jp : Nat) :
    estIJ L (swapIJ s) mj mi jp ip = estIJ L s mi mj ip jp := by
  unfold estIJ est pairEstimate
  simp only [swapIJ]
  rw [rr2_comm s.sj.r, Nat.add_comm s.sj.l, add_comm (s.sj.a (s.sj.nprim-1))]
  unfold prodExponent
  rw [add_comm (s.sj.a jp), mul_comm (s.sj.a jp)]
  ring

theorem cutoff_swapIJ (L : MathLib ℝ) (s : Call2 ℝ) : (swapIJ s).cutoff eriInt L = s.cutoff eriInt L := by
  unfold Call2.cutoff
  dsimp only
  have e1 : ((swapIJ s).env eriInt).rys_order = (s.env eriInt).rys_order := by
    rw [order_eq, order_eq]
    show (s.sj.l + s.si.l + s.sk.l + s.sl.l)/2 + 1 = _
    rw [Nat.add_comm s.sj.l]
  have e2 : ((swapIJ s).env eriInt).li_ceil + ((swapIJ s).env eriInt).lj_ceil = (s.env eriInt).li_ceil + (s.env eriInt).lj_ceil :=
    Nat.add_comm _ _
  rw [e1, e2]
  simp only [swapIJ]
  rw [rr2_comm s.sj.r, add_comm (s.sj.a (s.sj.nprim-1))]
  congr

theorem logRR_swapIJ (L : MathLib ℝ) (s : Call2 ℝ) : (swapIJ s).logRRkl eriInt L = s.logRRkl eriInt L := by
  unfold Call2.logRRkl
  dsimp only
  have e1 : ((swapIJ s).env eriInt).rys_order = (s.env eriInt).rys_order := by
    rw [order_eq, order_eq]
    show (s.sj.l + s.si.l + s.sk.l + s.sl.l)/2 + 1 = _
    rw [Nat.add_comm s.sj.l]
  rw [e1]
  rfl

theorem srExp_swapIJ (s : Call2 ℝ) (ip jp kp lp : Nat) : srExp (swapIJ s) jp ip kp lp = srExp s ip jp kp lp := by
  unfold srExp
  simp only [swapIJ]
  rw [add_comm (s.sj.a jp)]
  simp only [add_comm (s.sj.a jp * _)]

theorem kept4_swapIJ {L : MathLib ℝ} {s : Call2 ℝ} {mi mj mk ml : Nat → ℝ} {ip jp kp lp : Nat} :
    Kept4 L (swapIJ s) mj mi mk ml jp ip kp lp ↔ Kept4 L s mi mj mk ml ip jp kp lp := by
  have e : estKL L (swapIJ s) mk ml kp lp = estKL L s mk ml kp lp := by
    unfold estKL
    rw [logRR_swapIJ]
    rfl
  constructor
  · rintro ⟨h1, h2, h3, h4⟩
    rw [estIJ_swap] at h1 h3 h4
    rw [e, cutoff_swapIJ] at h2 h3 h4
    rw [srExp_swapIJ] at h4
    exact ⟨h1, h2, h3, h4⟩
  · rintro ⟨h1, h2, h3, h4⟩
    refine ⟨?_, ?_, ?_, ?_⟩
    · rw [estIJ_swap]; exact h1
    · rw [e, cutoff_swapIJ]; exact h2
    · rw [e, cutoff_swapIJ, estIJ_swap]; exact h3
    · rw [e, cutoff_swapIJ, estIJ_swap, srExp_swapIJ]; exact h4

theorem cutoff_swapKL (L : MathLib ℝ) (s : Call2 ℝ) : (swapKL s).cutoff eriInt L = s.cutoff eriInt L := by
  unfold Call2.cutoff
  dsimp only
  have e1 : ((swapKL s).env eriInt).rys_order = (s.env eriInt).rys_order := by
    rw [order_eq, order_eq]
    show (s.si.l + s.sj.l + s.sl.l + s.sk.l)/2 + 1 = _
    rw [show s.si.l + s.sj.l + s.sl.l + s.sk.l = s.si.l + s.sj.l + s.sk.l + s.sl.l by omega]
  rw [e1]
  rfl

theorem logRR_swapKL (L : MathLib ℝ) (s : Call2 ℝ) : (swapKL s).logRRkl eriInt L = s.logRRkl eriInt L := by
  unfold Call2.logRRkl
  dsimp only
  have e1 : ((swapKL s).env eriInt).rys_order = (s.env eriInt).rys_order := by
    rw [order_eq, order_eq]
    show (s.si.l + s.sj.l + s.sl.l + s.sk.l)/2 + 1 = _
    rw [show s.si.l + s.sj.l + s.sl.l + s.sk.l = s.si.l + s.sj.l + s.sk.l + s.sl.l by omega]
  have e2 : ((swapKL s).env eriInt).lk_ceil + ((swapKL s).env eriInt).ll_ceil = (s.env eriInt).lk_ceil + (s.env eriInt).ll_ceil :=
    Nat.add_comm _ _
  rw [e1, e2]
  simp only [swapKL]
  rw [rr2_comm s.sl.r, add_comm (s.sl.a (s.sl.nprim-1))]
  congr

theorem srExp_swapKL (s : Call2 ℝ) (ip jp kp lp : Nat) : srExp (swapKL s) ip jp lp kp = srExp s ip jp kp lp := by
  unfold srExp
  simp only [swapKL]
  rw [add_comm (s.sl.a lp)]
  simp only [add_comm (s.sl.a lp * _)]

theorem kept4_swapKL {L : MathLib ℝ} {s : Call2 ℝ} {mi mj mk ml : Nat → ℝ} {ip jp kp lp : Nat} :
    Kept4 L (swapKL s) mi mj ml mk ip jp lp kp ↔ Kept4 L s mi mj mk ml ip jp kp lp := by
  have e : estKL L (swapKL s) ml mk lp kp = estKL L s mk ml kp lp := by
    unfold estKL
    rw [logRR_swapKL]
    simp only [swapKL]
    unfold prodExponent
    rw [rr2_comm s.sl.r, add_comm (s.sl.a lp), mul_comm (s.sl.a lp)]
    ring
  have e' : estIJ L (swapKL s) mi mj ip jp = estIJ L s mi mj ip jp := rfl
  constructor
  · rintro ⟨h1, h2, h3, h4⟩
    rw [e'] at h1 h3 h4
    rw [e, cutoff_swapKL] at h2 h3 h4
    rw [srExp_swapKL] at h4
    exact ⟨h1, h2, h3, h4⟩
  · rintro ⟨h1, h2, h3, h4⟩
    refine ⟨?_, ?_, ?_, ?_⟩
    · exact h1
    · rw [e, cutoff_swapKL]; exact h2
    · rw [e, cutoff_swapKL]; exact h3
    · rw [e, cutoff_swapKL, srExp_swapKL]; exact h4

theorem contract4_swapIJ (ni nj nk nl : ℕ) (ci cj ck cl : ℕ → ℝ) (f : ℕ → ℕ → ℕ → ℕ → ℝ) (ic jc kc lc : ℕ) :
    contract4 nj ni nk nl cj ci ck cl (fun jp ip kp lp => f ip jp kp lp) jc ic kc lc =
      contract4 ni nj nk nl ci cj ck cl f ic jc kc lc := by
  unfold contract4
  refine Finset.sum_congr rfl fun _ _ => Finset.sum_congr rfl fun _ _ => ?_
  rw [Finset.sum_comm]
  refine Finset.sum_congr rfl fun _ _ => Finset.sum_congr rfl fun _ _ => ?_
  ring

theorem contract4_swapKL (ni nj nk nl : ℕ) (ci cj ck cl : ℕ → ℝ) (f : ℕ → ℕ → ℕ → ℕ → ℝ) (ic jc kc lc : ℕ) :
    contract4 ni nj nl nk ci cj cl ck (fun ip jp lp kp => f ip jp kp lp) ic jc lc kc =
      contract4 ni nj nk nl ci cj ck cl f ic jc kc lc := by
  unfold contract4
  rw [Finset.sum_comm]
  refine Finset.sum_congr rfl fun _ _ => Finset.sum_congr rfl fun _ _ => Finset.sum_congr rfl fun _ _ =>
    Finset.sum_congr rfl fun _ _ => ?_
  ring

/-- **C29** exchanging the first two shells transposes the block, whatever is screened. -/
theorem C29_swap_ij {L : MathLib ℝ} {s : Call2 ℝ} {R : Rys2 ℝ} (A : CartMem4 eriInt s) (B : CartMem4 eriInt (swapIJ s))
    (hL : L.exp = Real.exp) (hp : PosExp s) (hR : RootsOK R s) (h15 : LOK s) :
    ∃ ra ha rb hb, CartEnds4 A R realK L ra ha ∧ CartEnds4 B R realK L rb hb ∧
      ∀ ic jc kc lc i j k l, ic < s.si.nctr → jc < s.sj.nctr → kc < s.sk.nctr → lc < s.sl.nctr →
        i < ncart s.si.l → j < ncart s.sj.l → k < ncart s.sk.l → l < ncart s.sl.l →
        ∃ x, A.elem ha 0 ic i jc j kc k lc l = .val x ∧ B.elem hb 0 jc j ic i kc k lc l = .val x := by
  obtain ⟨ra, ha, e1, v1⟩ := C44_eri (L := L) A hL (maxCoeff_exists s.si) (maxCoeff_exists s.sj) (maxCoeff_exists s.sk)
    (maxCoeff_exists s.sl) hp hR h15
  have h15' : LOK (swapIJ s) := by
    obtain ⟨a, b, c, d⟩ := (lok_iff s).1 h15
    exact (lok_iff _).2 ⟨b, a, c, d⟩
  obtain ⟨rb, hb, e2, v2⟩ := C44_eri (L := L) B hL (maxCoeff_exists s.sj) (maxCoeff_exists s.si) (maxCoeff_exists s.sk)
    (maxCoeff_exists s.sl) (posExp_swapIJ hp) (rootsOK_swapIJ hR) h15'
  refine ⟨ra, ha, rb, hb, e1, e2, fun ic jc kc lc i j k l a2 a3 a4 a5 a6 a7 a8 a9 =>
    ⟨_, v1 ic jc kc lc i j k l a2 a3 a4 a5 a6 a7 a8 a9, (v2 jc ic kc lc j i k l a3 a2 a4 a5 a7 a6 a8 a9).trans ?_⟩⟩
  congr 1
  refine congrArg₂ (· * ·) (by show spNorm s.sj.l * spNorm s.si.l * spNorm s.sk.l * spNorm s.sl.l = _; ring) ?_
  refine Eq.trans ?_ (contract4_swapIJ s.si.nprim s.sj.nprim s.sk.nprim s.sl.nprim s.si.c s.sj.c s.sk.c s.sl.c _ ic jc kc lc)
  refine congrArg (fun f => contract4 _ _ _ _ _ _ _ _ f jc ic kc lc) ?_
  funext jp ip kp lp
  by_cases hkp : Kept4 L s (fun ip => maxAbsC s.si.c s.si.nprim ip s.si.nctr) (fun ip => maxAbsC s.sj.c s.sj.nprim ip s.sj.nctr)
      (fun ip => maxAbsC s.sk.c s.sk.nprim ip s.sk.nctr) (fun ip => maxAbsC s.sl.c s.sl.nprim ip s.sl.nctr) ip jp kp lp
  · rw [if_pos (kept4_swapIJ.2 hkp), if_pos hkp]
    refine congrArg₂ (repulsion _) ?_ ?_
    all_goals funext r
    · exact mul_comm _ _
    · rfl
  · rw [if_neg (fun h => hkp (kept4_swapIJ.1 h)), if_neg hkp]

/-- **C29** exchanging the last two shells transposes the block, whatever is screened. -/
theorem C29_swap_kl {L : MathLib ℝ} {s : Call2 ℝ} {R : Rys2 ℝ} (A : CartMem4 eriInt s) (B : CartMem4 eriInt (swapKL s))
    (hL : L.exp = Real.exp) (hp : PosExp s) (hR : RootsOK R s) (h15 : LOK s) :
    ∃ ra ha rb hb, CartEnds4 A R realK L ra ha ∧ CartEnds4 B R realK L rb hb ∧
      ∀ ic jc kc lc i j k l, ic < s.si.nctr → jc < s.sj.nctr → kc < s.sk.nctr → lc < s.sl.nctr →
        i < ncart s.si.l → j < ncart s.sj.l → k < ncart s.sk.l → l < ncart s.sl.l →
        ∃ x, A.elem ha 0 ic i jc j kc k lc l = .val x ∧ B.elem hb 0 ic i jc j lc l kc k = .val x := by
  obtain ⟨ra, ha, e1, v1⟩ := C44_eri (L := L) A hL (maxCoeff_exists s.si) (maxCoeff_exists s.sj) (maxCoeff_exists s.sk)
    (maxCoeff_exists s.sl) hp hR h15
  have h15' : LOK (swapKL s) := by
    obtain ⟨a, b, c, d⟩ := (lok_iff s).1 h15
    exact (lok_iff _).2 ⟨a, b, d, c⟩
  obtain ⟨rb, hb, e2, v2⟩ := C44_eri (L := L) B hL (maxCoeff_exists s.si) (maxCoeff_exists s.sj) (maxCoeff_exists s.sl)
    (maxCoeff_exists s.sk) (posExp_swapKL hp) (rootsOK_swapKL hR) h15'
  refine ⟨ra, ha, rb, hb, e1, e2, fun ic jc kc lc i j k l a2 a3 a4 a5 a6 a7 a8 a9 =>
    ⟨_, v1 ic jc kc lc i j k l a2 a3 a4 a5 a6 a7 a8 a9, (v2 ic jc lc kc i j l k a2 a3 a5 a4 a6 a7 a9 a8).trans ?_⟩⟩
  congr 1
  refine congrArg₂ (· * ·) (by show spNorm s.si.l * spNorm s.sj.l * spNorm s.sl.l * spNorm s.sk.l = _; ring) ?_
  refine Eq.trans ?_ (contract4_swapKL s.si.nprim s.sj.nprim s.sk.nprim s.sl.nprim s.si.c s.sj.c s.sk.c s.sl.c _ ic jc kc lc)
  refine congrArg (fun f => contract4 _ _ _ _ _ _ _ _ f ic jc lc kc) ?_
  funext ip jp lp kp
  by_cases hkp : Kept4 L s (fun ip => maxAbsC s.si.c s.si.nprim ip s.si.nctr) (fun ip => maxAbsC s.sj.c s.sj.nprim ip s.sj.nctr)
      (fun ip => maxAbsC s.sk.c s.sk.nprim ip s.sk.nctr) (fun ip => maxAbsC s.sl.c s.sl.nprim ip s.sl.nctr) ip jp kp lp
  · rw [if_pos (kept4_swapKL.2 hkp), if_pos hkp]
    refine congrArg₂ (repulsion _) ?_ ?_
    all_goals funext r
    · rfl
    · exact mul_comm _ _
  · rw [if_neg (fun h => hkp (kept4_swapKL.1 h)), if_neg hkp]

/-- **C29** exchanging the electrons transposes the block, when nothing is screened.  (The screening itself is not symmetric
in the two electrons.) -/
theorem C29_swap_electrons {L : MathLib ℝ} {s : Call2 ℝ} {R : Rys2 ℝ} (A : CartMem4 eriInt s) (B : CartMem4 eriInt (swapE s))
    (hL : L.exp = Real.exp) (hk1 : AllKept L s) (hk2 : AllKept L (swapE s)) (hp : PosExp s) (hR : RootsOK R s) (h15 : LOK s) :
    ∃ ra ha rb hb, CartEnds4 A R realK L ra ha ∧ CartEnds4 B R realK L rb hb ∧
      ∀ ic jc kc lc i j k l, ic < s.si.nctr → jc < s.sj.nctr → kc < s.sk.nctr → lc < s.sl.nctr →
        i < ncart s.si.l → j < ncart s.sj.l → k < ncart s.sk.l → l < ncart s.sl.l →
        ∃ x, A.elem ha 0 ic i jc j kc k lc l = .val x ∧ B.elem hb 0 kc k lc l ic i jc j = .val x := by
  obtain ⟨ra, ha, e1, v1⟩ := C44_eri_exact (L := L) A hL hk1 hp hR h15
  have h15' : LOK (swapE s) := by
    obtain ⟨a, b, c, d⟩ := (lok_iff s).1 h15
    exact (lok_iff _).2 ⟨c, d, a, b⟩
  obtain ⟨rb, hb, e2, v2⟩ := C44_eri_exact (L := L) B hL hk2 (posExp_swapE hp) (rootsOK_swapE hR) h15'
  refine ⟨ra, ha, rb, hb, e1, e2, fun ic jc kc lc i j k l a2 a3 a4 a5 a6 a7 a8 a9 =>
    ⟨_, v1 ic jc kc lc i j k l a2 a3 a4 a5 a6 a7 a8 a9, (v2 kc lc ic jc k l i j a4 a5 a2 a3 a8 a9 a6 a7).trans ?_⟩⟩
  congr 1
  simp only [swapE]
  rw [repulsion_comm]
  ring

/-- **C29**, spherical output, nothing screened: all eight permutations. -/
theorem C29_spherical {L : MathLib ℝ} {s : Call2 ℝ} {R : Rys2 ℝ} (A : SphMem4 eriInt s) (B : SphMem4 eriInt (swapIJ s))
    (C : SphMem4 eriInt (swapKL s)) (D : SphMem4 eriInt (swapE s)) (hL : L.exp = Real.exp) (hkA : AllKept L s)
    (hkB : AllKept L (swapIJ s)) (hkC : AllKept L (swapKL s)) (hkD : AllKept L (swapE s)) (hp : PosExp s) (hR : RootsOK R s)
    (h15 : LOK s) :
    ∃ ra ha rb hb rc hc rd hd, SphEnds4 A R realK L ra ha ∧ SphEnds4 B R realK L rb hb ∧ SphEnds4 C R realK L rc hc ∧
      SphEnds4 D R realK L rd hd ∧
      ∀ ic jc kc lc i j k l, ic < s.si.nctr → jc < s.sj.nctr → kc < s.sk.nctr → lc < s.sl.nctr →
        i < s.si.l*2+1 → j < s.sj.l*2+1 → k < s.sk.l*2+1 → l < s.sl.l*2+1 →
        ∃ x, A.elem ha 0 ic i jc j kc k lc l = .val x ∧ B.elem hb 0 jc j ic i kc k lc l = .val x ∧
          C.elem hc 0 ic i jc j lc l kc k = .val x ∧ D.elem hd 0 kc k lc l ic i jc j = .val x := by
  obtain ⟨q0, q1, q2, q3⟩ := (lok_iff s).1 h15
  obtain ⟨ra, ha, e1, v1⟩ := C44_eri_spherical (L := L) A hL hkA hp hR h15
  obtain ⟨rb, hb, e2, v2⟩ := C44_eri_spherical (L := L) B hL hkB (posExp_swapIJ hp) (rootsOK_swapIJ hR) ((lok_iff _).2 ⟨q1, q0, q2, q3⟩)
  obtain ⟨rc, hc, e3, v3⟩ := C44_eri_spherical (L := L) C hL hkC (posExp_swapKL hp) (rootsOK_swapKL hR) ((lok_iff _).2 ⟨q0, q1, q3, q2⟩)
  obtain ⟨rd, hd, e4, v4⟩ := C44_eri_spherical (L := L) D hL hkD (posExp_swapE hp) (rootsOK_swapE hR) ((lok_iff _).2 ⟨q2, q3, q0, q1⟩)
  refine ⟨ra, ha, rb, hb, rc, hc, rd, hd, e1, e2, e3, e4, fun ic jc kc lc i j k l a2 a3 a4 a5 a6 a7 a8 a9 =>
    ⟨_, v1 ic jc kc lc i j k l a2 a3 a4 a5 a6 a7 a8 a9, (v2 jc ic kc lc j i k l a3 a2 a4 a5 a7 a6 a8 a9).trans ?_,
      (v3 ic jc lc kc i j l k a2 a3 a5 a4 a6 a7 a9 a8).trans ?_, (v4 kc lc ic jc k l i j a4 a5 a2 a3 a8 a9 a6 a7).trans ?_⟩⟩
  · congr 2
    funext r
    exact mul_comm _ _
  · congr 2
    funext r
    exact mul_comm _ _
  · congr 1
    exact repulsion_comm _ _ _

/-! ### Range separation -/

/-- the call with another `env[PTR_RANGE_OMEGA]` -/
def withOmega {α : Type} (s : Call2 α) (omega : α) : Call2 α := { s with omega := omega }

theorem interaction_split {w : ℝ} (hw : 0 < w) (x y : Fin 3 → ℝ) :
    interaction (-w) x y = interaction 0 x y - interaction w x y := by
  unfold interaction
  rw [if_neg (by linarith), if_pos (by linarith), if_pos rfl, if_neg hw.ne', if_neg (by linarith), neg_neg, coulombSR_eq]

theorem repulsion_split {w : ℝ} (hw : 0 < w) {f g : (Fin 3 → ℝ) → ℝ}
    (h0 : Integrable fun z : (Fin 3 → ℝ) × (Fin 3 → ℝ) => f z.1 * interaction 0 z.1 z.2 * g z.2)
    (h1 : Integrable fun z : (Fin 3 → ℝ) × (Fin 3 → ℝ) => f z.1 * interaction w z.1 z.2 * g z.2) :
    repulsion (interaction (-w)) f g = repulsion (interaction 0) f g - repulsion (interaction w) f g := by
  unfold repulsion
  rw [← integral_sub h0 h1]
  congr 1
  funext z
  rw [interaction_split hw]
  ring

/-- **C38** range separation: when nothing is screened, the integrals with `omega = -w` are those with `omega = 0` minus those
with `omega = w`, for every order, that is, whether the code combines two full root sets or calls the short-range root
finder. -/
theorem C38_range_separation {L : MathLib ℝ} {s : Call2 ℝ} {R : Rys2 ℝ} {w : ℝ} (hw : 0 < w)
    (A : CartMem4 eriInt (withOmega s (-w))) (B : CartMem4 eriInt (withOmega s 0)) (C : CartMem4 eriInt (withOmega s w))
    (hL : L.exp = Real.exp) (hkA : AllKept L (withOmega s (-w))) (hkB : AllKept L (withOmega s 0))
    (hkC : AllKept L (withOmega s w)) (hp : PosExp s) (hRA : RootsOK R (withOmega s (-w))) (hRB : RootsOK R (withOmega s 0))
    (hRC : RootsOK R (withOmega s w)) (h15 : LOK s) :
    ∃ ra ha rb hb rc hc, CartEnds4 A R realK L ra ha ∧ CartEnds4 B R realK L rb hb ∧ CartEnds4 C R realK L rc hc ∧
      ∀ ic jc kc lc i j k l, ic < s.si.nctr → jc < s.sj.nctr → kc < s.sk.nctr → lc < s.sl.nctr →
        i < ncart s.si.l → j < ncart s.sj.l → k < ncart s.sk.l → l < ncart s.sl.l →
        ∃ full long, B.elem hb 0 ic i jc j kc k lc l = .val full ∧ C.elem hc 0 ic i jc j kc k lc l = .val long ∧
          A.elem ha 0 ic i jc j kc k lc l = .val (full - long) := by
  have hp' : ∀ o, PosExp (withOmega s o) := fun o => ⟨hp.ij, hp.kl⟩
  obtain ⟨ra, ha, e1, v1⟩ := C44_eri_exact (L := L) A hL hkA (hp' _) hRA h15
  obtain ⟨rb, hb, e2, v2⟩ := C44_eri_exact (L := L) B hL hkB (hp' _) hRB h15
  obtain ⟨rc, hc, e3, v3⟩ := C44_eri_exact (L := L) C hL hkC (hp' _) hRC h15
  refine ⟨ra, ha, rb, hb, rc, hc, e1, e2, e3, fun ic jc kc lc i j k l a2 a3 a4 a5 a6 a7 a8 a9 =>
    ⟨_, _, v2 ic jc kc lc i j k l a2 a3 a4 a5 a6 a7 a8 a9, v3 ic jc kc lc i j k l a2 a3 a4 a5 a6 a7 a8 a9,
      (v1 ic jc kc lc i j k l a2 a3 a4 a5 a6 a7 a8 a9).trans ?_⟩⟩
  congr 1
  refine Eq.trans ?_ (mul_sub _ _ _)
  refine congrArg₂ _ rfl ?_
  exact repulsion_split hw (repulsion_cfun hp 0 ic jc kc lc i j k l).1 (repulsion_cfun hp w ic jc kc lc i j k l).1

/-! ### The hypotheses can be met -/
namespace EriDemo
open OvlpDemo SphDemo

theorem exists_rys2 : ∃ R : Rys2 ℝ, ∀ n, Rys2OK R n := by
  have h1 : ∀ (n : ℕ) (x : ℝ), ∃ u w : ℕ → ℝ, RysExact n x u w := fun n x => exists_rys x n
  have h2 : ∀ (n : ℕ) (x l : ℝ), ∃ u w : ℕ → ℝ, 0 ≤ l → l < 1 → RysExactSR n x l u w := by
    intro n x l
    by_cases h : 0 ≤ l ∧ l < 1
    · obtain ⟨u, w, huw⟩ := exists_rysSR x h.1 h.2 n
      exact ⟨u, w, fun _ _ => huw⟩
    · exact ⟨fun _ => 0, fun _ => 0, fun a b => absurd ⟨a, b⟩ h⟩
  choose u w hu using h1
  choose su sw hs using h2
  exact ⟨{ u := u, w := w, sru := su, srw := sw }, fun n => ⟨fun m _ x _ => hu m x, fun x l _ l0 l1 => hs n x l l0 l1⟩⟩

/-- p, d, s and p shells with two primitives and two contractions each -/
noncomputable def call4 (omega : ℝ) : Call2 ℝ where
  si := { nprim := 2, nctr := 2, l := 1, a := fun _ => 1, c := fun _ => 1, r := fun _ => 0 }
  sj := { nprim := 2, nctr := 2, l := 2, a := fun _ => 1, c := fun _ => 1, r := fun _ => 0 }
  sk := { nprim := 2, nctr := 2, l := 0, a := fun _ => 1, c := fun _ => 1, r := fun _ => 0 }
  sl := { nprim := 2, nctr := 2, l := 1, a := fun _ => 1, c := fun _ => 1, r := fun _ => 0 }
  envCut := 0
  omega := omega

theorem one_max (l : Nat) : MaxCoeff ({ nprim := 2, nctr := 2, l := l, a := fun _ => 1, c := fun _ => 1, r := fun _ => 0 } : PShell ℝ)
    (fun _ => (1:ℝ)) := by
  intro ip hip
  exact ⟨fun i _ => ⟨le_refl _, by show -(1:ℝ) ≤ 1; norm_num⟩, Or.inr ⟨0, by show 0 < 2; omega, Or.inl rfl⟩⟩

theorem base_nonpos : -(17/10 - 15/10 * Real.log (1+1)) ≤ (0:ℝ) := by
  have h2 : (1:ℝ) + 1 = 2 := by norm_num
  rw [h2]
  have := Real.log_le_sub_one_of_pos (show (0:ℝ) < 2 by norm_num)
  linarith

theorem log_shift {o a : ℝ} (ha : 0 < a) : 0 ≤ Real.log (0 + o*o/(o*o+a)*8 + 1) := by
  apply Real.log_nonneg
  have : 0 ≤ o*o/(o*o+a) := div_nonneg (mul_self_nonneg o) (by nlinarith [mul_self_nonneg o])
  linarith

theorem estIJ_nonpos (o : ℝ) (ip jp : Nat) : estIJ lib (call4 o) (fun _ => 1) (fun _ => 1) ip jp ≤ 0 := by
  have hb := base_nonpos
  have hl := log_shift (o := o) (a := 1+1) (by norm_num)
  unfold estIJ est pairEstimate logBound prodExponent rr2 lib call4
  simp only [sub_zero, mul_zero, add_zero, Real.sqrt_zero, Real.log_one]
  split_ifs <;> push_cast <;> simp only [zero_add, Real.log_one, mul_zero] at * <;> nlinarith

theorem estKL_nonpos (o : ℝ) (kp lp : Nat) : estKL lib (call4 o) (fun _ => 1) (fun _ => 1) kp lp ≤ 0 := by
  have hb := base_nonpos
  have hl := log_shift (o := o) (a := 1+1) (by norm_num)
  unfold estKL Call2.logRRkl prodExponent rr2 lib call4
  simp only [sub_zero, mul_zero, add_zero, Real.sqrt_zero, Real.log_one]
  split_ifs <;> push_cast <;> simp only [zero_add, Real.log_one, mul_zero] at * <;> nlinarith

theorem cutoff_ge (o : ℝ) : 60 ≤ (call4 o).cutoff eriInt lib := by
  have hl := log_shift (o := o) (a := 1+1) (by norm_num)
  have hc : cutoff2e (call4 o).envCut = 60 := if_pos rfl
  unfold Call2.cutoff
  dsimp only
  rw [hc]
  split
  · unfold rr2 lib call4
    simp only [sub_zero, mul_zero, add_zero, Real.sqrt_zero, zero_add, div_one] at *
    have : (0:ℝ) ≤ ((Call2.env eriInt (call4 o)).li_ceil + (Call2.env eriInt (call4 o)).lj_ceil : ℕ) := Nat.cast_nonneg _
    have := mul_nonneg this hl
    unfold call4 at this
    linarith
  · exact le_refl _

theorem allKept (o : ℝ) : AllKept lib (call4 o) := by
  refine ⟨fun _ => 1, fun _ => 1, fun _ => 1, fun _ => 1, one_max 1, one_max 2, one_max 0, one_max 1, fun ip jp kp lp _ _ _ _ => ?_⟩
  have h1 := estIJ_nonpos o ip jp
  have h2 := estKL_nonpos o kp lp
  have h3 := cutoff_ge o
  have hc : cutoff2e (call4 o).envCut = 60 := if_pos rfl
  have hs : srExp (call4 o) ip jp kp lp = 0 := by
    unfold srExp call4
    simp
  refine ⟨by rw [hc]; linarith, by linarith, by linarith, fun _ => ⟨by rw [hs]; norm_num, by rw [hs]; linarith⟩⟩

theorem posExp (o : ℝ) : PosExp (call4 o) :=
  ⟨fun _ _ _ _ => by show (0:ℝ) < 1 + 1; norm_num, fun _ _ _ _ => by show (0:ℝ) < 1 + 1; norm_num⟩

theorem lok (o : ℝ) : LOK (call4 o) :=
  (lok_iff _).2 ⟨by show 1 ≤ 15; omega, by show 2 ≤ 15; omega, by show 0 ≤ 15; omega, by show 1 ≤ 15; omega⟩

theorem ctr_pos (o : ℝ) : ∀ t, t < 4 → 0 < Call2.nctrs (call4 o) t := by
  show ∀ t, t < 4 → 0 < four 2 2 2 2 t
  decide

noncomputable def cartMem4 (s : Call2 ℝ) (h : ∀ t, t < 4 → 0 < Call2.nctrs s t) : CartMem4 eriInt s := blankMem4 eriInt s h

/-- the short-range integral of p_y (second contraction), d_xz, s and p_z -/
example : ∃ R has h', CartEnds4 (cartMem4 (call4 (-1/2)) (ctr_pos _)) R realK lib has h' ∧
    (cartMem4 (call4 (-1/2)) (ctr_pos _)).elem h' 0 1 1 0 2 1 0 0 2 = .val (spNorm 1 * spNorm 2 * spNorm 0 * spNorm 1 *
      repulsion (interaction (-1/2)) (fun r => cfun (call4 (-1/2)).si 1 1 r * cfun (call4 (-1/2)).sj 0 2 r)
        (fun r => cfun (call4 (-1/2)).sk 1 0 r * cfun (call4 (-1/2)).sl 0 2 r)) := by
  obtain ⟨R, hR⟩ := exists_rys2
  obtain ⟨has, h', h1, h2⟩ := C44_eri_exact (L := lib) (R := R) (cartMem4 (call4 (-1/2)) (ctr_pos _)) rfl (allKept _) (posExp _)
    (hR _) (lok _)
  exact ⟨R, has, h', h1, h2 1 0 1 0 1 2 0 2 (by show 1 < 2; omega) (by show 0 < 2; omega) (by show 1 < 2; omega)
    (by show 0 < 2; omega) (by show 1 < ncart 1; decide) (by show 2 < ncart 2; decide) (by show 0 < ncart 0; decide)
    (by show 2 < ncart 1; decide)⟩

/-- range separation for the same shells -/
example : ∃ R ra ha rb hb rc hc, CartEnds4 (cartMem4 (call4 (-(1/2))) (ctr_pos _)) R realK lib ra ha ∧
    CartEnds4 (cartMem4 (call4 0) (ctr_pos _)) R realK lib rb hb ∧
    CartEnds4 (cartMem4 (call4 (1/2)) (ctr_pos _)) R realK lib rc hc := by
  obtain ⟨R, hR⟩ := exists_rys2
  obtain ⟨ra, ha, rb, hb, rc, hc, e1, e2, e3, _⟩ := C38_range_separation (L := lib) (R := R) (s := call4 0) (w := 1/2)
    (by norm_num) (cartMem4 (call4 (-(1/2))) (ctr_pos _)) (cartMem4 (call4 0) (ctr_pos _)) (cartMem4 (call4 (1/2)) (ctr_pos _))
    rfl (allKept _) (allKept _) (allKept _) (posExp _) (hR _) (hR _) (hR _) (lok _)
  exact ⟨R, ra, ha, rb, hb, rc, hc, e1, e2, e3⟩

/-- the permutation theorem applies to it -/
example : ∃ R ra ha rb hb, CartEnds4 (cartMem4 (call4 (-1/2)) (ctr_pos _)) R realK lib ra ha ∧
    CartEnds4 (cartMem4 (swapIJ (call4 (-1/2))) (ctr_pos (-1/2))) R realK lib rb hb := by
  obtain ⟨R, hR⟩ := exists_rys2
  obtain ⟨ra, ha, rb, hb, e1, e2, _⟩ := C29_swap_ij (L := lib) (R := R) (s := call4 (-1/2)) (cartMem4 (call4 (-1/2)) (ctr_pos _))
    (cartMem4 (swapIJ (call4 (-1/2))) (ctr_pos (-1/2))) rfl (posExp _) (hR _) (lok _)
  exact ⟨R, ra, ha, rb, hb, e1, e2⟩

/-- memory for a call with spherical output -/
noncomputable def sphMem4 (s : Call2 ℝ) (h : ∀ t, t < 4 → 0 < Call2.nctrs s t) : SphMem4 eriInt s where
  fpd := 1
  buf := 0
  size := cacheSize2e eriInt s
  empty := ⟨4, 0⟩
  fl := ⟨1, 0⟩
  loc := ⟨2, 0⟩
  counts := ⟨3, 0⟩
  out := ⟨5, 7⟩
  dims := none
  nd := fun t => nsph (Call2.ls s) t * Call2.nctrs s t
  h := memR
  hs := ⟨Or.inr (Or.inr rfl), fun t _ => Nat.succ_pos _, fun t ht => h t ht, fun t a b => absurd a (by omega), fun t _ => le_refl _⟩
  M := ⟨by omega, fun k _ => by simp [memR], fun k _ => by simp [memR], by simp [memR], fun k _ => by simp [memR],
    fun k _ => by simp [memR], fun k _ => by simp [memR], by decide, by decide, by decide, by decide, by decide⟩
  hsize := le_refl _
  O := { h_dims := fun t _ => rfl
         h_dbuf := fun d hd => nomatch hd
         h_out := fun m _ => by simp [memR]
         h_obuf := by decide }
  tab := ⟨9, 0⟩
  hT := tabR
  htb := by decide
  hto := by decide

example : ∃ R has h', SphEnds4 (sphMem4 (call4 (1/3)) (ctr_pos _)) R realK lib has h' ∧
    (sphMem4 (call4 (1/3)) (ctr_pos _)).elem h' 0 1 1 0 4 1 0 0 2 = .val (repulsion (interaction (1/3))
      (fun r => sgto (call4 (1/3)).si 1 1 r * sgto (call4 (1/3)).sj 0 4 r)
        (fun r => sgto (call4 (1/3)).sk 1 0 r * sgto (call4 (1/3)).sl 0 2 r)) := by
  obtain ⟨R, hR⟩ := exists_rys2
  obtain ⟨has, h', h1, h2⟩ := C44_eri_spherical (L := lib) (R := R) (sphMem4 (call4 (1/3)) (ctr_pos _)) rfl (allKept _) (posExp _)
    (hR _) (lok _)
  exact ⟨R, has, h', h1, h2 1 0 1 0 1 4 0 2 (by show 1 < 2; omega) (by show 0 < 2; omega) (by show 1 < 2; omega)
    (by show 0 < 2; omega) (by show 1 < 1*2+1; omega) (by show 4 < 2*2+1; omega) (by show 0 < 0*2+1; omega)
    (by show 2 < 1*2+1; omega)⟩
end EriDemo

end Verif.Props
