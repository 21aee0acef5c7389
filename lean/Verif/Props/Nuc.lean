import Verif.Props.Ovlp
import Verif.Lemmas.Nuc
import Verif.Lemmas.RysExist
import Verif.Props.SphDrv

/-!
C30 — nuclear attraction integrals: every nucleus contributes exactly once, with its own charge, position
and charge model.
-/
namespace Verif.Props
open Verif Verif.Model Verif.Prog Verif.Lemmas Verif.Spec MeasureTheory

/-- the charge of a nucleus: `env[PTR_FRAC_CHARGE]` for the fractional charge model, else the atomic number -/
noncomputable def nucCharge (A : Atom ℝ) : ℝ := if A.nucMod = 3 then A.frac else (A.charge.natAbs : ℝ)
/-- the exponent of its charge distribution: `env[PTR_ZETA]` for the Gaussian model, else 0 (a point charge) -/
noncomputable def nucZeta (A : Atom ℝ) : ℝ := if A.nucMod = 2 then A.zeta else 0
/-- where it is -/
def nucPos (A : Atom ℝ) : Fin 3 → ℝ := fun k => A.coord k
/-- the potential of all the nuclei for an electron -/
noncomputable def attraction (atoms : List (Atom ℝ)) (r : Fin 3 → ℝ) : ℝ :=
  (atoms.map fun A => -nucCharge A * potential (nucZeta A) (nucPos A) r).sum

/-- the potential of any list of centres -/
noncomputable def srcPotential (l : List (Src ℝ)) (r : Fin 3 → ℝ) : ℝ :=
  (l.map fun S => S.q * potential S.zeta (fun k => S.r k) r).sum

theorem srcPotential_nuc (atoms : List (Atom ℝ)) : srcPotential (NucCall.nuc atoms).srcs = attraction atoms := by
  funext r
  unfold srcPotential attraction NucCall.srcs
  dsimp only
  rw [List.map_map]
  congr 1
  refine List.map_congr_left (fun A _ => ?_)
  unfold Atom.src nucCharge nucZeta nucPos gaussianNuc fracChargeNuc Function.comp
  dsimp only
  split <;> rfl

/-- the product of two primitives -/
theorem gto_mul_eq {a b : ℝ} (hab : a + b ≠ 0) (A B : Fin 3 → ℝ) (n m : Fin 3 → ℕ) (r : Fin 3 → ℝ) :
    gto a A n r * gto b B m r = Real.exp (-(a*b/(a+b)) * ∑ k, (A k - B k)^2) *
      pg (a+b) (fun k => (a*A k+b*B k)/(a+b)) (fun k => pq (A k) (B k) (n k) (m k)) r := by
  rw [gto_prod, gto_prod, ← Finset.prod_mul_distrib, Finset.mul_sum, Real.exp_sum, pg, ← Finset.prod_mul_distrib]
  refine Finset.prod_congr rfl (fun k _ => ?_)
  have := gauss_product hab (A k) (B k) (r k)
  simp only [pq, gto1, Polynomial.eval_mul, Polynomial.eval_pow, Polynomial.eval_sub, Polynomial.eval_X,
    Polynomial.eval_C]
  linear_combination (r k-A k)^n k * (r k-B k)^m k * this

theorem integrable_gto_potential {a b : ℝ} (hab : 0 < a + b) (A B : Fin 3 → ℝ) (n m : Fin 3 → ℕ) (ζ : ℝ)
    (c : Fin 3 → ℝ) : Integrable fun r => gto a A n r * potential ζ c r * gto b B m r := by
  have := (int_pg_potential hab ζ (fun k => (a*A k+b*B k)/(a+b)) c (fun k => pq (A k) (B k) (n k) (m k))).1.const_mul
    (Real.exp (-(a*b/(a+b)) * ∑ k, (A k - B k)^2))
  refine this.congr (Filter.Eventually.of_forall fun r => ?_)
  have := gto_mul_eq hab.ne' A B n m r
  dsimp only
  linear_combination -potential ζ c r * this

theorem integrable_gto_src {a b : ℝ} (hab : 0 < a + b) (A B : Fin 3 → ℝ) (n m : Fin 3 → ℕ) (l : List (Src ℝ)) :
    Integrable (fun r => gto a A n r * srcPotential l r * gto b B m r) ∧
    braketV (srcPotential l) (gto a A n) (gto b B m) =
      Real.exp (-(a*b/(a+b)) * ∑ k, (A k - B k)^2) * (l.map fun S => S.q *
        ∫ r, pg (a+b) (fun k => (a*A k+b*B k)/(a+b)) (fun k => pq (A k) (B k) (n k) (m k)) r *
          potential S.zeta (fun k => S.r k) r).sum := by
  induction l with
  | nil =>
    have : (fun r => gto a A n r * srcPotential [] r * gto b B m r) = fun _ => 0 := by
      funext r; simp [srcPotential]
    refine ⟨by rw [this]; exact integrable_zero _ _ _, ?_⟩
    unfold braketV
    rw [this]
    simp
  | cons S l ih =>
    obtain ⟨i1, i2⟩ := ih
    have h0 := (integrable_gto_potential hab A B n m S.zeta (fun k => S.r k)).const_mul S.q
    have he : (fun r => gto a A n r * srcPotential (S::l) r * gto b B m r) = fun r =>
        S.q * (gto a A n r * potential S.zeta (fun k => S.r k) r * gto b B m r) +
          gto a A n r * srcPotential l r * gto b B m r := by
      funext r
      simp only [srcPotential, List.map_cons, List.sum_cons]
      ring
    refine ⟨by rw [he]; exact h0.add i1, ?_⟩
    unfold braketV at i2 ⊢
    rw [he, integral_add h0 i1, i2, List.map_cons, List.sum_cons, mul_add]
    congr 1
    rw [integral_const_mul, ← mul_assoc, mul_comm (Real.exp _), mul_assoc]
    congr 1
    rw [← integral_const_mul]
    congr 1
    funext r
    have := gto_mul_eq hab.ne' A B n m r
    linear_combination potential S.zeta (fun k => S.r k) r * this

theorem braketV_cgto {V : (Fin 3 → ℝ) → ℝ} {ni nj : ℕ} {ai ci aj cj : ℕ → ℝ} {A B : Fin 3 → ℝ} {n m : Fin 3 → ℕ}
    {ic jc : ℕ} (h : ∀ ip jp, ip < ni → jp < nj → Integrable fun r => gto (ai ip) A n r * V r * gto (aj jp) B m r) :
    braketV V (cgto ni ai ci A ic n) (cgto nj aj cj B jc m) =
      contract2 ni nj ci cj (fun ip jp => braketV V (gto (ai ip) A n) (gto (aj jp) B m)) ic jc := by
  unfold braketV contract2 cgto
  simp_rw [← integral_const_mul]
  have hint : ∀ jp ∈ Finset.range nj, ∀ ip ∈ Finset.range ni, Integrable fun r =>
      cj (nj*jc+jp) * ci (ni*ic+ip) * (gto (ai ip) A n r * V r * gto (aj jp) B m r) := fun jp hj ip hi =>
    (h ip jp (Finset.mem_range.1 hi) (Finset.mem_range.1 hj)).const_mul _
  have h2 : ∀ jp ∈ Finset.range nj, (∑ ip ∈ Finset.range ni, ∫ r, cj (nj*jc+jp) * ci (ni*ic+ip) *
      (gto (ai ip) A n r * V r * gto (aj jp) B m r)) = ∫ r, ∑ ip ∈ Finset.range ni, cj (nj*jc+jp) * ci (ni*ic+ip) *
      (gto (ai ip) A n r * V r * gto (aj jp) B m r) := fun jp hj => (integral_finset_sum _ (hint jp hj)).symm
  rw [Finset.sum_congr rfl h2, ← integral_finset_sum _ (fun jp hj => integrable_finset_sum _ (hint jp hj))]
  congr 1
  funext r
  rw [Finset.sum_mul, Finset.sum_mul_sum, Finset.sum_comm]
  refine Finset.sum_congr rfl (fun jp _ => Finset.sum_congr rfl (fun ip _ => ?_))
  ring

/-- the root finder returns the roots and weights of Rys quadrature for `n` roots and any argument it is given -/
def RysOK (R : Rys ℝ) (n : ℕ) : Prop := ∀ x, 0 ≤ x → RysExact n x (R.u n x) (R.w n x)

theorem nucX_nonneg {p τ : ℝ} (hp : 0 < p) (P c : Nat → ℝ) : 0 ≤ nucX p τ P c := by
  rw [nucX_eq]
  exact mul_nonneg (mul_nonneg hp.le (sq_nonneg _)) (Finset.sum_nonneg fun _ _ => sq_nonneg _)

theorem nuc_eval {L : MathLib ℝ} {s : Call ℝ} {R : Rys ℝ} {N : NucCall ℝ}
    (hpos : ∀ ip jp, ip < s.si.nprim → jp < s.sj.nprim → 0 < s.si.a ip + s.sj.a jp)
    (hN : N.srcs ≠ []) (hR : RysOK R ((s.si.l + s.sj.l)/2 + 1)) :
    EvalOK realK L (nucInt R N) s (fun ip jp n => ((N.srcs.map fun S n => S.q *
      ∫ r, pg (s.si.a ip + s.sj.a jp) (fun k => pairVal L (s.pairArgs (nucInt R N)) ip jp k)
        (fun k => pq (s.si.r k) (s.sj.r k) (pw s.si.l k (n % ncart s.si.l)) (pw s.sj.l k (n / ncart s.si.l))) r *
          potential S.zeta (fun k => S.r k) r).map fun w => w n).sum) := by
  have hnf : (s.env (nucInt R N)).nf = (s.env (nucInt R N)).nfj * (s.env (nucInt R N)).nfi := Nat.mul_comm _ _
  have B := baseOK_int1e s.si.l s.sj.l (nucInt R N).ng
  have Sl := (C07_slab_int1e s.si.l s.sj.l (nucInt R N).ng)
  have hro : (s.env (nucInt R N)).nrys_roots = (s.si.l + s.sj.l)/2 + 1 := rfl
  refine evalOK_of_list (K := realK) (L := L) (X := nucInt R N) (s := s) (ws := fun ip jp => N.srcs.map fun S n => S.q *
      ∫ r, pg (s.si.a ip + s.sj.a jp) (fun k => pairVal L (s.pairArgs (nucInt R N)) ip jp k)
        (fun k => pq (s.si.r k) (s.sj.r k) (pw s.si.l k (n % ncart s.si.l)) (pw s.sj.l k (n / ncart s.si.l))) r *
          potential S.zeta (fun k => S.r k) r) ?_ ?_
  · intro ip jp _ _ h
    exact hN (List.map_eq_nil_iff.1 h)
  · intro ip jp g idx T hip hjp hT
    have hI : IdxT T idx ((s.env (nucInt R N)).nfj * (s.env (nucInt R N)).nfi) (adr2 (s.env (nucInt R N))) := by
      rw [← hnf]; exact hT
    show List.Forall₂ _ (N.srcs.map _) (N.srcs.map _)
    rw [List.forall₂_map_left_iff, List.forall₂_map_right_iff, List.forall₂_same]
    intro S _
    have hp := hpos ip jp hip hjp
    have key := nuc_kernel (R := R) (e := s.env (nucInt R N)) (d := s.g1 (nucInt R N) L ip jp) (S := S) (g := g)
      (idx := idx) (leng := s.leng (nucInt R N)) (T := T) B (by
          show 3 * (s.env (nucInt R N)).g_size ≤ (s.env (nucInt R N)).g_size * 3 * (2^0+1)
          omega) hp Sl (Nat.le_add_right _ _) (Nat.le_add_right _ _) rfl rfl (by
          rw [hro]
          show s.si.l + s.sj.l < _
          omega) hI (by
          rw [hro]
          exact hR _ (nucX_nonneg hp _ _))
    show KernelSpec T _ (fun _ gout em => gout1eNuc (s.env (nucInt R N)).nf _ idx g gout em) _
      ((s.env (nucInt R N)).nf * 1) true _
    rw [Nat.mul_one, hnf]
    exact key

/-- common part of the theorems below: one Cartesian block -/
theorem nuc_loopVal {L : MathLib ℝ} {s : Call ℝ} {mi mj : Nat → ℝ} {R : Rys ℝ} {N : NucCall ℝ} (hL : L.exp = Real.exp)
    (hi : MaxCoeff s.si mi) (hj : MaxCoeff s.sj mj)
    (hpos : ∀ ip jp, ip < s.si.nprim → jp < s.sj.nprim → 0 < s.si.a ip + s.sj.a jp)
    {ic jc i j : Nat} (h3 : i < ncart s.si.l) :
    loopVal realK L (nucInt R N) s (fun ip jp n => ((N.srcs.map fun S n => S.q *
      ∫ r, pg (s.si.a ip + s.sj.a jp) (fun k => pairVal L (s.pairArgs (nucInt R N)) ip jp k)
        (fun k => pq (s.si.r k) (s.sj.r k) (pw s.si.l k (n % ncart s.si.l)) (pw s.sj.l k (n / ncart s.si.l))) r *
          potential S.zeta (fun k => S.r k) r).map fun w => w n).sum) 0 ic jc (j*ncart s.si.l+i) =
      spNorm s.si.l * spNorm s.sj.l * contract2 s.si.nprim s.sj.nprim s.si.c s.sj.c (fun ip jp =>
            open Classical in if Kept L s mi mj (s.si.l + s.sj.l) ip jp then
              braketV (srcPotential N.srcs) (gto (s.si.a ip) (centre s.si) (powers s.si.l i))
                (gto (s.sj.a jp) (centre s.sj) (powers s.sj.l j)) else 0) ic jc := by
  unfold loopVal
  rw [spNorm_eq, spNorm_eq]
  show 1 * _ * _ * _ = _
  rw [one_mul]
  congr 1
  unfold contract2
  refine Finset.sum_congr rfl (fun jp hjp => Finset.sum_congr rfl (fun ip hip => ?_))
  rw [Finset.mem_range] at hjp hip
  congr 1
  dsimp only
  rw [List.map_map]
  show pairVal L (s.pairArgs (nucInt R N)) ip jp 3 * (N.srcs.map fun S => S.q *
      ∫ r, pg (s.si.a ip + s.sj.a jp) (fun k => pairVal L (s.pairArgs (nucInt R N)) ip jp k)
        (fun k => pq (s.si.r k) (s.sj.r k) (pw s.si.l k (((j*ncart s.si.l+i)*1+0) % ncart s.si.l))
          (pw s.sj.l k (((j*ncart s.si.l+i)*1+0) / ncart s.si.l))) r *
          potential S.zeta (fun k => S.r k) r).sum = _
  rw [Nat.mul_one, Nat.add_zero, (digit h3).1, (digit h3).2]
  by_cases hk : Kept L s mi mj (s.si.l + s.sj.l) ip jp
  · rw [if_pos hk]
    obtain ⟨p1, p2⟩ := pair_kept (X := nucInt R N) hL hi hj hip hjp (hpos ip jp hip hjp) hk
    rw [p1, (integrable_gto_src (hpos ip jp hip hjp) _ _ _ _ _).2]
    have hP : (fun k : Fin 3 => pairVal L (s.pairArgs (nucInt R N)) ip jp k) = fun k =>
        (s.si.a ip * centre s.si k + s.sj.a jp * centre s.sj k)/(s.si.a ip + s.sj.a jp) := by
      funext k
      exact p2 k k.isLt
    rw [hP]
    rfl
  · rw [if_neg hk, pair_dropped (X := nucInt R N) hi hj hip hjp hk, zero_mul]

/-- **C30** int1e_nuc_cart, any shells with positive exponents and angular momenta up to ANG_MAX, any number
of nuclei of any of the three models, any contents of memory: the element for functions `(ic,i)`, `(jc,j)` is the
contraction, over the primitive pairs that survive the screening, of the matrix elements of the potential of
all the nuclei.  The root finder is assumed to return the roots and weights of Rys quadrature. -/
theorem C30_nuc {L : MathLib ℝ} {s : Call ℝ} {mi mj : Nat → ℝ} {h : Heap ℝ} {fpd buf size : Nat}
    {fl loc counts out : Ptr} {dims : Option Ptr} {nd : Nat → Nat} {R : Rys ℝ} {atoms : List (Atom ℝ)}
    (hL : L.exp = Real.exp) (hi : MaxCoeff s.si mi) (hj : MaxCoeff s.sj mj)
    (hpos : ∀ ip jp, ip < s.si.nprim → jp < s.sj.nprim → 0 < s.si.a ip + s.sj.a jp)
    (hA : atoms ≠ []) (hR : RysOK R ((s.si.l + s.sj.l)/2 + 1))
    (hli : s.si.l ≤ 15) (hlj : s.sj.l ≤ 15)
    (hs : Sizes 2 (two (ncart s.si.l) (ncart s.sj.l)) (two s.si.nctr s.sj.nctr) nd)
    (M : CallMem h fpd buf size fl loc counts) (hsize : cacheSize1e (nucInt R (.nuc atoms)) s ≤ size)
    (O : OutArg h nd (fun t => two (ncart s.si.l) (ncart s.sj.l) t * two s.si.nctr s.sj.nctr t) 1 out dims
      buf fl loc counts) :
    ∃ has h', run (drv1e (nucInt R (.nuc atoms)) s realK L fpd (fun _ _ => pure) (two (ncart s.si.l) (ncart s.sj.l))
        out dims buf 0 fl loc counts) h = some (has, h') ∧
      ∀ ic jc i j, ic < s.si.nctr → jc < s.sj.nctr → i < ncart s.si.l → j < ncart s.sj.l →
        h'.D (out + outAt nd 0 (ic*ncart s.si.l+i) (jc*ncart s.sj.l+j) 0 0) =
          .val (spNorm s.si.l * spNorm s.sj.l * contract2 s.si.nprim s.sj.nprim s.si.c s.sj.c (fun ip jp =>
            open Classical in if Kept L s mi mj (s.si.l + s.sj.l) ip jp then
              braketV (attraction atoms) (gto (s.si.a ip) (centre s.si) (powers s.si.l i))
                (gto (s.sj.a jp) (centre s.sj) (powers s.sj.l j)) else 0) ic jc) := by
  have hN : (NucCall.nuc atoms).srcs ≠ [] := fun h => hA (List.map_eq_nil_iff.1 h)
  obtain ⟨has, h', hr, hv, _⟩ := drv1e_cart M hsize hs O (nuc_eval (L := L) hpos hN hR) (le_refl 1) hli hlj
  refine ⟨has, h', hr, fun ic jc i j h1 h2 h3 h4 => ?_⟩
  rw [hv 0 ic jc i j Nat.zero_lt_one h1 h2 h3 h4, nuc_loopVal hL hi hj hpos h3, srcPotential_nuc]

/-- **C30**, no primitive pair screened: exactly the matrix element `⟨i| -∑_A Z_A V_A |j⟩` of the contracted
functions. -/
theorem C30_nuc_exact {L : MathLib ℝ} {s : Call ℝ} {mi mj : Nat → ℝ} {h : Heap ℝ} {fpd buf size : Nat}
    {fl loc counts out : Ptr} {dims : Option Ptr} {nd : Nat → Nat} {R : Rys ℝ} {atoms : List (Atom ℝ)}
    (hL : L.exp = Real.exp) (hi : MaxCoeff s.si mi) (hj : MaxCoeff s.sj mj)
    (hpos : ∀ ip jp, ip < s.si.nprim → jp < s.sj.nprim → 0 < s.si.a ip + s.sj.a jp)
    (hkept : ∀ ip jp, ip < s.si.nprim → jp < s.sj.nprim → Kept L s mi mj (s.si.l + s.sj.l) ip jp)
    (hA : atoms ≠ []) (hR : RysOK R ((s.si.l + s.sj.l)/2 + 1))
    (hli : s.si.l ≤ 15) (hlj : s.sj.l ≤ 15)
    (hs : Sizes 2 (two (ncart s.si.l) (ncart s.sj.l)) (two s.si.nctr s.sj.nctr) nd)
    (M : CallMem h fpd buf size fl loc counts) (hsize : cacheSize1e (nucInt R (.nuc atoms)) s ≤ size)
    (O : OutArg h nd (fun t => two (ncart s.si.l) (ncart s.sj.l) t * two s.si.nctr s.sj.nctr t) 1 out dims
      buf fl loc counts) :
    ∃ has h', run (drv1e (nucInt R (.nuc atoms)) s realK L fpd (fun _ _ => pure) (two (ncart s.si.l) (ncart s.sj.l))
        out dims buf 0 fl loc counts) h = some (has, h') ∧
      ∀ ic jc i j, ic < s.si.nctr → jc < s.sj.nctr → i < ncart s.si.l → j < ncart s.sj.l →
        h'.D (out + outAt nd 0 (ic*ncart s.si.l+i) (jc*ncart s.sj.l+j) 0 0) =
          .val (spNorm s.si.l * spNorm s.sj.l * braketV (attraction atoms)
            (cgto s.si.nprim s.si.a s.si.c (centre s.si) ic (powers s.si.l i))
              (cgto s.sj.nprim s.sj.a s.sj.c (centre s.sj) jc (powers s.sj.l j))) := by
  obtain ⟨has, h', hr, hv⟩ := C30_nuc hL hi hj hpos hA hR hli hlj hs M hsize O
  refine ⟨has, h', hr, fun ic jc i j h1 h2 h3 h4 => ?_⟩
  rw [hv ic jc i j h1 h2 h3 h4, braketV_cgto (fun ip jp hip hjp => by
    rw [← srcPotential_nuc]
    exact (integrable_gto_src (hpos ip jp hip hjp) _ _ _ _ _).1)]
  congr 2
  unfold contract2
  refine Finset.sum_congr rfl (fun jp hjp => Finset.sum_congr rfl (fun ip hip => ?_))
  rw [Finset.mem_range] at hjp hip
  dsimp only
  rw [if_pos (hkept ip jp hip hjp)]

theorem attraction_append (l m : List (Atom ℝ)) (r : Fin 3 → ℝ) :
    attraction (l ++ m) r = attraction l r + attraction m r := by
  unfold attraction
  rw [List.map_append, List.sum_append]

/-- **C30** the order of the nuclei does not matter, nor does the number of calls they are spread over: the
block for `l ++ m` is the sum of the blocks for `l` and for `m`. -/
theorem C30_additive {L : MathLib ℝ} {s : Call ℝ} {mi mj : Nat → ℝ} {R : Rys ℝ} {l m k : List (Atom ℝ)}
    (hk : k.Perm (l ++ m)) (A : CartMem (nucInt R (.nuc l)) s) (B : CartMem (nucInt R (.nuc m)) s)
    (C : CartMem (nucInt R (.nuc k)) s)
    (hL : L.exp = Real.exp) (hi : MaxCoeff s.si mi) (hj : MaxCoeff s.sj mj)
    (hpos : ∀ ip jp, ip < s.si.nprim → jp < s.sj.nprim → 0 < s.si.a ip + s.sj.a jp)
    (hl : l ≠ []) (hm : m ≠ []) (hR : RysOK R ((s.si.l + s.sj.l)/2 + 1))
    (hli : s.si.l ≤ 15) (hlj : s.sj.l ≤ 15) :
    ∃ ra rb rc h1 h2 h3, CartEnds A realK L ra h1 ∧ CartEnds B realK L rb h2 ∧ CartEnds C realK L rc h3 ∧
      ∀ ic jc i j, ic < s.si.nctr → jc < s.sj.nctr → i < ncart s.si.l → j < ncart s.sj.l →
        ∃ x y, A.elem h1 0 ic i jc j = .val x ∧ B.elem h2 0 ic i jc j = .val y ∧
          C.elem h3 0 ic i jc j = .val (x + y) := by
  have hkne : k ≠ [] := by
    rintro rfl
    have := hk.length_eq
    cases l
    · exact hl rfl
    · simp at this
  obtain ⟨ra, h1, e1, v1⟩ := C30_nuc hL hi hj hpos hl hR hli hlj A.hs A.M A.hsize A.O
  obtain ⟨rb, h2, e2, v2⟩ := C30_nuc hL hi hj hpos hm hR hli hlj B.hs B.M B.hsize B.O
  obtain ⟨rc, h3, e3, v3⟩ := C30_nuc hL hi hj hpos hkne hR hli hlj C.hs C.M C.hsize C.O
  refine ⟨ra, rb, rc, h1, h2, h3, e1, e2, e3, fun ic jc i j a1 a2 a3 a4 => ⟨_, _, v1 ic jc i j a1 a2 a3 a4,
    v2 ic jc i j a1 a2 a3 a4, (v3 ic jc i j a1 a2 a3 a4).trans ?_⟩⟩
  congr 1
  rw [← mul_add]
  congr 1
  unfold contract2
  rw [← Finset.sum_add_distrib]
  refine Finset.sum_congr rfl (fun jp hjp => ?_)
  rw [← Finset.sum_add_distrib]
  refine Finset.sum_congr rfl (fun ip hip => ?_)
  rw [Finset.mem_range] at hjp hip
  rw [← mul_add]
  congr 1
  beta_reduce
  by_cases hkk : Kept L s mi mj (s.si.l + s.sj.l) ip jp
  · rw [if_pos hkk, if_pos hkk, if_pos hkk]
    have hp : attraction k = fun r => attraction l r + attraction m r := by
      funext r
      rw [← attraction_append]
      unfold attraction
      exact (hk.map _).sum_eq
    have i1 := (integrable_gto_src (hpos ip jp hip hjp) (centre s.si) (centre s.sj) (powers s.si.l i) (powers s.sj.l j) (NucCall.nuc l).srcs).1
    have i2 := (integrable_gto_src (hpos ip jp hip hjp) (centre s.si) (centre s.sj) (powers s.si.l i) (powers s.sj.l j) (NucCall.nuc m).srcs).1
    rw [srcPotential_nuc] at i1 i2
    unfold braketV
    rw [← integral_add i1 i2, hp]
    congr 1
    funext r
    ring
  · rw [if_neg hkk, if_neg hkk, if_neg hkk, add_zero]

theorem integrable_cgtoV {V : (Fin 3 → ℝ) → ℝ} {si sj : PShell ℝ}
    (h : ∀ ip jp n m, ip < si.nprim → jp < sj.nprim → Integrable fun r => gto (si.a ip) (centre si) n r * V r *
      gto (sj.a jp) (centre sj) m r)
    (ic jc : Nat) (n m : Fin 3 → ℕ) : Integrable fun r => cgto si.nprim si.a si.c (centre si) ic n r * V r *
      cgto sj.nprim sj.a sj.c (centre sj) jc m r := by
  unfold cgto
  have e : ∀ r, (∑ ip ∈ Finset.range si.nprim, si.c (si.nprim*ic+ip) * gto (si.a ip) (centre si) n r) * V r *
      (∑ jp ∈ Finset.range sj.nprim, sj.c (sj.nprim*jc+jp) * gto (sj.a jp) (centre sj) m r) =
      ∑ ip ∈ Finset.range si.nprim, ∑ jp ∈ Finset.range sj.nprim, si.c (si.nprim*ic+ip) * gto (si.a ip) (centre si) n r *
        V r * (sj.c (sj.nprim*jc+jp) * gto (sj.a jp) (centre sj) m r) := fun r => by
    rw [Finset.sum_mul, Finset.sum_mul_sum]
  simp only [e]
  refine integrable_finset_sum _ fun ip hip => integrable_finset_sum _ fun jp hjp => ?_
  have := (h ip jp n m (Finset.mem_range.1 hip) (Finset.mem_range.1 hjp)).const_mul
    (si.c (si.nprim*ic+ip) * sj.c (sj.nprim*jc+jp))
  refine this.congr (Filter.Eventually.of_forall fun r => ?_)
  ring

theorem braketV_sgto {V : (Fin 3 → ℝ) → ℝ} {si sj : PShell ℝ}
    (h : ∀ ip jp n m, ip < si.nprim → jp < sj.nprim → Integrable fun r => gto (si.a ip) (centre si) n r * V r *
      gto (sj.a jp) (centre sj) m r)
    (ic jc i j : Nat) : braketV V (sgto si ic i) (sgto sj jc j) =
      ∑ a ∈ Finset.range (ncart si.l), ∑ b ∈ Finset.range (ncart sj.l), c2sCoef si.l i a * c2sCoef sj.l j b *
        (spNorm si.l * spNorm sj.l * braketV V (cgto si.nprim si.a si.c (centre si) ic (powers si.l a))
          (cgto sj.nprim sj.a sj.c (centre sj) jc (powers sj.l b))) := by
  unfold braketV sgto
  simp_rw [← integral_const_mul]
  have hint : ∀ a ∈ Finset.range (ncart si.l), ∀ b ∈ Finset.range (ncart sj.l), Integrable fun r =>
      c2sCoef si.l i a * c2sCoef sj.l j b * (spNorm si.l * spNorm sj.l *
        (cgto si.nprim si.a si.c (centre si) ic (powers si.l a) r * V r *
          cgto sj.nprim sj.a sj.c (centre sj) jc (powers sj.l b) r)) := fun a _ b _ =>
    ((integrable_cgtoV h ic jc _ _).const_mul _).const_mul _
  have h2 : ∀ a ∈ Finset.range (ncart si.l), (∑ b ∈ Finset.range (ncart sj.l), ∫ r, 
      c2sCoef si.l i a * c2sCoef sj.l j b * (spNorm si.l * spNorm sj.l *
        (cgto si.nprim si.a si.c (centre si) ic (powers si.l a) r * V r *
          cgto sj.nprim sj.a sj.c (centre sj) jc (powers sj.l b) r))) = ∫ r, ∑ b ∈ Finset.range (ncart sj.l),
      c2sCoef si.l i a * c2sCoef sj.l j b * (spNorm si.l * spNorm sj.l *
        (cgto si.nprim si.a si.c (centre si) ic (powers si.l a) r * V r *
          cgto sj.nprim sj.a sj.c (centre sj) jc (powers sj.l b) r)) := fun a ha => (integral_finset_sum _ (hint a ha)).symm
  rw [Finset.sum_congr rfl h2, ← integral_finset_sum _ (fun a ha => integrable_finset_sum _ (hint a ha))]
  congr 1
  funext r
  rw [Finset.sum_mul, Finset.sum_mul_sum]
  refine Finset.sum_congr rfl (fun a _ => Finset.sum_congr rfl (fun b _ => ?_))
  ring

/-- **C30** int1e_nuc_sph, no primitive pair screened. -/
theorem C30_nuc_spherical {L : MathLib ℝ} {s : Call ℝ} {mi mj : Nat → ℝ} {R : Rys ℝ} {atoms : List (Atom ℝ)}
    (B : SphMem (nucInt R (.nuc atoms)) s) (hL : L.exp = Real.exp)
    (hi : MaxCoeff s.si mi) (hj : MaxCoeff s.sj mj)
    (hpos : ∀ ip jp, ip < s.si.nprim → jp < s.sj.nprim → 0 < s.si.a ip + s.sj.a jp)
    (hkept : ∀ ip jp, ip < s.si.nprim → jp < s.sj.nprim → Kept L s mi mj (s.si.l + s.sj.l) ip jp)
    (hA : atoms ≠ []) (hR : RysOK R ((s.si.l + s.sj.l)/2 + 1))
    (hli : s.si.l ≤ 15) (hlj : s.sj.l ≤ 15) :
    ∃ has h', SphEnds B realK L has h' ∧
      ∀ ic jc i j, ic < s.si.nctr → jc < s.sj.nctr → i < s.si.l*2+1 → j < s.sj.l*2+1 →
        B.elem h' 0 ic i jc j = .val (braketV (attraction atoms) (sgto s.si ic i) (sgto s.sj jc j)) := by
  have n1 : 0 < s.si.nctr := B.hs.nctr_pos 0 (by omega)
  have n2 : 0 < s.sj.nctr := B.hs.nctr_pos 1 (by omega)
  have hN : (NucCall.nuc atoms).srcs ≠ [] := fun h => hA (List.map_eq_nil_iff.1 h)
  let A := blankMem (nucInt R (.nuc atoms)) s n1 n2
  obtain ⟨ra, ha, rb, hb, eA, eB, x, vA, vB⟩ := C19_one_electron A B (nuc_eval (L := L) hpos hN hR) (le_refl 1) hli hlj
  obtain ⟨rc, hc, eC, vC⟩ := C30_nuc_exact hL hi hj hpos hkept hA hR hli hlj A.hs A.M A.hsize A.O
  have hAC : ha = hc := by
    have e : some (ra, ha) = some (rc, hc) := eA.symm.trans eC
    simp only [Option.some.injEq, Prod.mk.injEq] at e
    exact e.2
  refine ⟨rb, hb, eB, fun ic jc i j h1 h2 h3 h4 => ?_⟩
  rw [vB 0 ic jc i j Nat.zero_lt_one h1 h2 h3 h4, braketV_sgto (fun ip jp n m hip hjp => by
    rw [← srcPotential_nuc]
    exact (integrable_gto_src (hpos ip jp hip hjp) _ _ _ _ _).1)]
  congr 1
  refine Finset.sum_congr rfl fun a ha' => Finset.sum_congr rfl fun b hb' => ?_
  congr 1
  have c1 := vA 0 ic jc a b Nat.zero_lt_one h1 h2 (Finset.mem_range.1 ha') (Finset.mem_range.1 hb')
  have c2 := vC ic jc a b h1 h2 (Finset.mem_range.1 ha') (Finset.mem_range.1 hb')
  rw [← hAC] at c2
  exact Cell.val.inj (c1.symm.trans c2)

/-! ### The hypotheses can be met -/
namespace NucDemo

/-- a root finder that returns Rys roots for every number of roots and every argument exists -/
theorem rys : ∃ R : Rys ℝ, ∀ n, RysOK R n := by
  have h : ∀ n x, ∃ uw : (ℕ → ℝ) × (ℕ → ℝ), RysExact n x uw.1 uw.2 := fun n x => by
    obtain ⟨u, w, h⟩ := exists_rys x n
    exact ⟨(u, w), h⟩
  choose f hf using h
  exact ⟨⟨fun n x => (f n x).1, fun n x => (f n x).2⟩, fun n x _ => hf n x⟩

/-- a point charge of 8, a Gaussian nucleus with Z = 1 and a fractional charge of 1/2 -/
noncomputable def atoms : List (Atom ℝ) :=
  [⟨8, fun _ => 0, 1, 0, 0⟩, ⟨1, fun c => c, 2, 100, 0⟩, ⟨0, fun _ => 3, 3, 0, 1/2⟩]

example : attraction atoms = fun r => -8 * coulomb (fun _ => 0) r + (-1 * potential 100 (fun c => (c.val : ℝ)) r +
    (-(1/2) * coulomb (fun _ => 3) r)) := by
  funext r
  simp [attraction, atoms, nucCharge, nucZeta, potential]
  rfl

/-- the second contraction of p_y with the first contraction of d_xz -/
example : ∃ R : Rys ℝ, ∃ has h', run (drv1e (nucInt R (.nuc atoms)) OvlpDemo.call realK OvlpDemo.lib 2
    (fun _ _ => pure) (two (ncart 1) (ncart 2)) ⟨5, 0⟩ none 0 0 ⟨1, 0⟩ ⟨2, 0⟩ ⟨3, 0⟩) OvlpDemo.blank = some (has, h') ∧
    h'.D ((⟨5, 0⟩ : Ptr) + outAt (two 6 12) 0 (1*3+1) (0*6+2) 0 0) = .val (spNorm 1 * spNorm 2 *
      braketV (attraction atoms) (cgto 2 (fun _ => 1) (fun _ => 1) (fun _ => 0) 1 (powers 1 1))
        (cgto 2 (fun _ => 1) (fun _ => 1) (fun _ => 0) 0 (powers 2 2))) := by
  obtain ⟨R, hR⟩ := rys
  obtain ⟨has, h', h1, h2⟩ := C30_nuc_exact (R := R) (atoms := atoms) (L := OvlpDemo.lib) (s := OvlpDemo.call) rfl
    OvlpDemo.maxc.1 OvlpDemo.maxc.2
    (fun _ _ _ _ => by show (0:ℝ) < 1 + 1; norm_num) (fun ip jp _ _ => OvlpDemo.kept ip jp) (by unfold atoms; simp)
    (hR _) (by decide) (by decide) OvlpDemo.sizes (OvlpDemo.mem _) (le_refl _) OvlpDemo.outArg
  exact ⟨R, has, h', h1, h2 1 0 1 2 (by decide) (by decide) (by decide) (by decide)⟩

end NucDemo

end Verif.Props
