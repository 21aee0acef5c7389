import Verif.Lemmas.DrvOut
import Verif.Props.PairData
import Verif.Spec.Gauss
import Verif.Lemmas.Gauss

/-!
C14 — the queried cache size suffices (one-electron integrals).
C21 — overlap integrals are the true Gaussian integrals.
-/
namespace Verif.Props
open Verif Verif.Model Verif.Prog Verif.Lemmas Verif.Spec MeasureTheory

theorem integrable_gto_mul {a b : ℝ} (hab : 0 < a + b) (A B : Fin 3 → ℝ) (n m : Fin 3 → ℕ) :
    Integrable fun r => gto a A n r * gto b B m r := by
  have h1 : ∀ k : Fin 3, Integrable fun x : ℝ => gto1 a (A k) (n k) x * gto1 b (B k) (m k) x := by
    intro k
    have := (integrable_poly_gauss hab ((a*A k+b*B k)/(a+b)) (pq (A k) (B k) (n k) (m k))).const_mul
      (Real.exp (-(a*b/(a+b))*(A k-B k)^2))
    refine this.congr (Filter.Eventually.of_forall fun x => ?_)
    have := gauss_product hab.ne' (A k) (B k) x
    simp only [pq, gto1, Polynomial.eval_mul, Polynomial.eval_pow, Polynomial.eval_sub, Polynomial.eval_X,
      Polynomial.eval_C]
    linear_combination -(x-A k)^n k * (x-B k)^m k * this
  have := Integrable.fintype_prod (μ := fun _ : Fin 3 => (volume : Measure ℝ)) h1
  refine this.congr (Filter.Eventually.of_forall fun r => ?_)
  simp only [gto_prod, Finset.prod_mul_distrib]

theorem braket_cgto {ni nj : ℕ} {ai ci aj cj : ℕ → ℝ} {A B : Fin 3 → ℝ} {n m : Fin 3 → ℕ} {ic jc : ℕ}
    (h : ∀ ip jp, ip < ni → jp < nj → 0 < ai ip + aj jp) :
    braket (cgto ni ai ci A ic n) (cgto nj aj cj B jc m) =
      contract2 ni nj ci cj (fun ip jp => braket (gto (ai ip) A n) (gto (aj jp) B m)) ic jc := by
  unfold braket contract2 cgto
  simp_rw [← integral_const_mul]
  have hint : ∀ jp ∈ Finset.range nj, ∀ ip ∈ Finset.range ni, Integrable fun r =>
      cj (nj*jc+jp) * ci (ni*ic+ip) * (gto (ai ip) A n r * gto (aj jp) B m r) := fun jp hj ip hi =>
    (integrable_gto_mul (h ip jp (Finset.mem_range.1 hi) (Finset.mem_range.1 hj)) A B n m).const_mul _
  have h2 : ∀ jp ∈ Finset.range nj, (∑ ip ∈ Finset.range ni, ∫ r, cj (nj*jc+jp) * ci (ni*ic+ip) *
      (gto (ai ip) A n r * gto (aj jp) B m r)) = ∫ r, ∑ ip ∈ Finset.range ni, cj (nj*jc+jp) * ci (ni*ic+ip) *
      (gto (ai ip) A n r * gto (aj jp) B m r) := fun jp hj => (integral_finset_sum _ (hint jp hj)).symm
  rw [Finset.sum_congr rfl h2, ← integral_finset_sum _ (fun jp hj => integrable_finset_sum _ (hint jp hj))]
  congr 1
  funext r
  rw [Finset.sum_mul_sum, Finset.sum_comm]
  refine Finset.sum_congr rfl (fun jp _ => Finset.sum_congr rfl (fun ip _ => ?_))
  ring

theorem spNorm_eq (l : Nat) : (commonFacSp l : ℝ) = spNorm l := by
  unfold commonFacSp spNorm
  split
  · norm_num
  · split
    · norm_num
    · rfl

/-- the centre of a shell as a point -/
def centre (s : PShell ℝ) : Fin 3 → ℝ := fun k => s.r k
/-- the powers of Cartesian function `i` of angular momentum `l` -/
def powers (l i : Nat) : Fin 3 → ℕ := fun k => pw l k i

/-- the primitive pair survives the screening: its estimate is below the cutoff in force -/
def Kept (L : MathLib ℝ) (s : Call ℝ) (mi mj : Nat → ℝ) (l ip jp : Nat) : Prop :=
  est L s.si s.sj mi mj (rr2 s.si.r s.sj.r) s.omega l ip jp < setijCutoff s.envCut

section
variable {L : MathLib ℝ} {X : Int1e ℝ} {s : Call ℝ} {mi mj : Nat → ℝ} {ip jp : Nat}

theorem kept_iff (hi : MaxCoeff s.si mi) (hj : MaxCoeff s.sj mj) (hip : ip < s.si.nprim) (hjp : jp < s.sj.nprim) :
    pairCC L (s.pairArgs X) ip jp < (s.pairArgs X).cutoff ↔
      Kept L s mi mj (s.si.l + X.ng.i + (s.sj.l + X.ng.j)) ip jp := by
  rw [pairCC_eq (p := s.pairArgs X) hi hj hip hjp]
  rfl

theorem pair_kept (hL : L.exp = Real.exp) (hi : MaxCoeff s.si mi) (hj : MaxCoeff s.sj mj)
    (hip : ip < s.si.nprim) (hjp : jp < s.sj.nprim) (h0 : 0 < s.si.a ip + s.sj.a jp)
    (hk : Kept L s mi mj (s.si.l + X.ng.i + (s.sj.l + X.ng.j)) ip jp) :
    pairVal L (s.pairArgs X) ip jp 3 = Real.exp (-(s.si.a ip * s.sj.a jp/(s.si.a ip + s.sj.a jp)) *
      ∑ k, (centre s.si k - centre s.sj k)^2) ∧
    ∀ c, c < 3 → pairVal L (s.pairArgs X) ip jp c =
      (s.si.a ip * s.si.r c + s.sj.a jp * s.sj.r c)/(s.si.a ip + s.sj.a jp) := by
  have hk' := (kept_iff (X := X) hi hj hip hjp).2 hk
  obtain ⟨_, h2, _⟩ := pairVal_entry (L := L) (p := s.pairArgs X) hi hj hip hjp h0.ne'
  rw [← pairCC_eq (p := s.pairArgs X) hi hj hip hjp] at h2
  obtain ⟨h3, h4⟩ := h2 hk'
  refine ⟨?_, fun c hc => h3 c hc⟩
  dsimp only at h4
  rw [h4, hL]
  congr 1
  unfold prodExponent centre
  show -(s.si.a ip * s.sj.a jp / (s.si.a ip + s.sj.a jp) * rr2 s.si.r s.sj.r) = _
  rw [Fin.sum_univ_three]
  unfold rr2
  simp only [Fin.val_zero, Fin.val_one, Fin.val_two]
  ring

theorem pair_dropped (hi : MaxCoeff s.si mi) (hj : MaxCoeff s.sj mj)
    (hip : ip < s.si.nprim) (hjp : jp < s.sj.nprim)
    (hk : ¬ Kept L s mi mj (s.si.l + X.ng.i + (s.sj.l + X.ng.j)) ip jp) :
    pairVal L (s.pairArgs X) ip jp 3 = 0 := by
  have hk' : ¬ _ := fun x => hk ((kept_iff (X := X) (L := L) hi hj hip hjp).1 x)
  unfold pairVal; simp [hk']
end

/-- the overlap evaluator in the driver -/
theorem ovlp_eval {L : MathLib ℝ} {s : Call ℝ}
    (hpos : ∀ ip jp, ip < s.si.nprim → jp < s.sj.nprim → 0 < s.si.a ip + s.sj.a jp) :
    EvalOK realK L ovlpInt s (fun ip jp n => ∏ c ∈ Finset.range 3,
      moment (s.si.a ip + s.sj.a jp) (pairVal L (s.pairArgs ovlpInt) ip jp c) (pq (s.si.r c) (s.sj.r c)
        (pw s.si.l c (n % ncart s.si.l)) (pw s.sj.l c (n / ncart s.si.l)))) := by
  have hnf : (s.env ovlpInt).nf = (s.env ovlpInt).nfj * (s.env ovlpInt).nfi := Nat.mul_comm _ _
  have B := baseOK_int1e s.si.l s.sj.l (ovlpInt (α := ℝ)).ng
  have S := (C07_slab_int1e s.si.l s.sj.l (ovlpInt (α := ℝ)).ng)
  have := evalOK_of_list (K := realK) (L := L) (X := ovlpInt) (s := s) (ws := fun ip jp => [fun n => ∏ c ∈ Finset.range 3,
      moment (s.si.a ip + s.sj.a jp) (pairVal L (s.pairArgs ovlpInt) ip jp c) (pq (s.si.r c) (s.sj.r c)
        (pw s.si.l c (n % ncart s.si.l)) (pw s.sj.l c (n / ncart s.si.l)))])
    (fun _ _ _ _ => List.cons_ne_nil _ _) (fun ip jp g idx T hip hjp hT => by
      have hI : IdxT T idx ((s.env ovlpInt).nfj * (s.env ovlpInt).nfi) (adr2 (s.env ovlpInt)) := by
        rw [← hnf]; exact hT
      have key := ovlp_kernel (e := s.env ovlpInt) (d := s.g1 ovlpInt L ip jp) (g := g) (idx := idx)
        (leng := s.leng ovlpInt) (T := T) B (by
          show 3 * (s.env ovlpInt).g_size ≤ (s.env ovlpInt).g_size * 3 * (2^0+1)
          omega) (hpos ip jp hip hjp) ⟨fun a b r h1 h2 h3 => S.range a b r h1 h2 (by have := B.pos; omega),
          fun a b r a' b' r' h1 h2 h3 h4 h5 h6 => S.inj a b r a' b' r' h1 h2 (by have := B.pos; omega) h4 h5
            (by have := B.pos; omega)⟩ (Nat.le_add_right _ _) (Nat.le_add_right _ _) rfl rfl hI
      refine List.Forall₂.cons ?_ List.Forall₂.nil
      show KernelSpec T _ (fun _ gout em => gout1e (s.env ovlpInt).nf idx g gout em) _ ((s.env ovlpInt).nf * 1) true _
      rw [Nat.mul_one, hnf]
      exact key)
  simpa using this

/-- **C21** int1e_ovlp_cart, any shells with positive exponents and angular momenta up to ANG_MAX, any
contents of memory: the element for functions `(ic,i)`, `(jc,j)` of the two shells is the
contraction of the overlap integrals of all primitive pairs that survive the screening. -/
theorem C21_overlap {L : MathLib ℝ} {s : Call ℝ} {mi mj : Nat → ℝ} {h : Heap ℝ} {fpd buf size : Nat}
    {fl loc counts out : Ptr} {dims : Option Ptr} {nd : Nat → Nat} (hL : L.exp = Real.exp)
    (hi : MaxCoeff s.si mi) (hj : MaxCoeff s.sj mj)
    (hpos : ∀ ip jp, ip < s.si.nprim → jp < s.sj.nprim → 0 < s.si.a ip + s.sj.a jp)
    (hli : s.si.l ≤ 15) (hlj : s.sj.l ≤ 15)
    (hs : Sizes 2 (two (ncart s.si.l) (ncart s.sj.l)) (two s.si.nctr s.sj.nctr) nd)
    (M : CallMem h fpd buf size fl loc counts) (hsize : cacheSize1e ovlpInt s ≤ size)
    (O : OutArg h nd (fun t => two (ncart s.si.l) (ncart s.sj.l) t * two s.si.nctr s.sj.nctr t) 1 out dims
      buf fl loc counts) :
    ∃ has h', run (drv1e ovlpInt s realK L fpd (fun _ _ => pure) (two (ncart s.si.l) (ncart s.sj.l)) out dims
        buf 0 fl loc counts) h = some (has, h') ∧
      ∀ ic jc i j, ic < s.si.nctr → jc < s.sj.nctr → i < ncart s.si.l → j < ncart s.sj.l →
        h'.D (out + outAt nd 0 (ic*ncart s.si.l+i) (jc*ncart s.sj.l+j) 0 0) =
          .val (spNorm s.si.l * spNorm s.sj.l * contract2 s.si.nprim s.sj.nprim s.si.c s.sj.c (fun ip jp =>
            open Classical in if Kept L s mi mj (s.si.l + s.sj.l) ip jp then
              braket (gto (s.si.a ip) (centre s.si) (powers s.si.l i))
                (gto (s.sj.a jp) (centre s.sj) (powers s.sj.l j)) else 0) ic jc) := by
  obtain ⟨has, h', hr, hv, _⟩ := drv1e_cart M hsize hs O (ovlp_eval (L := L) hpos) (le_refl 1) hli hlj
  refine ⟨has, h', hr, fun ic jc i j h1 h2 h3 h4 => ?_⟩
  rw [hv 0 ic jc i j Nat.zero_lt_one h1 h2 h3 h4]
  congr 1
  unfold loopVal
  rw [spNorm_eq, spNorm_eq]
  show 1 * _ * _ * _ = _
  rw [one_mul]
  congr 1
  unfold contract2
  refine Finset.sum_congr rfl (fun jp hjp => Finset.sum_congr rfl (fun ip hip => ?_))
  rw [Finset.mem_range] at hjp hip
  congr 1
  dsimp only
  show pairVal L (s.pairArgs ovlpInt) ip jp 3 * ∏ c ∈ Finset.range 3, moment _ _ (pq _ _
    (pw s.si.l c (((j*ncart s.si.l+i)*1+0) % ncart s.si.l)) (pw s.sj.l c (((j*ncart s.si.l+i)*1+0) / ncart s.si.l))) = _
  rw [Nat.mul_one, Nat.add_zero, (digit h3).1, (digit h3).2]
  by_cases hk : Kept L s mi mj (s.si.l + s.sj.l) ip jp
  · rw [if_pos hk]
    obtain ⟨p1, p2⟩ := pair_kept (X := ovlpInt) hL hi hj hip hjp (hpos ip jp hip hjp) hk
    rw [p1, braket_gto_eq (hpos ip jp hip hjp).ne', Finset.prod_range]
    congr 1
    refine Finset.prod_congr rfl (fun k _ => ?_)
    rw [p2 k k.isLt]
    rfl
  · rw [if_neg hk, pair_dropped (X := ovlpInt) hi hj hip hjp hk, zero_mul]

/-- **C21**, no primitive pair screened: exactly the overlap of the two contracted functions. -/
theorem C21_overlap_exact {L : MathLib ℝ} {s : Call ℝ} {mi mj : Nat → ℝ} {h : Heap ℝ} {fpd buf size : Nat}
    {fl loc counts out : Ptr} {dims : Option Ptr} {nd : Nat → Nat} (hL : L.exp = Real.exp)
    (hi : MaxCoeff s.si mi) (hj : MaxCoeff s.sj mj)
    (hpos : ∀ ip jp, ip < s.si.nprim → jp < s.sj.nprim → 0 < s.si.a ip + s.sj.a jp)
    (hkept : ∀ ip jp, ip < s.si.nprim → jp < s.sj.nprim → Kept L s mi mj (s.si.l + s.sj.l) ip jp)
    (hli : s.si.l ≤ 15) (hlj : s.sj.l ≤ 15)
    (hs : Sizes 2 (two (ncart s.si.l) (ncart s.sj.l)) (two s.si.nctr s.sj.nctr) nd)
    (M : CallMem h fpd buf size fl loc counts) (hsize : cacheSize1e ovlpInt s ≤ size)
    (O : OutArg h nd (fun t => two (ncart s.si.l) (ncart s.sj.l) t * two s.si.nctr s.sj.nctr t) 1 out dims
      buf fl loc counts) :
    ∃ has h', run (drv1e ovlpInt s realK L fpd (fun _ _ => pure) (two (ncart s.si.l) (ncart s.sj.l)) out dims
        buf 0 fl loc counts) h = some (has, h') ∧
      ∀ ic jc i j, ic < s.si.nctr → jc < s.sj.nctr → i < ncart s.si.l → j < ncart s.sj.l →
        h'.D (out + outAt nd 0 (ic*ncart s.si.l+i) (jc*ncart s.sj.l+j) 0 0) =
          .val (spNorm s.si.l * spNorm s.sj.l *
            braket (cgto s.si.nprim s.si.a s.si.c (centre s.si) ic (powers s.si.l i))
              (cgto s.sj.nprim s.sj.a s.sj.c (centre s.sj) jc (powers s.sj.l j))) := by
  obtain ⟨has, h', hr, hv⟩ := C21_overlap hL hi hj hpos hli hlj hs M hsize O
  refine ⟨has, h', hr, fun ic jc i j h1 h2 h3 h4 => ?_⟩
  rw [hv ic jc i j h1 h2 h3 h4, braket_cgto hpos]
  congr 2
  unfold contract2
  refine Finset.sum_congr rfl (fun jp hjp => Finset.sum_congr rfl (fun ip hip => ?_))
  rw [Finset.mem_range] at hjp hip
  dsimp only
  rw [if_pos (hkept ip jp hip hjp)]

/-! ### C14 -/

section
variable {α : Type} [Field α] [LinearOrder α]

/-- **C14**, inside the primitive loop.  The cache has the queried size.  There is a fixed division
of its doubles into doubles used as `double` and doubles used as `FINT`s (`fpd` each) such that the
loop runs without leaving the cache and without using any part of it both ways, whatever the shells
and whatever the cache contains. -/
theorem C14_loop {K : Consts α} {L : MathLib α} {X : Int1e α} {s : Call α} {w : Nat → Nat → Nat → α}
    {fpd buf : Nat} {fl loc : Ptr} (hK : EvalOK K L X s w) (hf : 0 < fpd)
    (hic : 1 ≤ s.si.nctr) (hjc : 1 ≤ s.sj.nctr) (hnc : 1 ≤ X.nComp)
    (hli : s.si.l ≤ 15) (hlj : s.sj.l ≤ 15) (hfl : fl.buf ≠ buf) (hloc : loc.buf ≠ buf) :
    ∃ isI : Nat → Prop, ∀ h : Heap α, CacheMem h fpd buf (cacheSize1e X s) isI →
      (∀ k, k < 4 → h.I (fl + k) ≠ .oob) → (∀ k, k < 12*136 → h.I (loc + k) ≠ .oob) →
      ∃ res h', run (loop1eRun X s K L fpd ⟨buf, 0⟩ buf
        (fpd * ((s.env X).nf * s.si.nctr * s.sj.nctr * X.nComp)) fl loc) h = some (res, h') := by
  refine ⟨intSlots X s fpd ((s.env X).nf * s.si.nctr * s.sj.nctr * X.nComp), fun h hc h1 h2 => ?_⟩
  obtain ⟨res, h', hr, _⟩ := run_of_wp (loop1eRun_wp (o0 := 0)
    ⟨hf, hc, used_le_cacheSize X s hf, le_of_eq (by ring), h1, h2, hfl, hloc⟩ hK hic hjc hnc hli hlj)
  exact ⟨res, h', hr⟩

/-- **C14**, Cartesian one-electron integrals: with a cache of exactly the queried size the call
completes without undefined behaviour, whatever the cache and the output array contain. -/
theorem C14_cart {K : Consts α} {L : MathLib α} {X : Int1e α} {s : Call α} {w : Nat → Nat → Nat → α}
    {h : Heap α} {fpd buf : Nat} {fl loc counts out : Ptr} {dims : Option Ptr} {nd : Nat → Nat}
    (M : CallMem h fpd buf (cacheSize1e X s) fl loc counts)
    (hs : Sizes 2 (two (ncart s.si.l) (ncart s.sj.l)) (two s.si.nctr s.sj.nctr) nd)
    (O : OutArg h nd (fun t => two (ncart s.si.l) (ncart s.sj.l) t * two s.si.nctr s.sj.nctr t) X.nComp out dims
      buf fl loc counts)
    (hK : EvalOK K L X s w) (hnc : 1 ≤ X.nComp) (hli : s.si.l ≤ 15) (hlj : s.sj.l ≤ 15) :
    ∃ has h', run (drv1e X s K L fpd (fun _ _ => pure) (two (ncart s.si.l) (ncart s.sj.l)) out dims buf 0 fl loc counts) h
        = some (has, h') := by
  obtain ⟨has, h', hr, _⟩ := drv1e_cart M (le_refl _) hs O hK hnc hli hlj
  exact ⟨has, h', hr⟩
end

/-! ### The hypotheses can be met -/
namespace OvlpDemo

/-- a p shell and a d shell, two primitives and two contractions each -/
noncomputable def call : Call ℝ where
  si := { nprim := 2, nctr := 2, l := 1, a := fun _ => 1, c := fun _ => 1, r := fun _ => 0 }
  sj := { nprim := 2, nctr := 2, l := 2, a := fun _ => 1, c := fun _ => 1, r := fun _ => 0 }
  envCut := 0
  omega := 0

noncomputable def lib : MathLib ℝ := ⟨Real.log, Real.exp, Real.sqrt⟩

/-- everything allocated, nothing initialised -/
def blank : Heap ℝ := ⟨fun _ => .undef, fun _ => .undef⟩

theorem maxc : MaxCoeff call.si (fun _ => 1) ∧ MaxCoeff call.sj (fun _ => 1) := by
  constructor <;> intro ip hip <;>
    exact ⟨fun i _ => ⟨le_refl _, by show -(1:ℝ) ≤ 1; norm_num⟩, Or.inr ⟨0, by show 0 < 2; omega, Or.inl rfl⟩⟩

theorem kept (ip jp : Nat) : Kept lib call (fun _ => 1) (fun _ => 1) (call.si.l + call.sj.l) ip jp := by
  unfold Kept est pairEstimate logBound prodExponent setijCutoff rr2 lib call
  simp only [sub_zero, mul_zero, add_zero, if_true, Real.sqrt_zero, zero_add, Real.log_one, lt_self_iff_false,
    if_false]
  rw [if_neg (by omega)]
  have h2 : (1:ℝ) + 1 = 2 := by norm_num
  rw [h2]
  have := Real.log_le_sub_one_of_pos (show (0:ℝ) < 2 by norm_num)
  linarith

theorem mem (n : Nat) : CallMem blank 2 0 n ⟨1, 0⟩ ⟨2, 0⟩ ⟨3, 0⟩ :=
  ⟨by omega, fun k _ => by simp [blank], fun k _ => by simp [blank], fun k _ => by simp [blank],
    fun k _ => by simp [blank], fun k _ => by simp [blank], by decide, by decide⟩

theorem sizes : Sizes 2 (two (ncart call.si.l) (ncart call.sj.l)) (two call.si.nctr call.sj.nctr)
    (two 6 12) := by
  refine ⟨Or.inl rfl, ?_, ?_, ?_, ?_⟩
  · show ∀ t, t < 4 → 0 < two (ncart 1) (ncart 2) t; decide
  · show ∀ t, t < 4 → 0 < two 2 2 t; decide
  · intro t h1 h2
    unfold two
    simp [show t ≠ 0 by omega, show t ≠ 1 by omega]
  · show ∀ t, t < 4 → two (ncart 1) (ncart 2) t * two 2 2 t ≤ two 6 12 t; decide

theorem outArg : OutArg blank (two 6 12) (fun t => two (ncart call.si.l) (ncart call.sj.l) t *
    two call.si.nctr call.sj.nctr t) 1 ⟨5, 0⟩ none 0 ⟨1, 0⟩ ⟨2, 0⟩ ⟨3, 0⟩ where
  h_dims := by
    show ∀ t, t < 4 → two 6 12 t = two (ncart 1) (ncart 2) t * two 2 2 t; decide
  h_dims2 := fun d hd => by cases hd
  h_dbuf := fun d hd => by cases hd
  h_out := fun m _ => by simp [blank]
  h_obuf := by decide

/-- the second contraction of p_y with the first contraction of d_xz -/
example : ∃ has h', run (drv1e ovlpInt call realK lib 2 (fun _ _ => pure) (two (ncart 1) (ncart 2)) ⟨5, 0⟩ none
    0 0 ⟨1, 0⟩ ⟨2, 0⟩ ⟨3, 0⟩) blank = some (has, h') ∧
    h'.D ((⟨5, 0⟩ : Ptr) + outAt (two 6 12) 0 (1*3+1) (0*6+2) 0 0) = .val (spNorm 1 * spNorm 2 *
      braket (cgto 2 (fun _ => 1) (fun _ => 1) (fun _ => 0) 1 (powers 1 1))
        (cgto 2 (fun _ => 1) (fun _ => 1) (fun _ => 0) 0 (powers 2 2))) := by
  obtain ⟨has, h', h1, h2⟩ := C21_overlap_exact (L := lib) (s := call) rfl maxc.1 maxc.2
    (fun _ _ _ _ => by show (0:ℝ) < 1 + 1; norm_num) (fun ip jp _ _ => kept ip jp) (by decide) (by decide) sizes
    (mem _) (le_refl _) outArg
  exact ⟨has, h', h1, h2 1 0 1 2 (by decide) (by decide) (by decide) (by decide)⟩

/-- and the same call never leaves a cache of the queried size -/
example : ∃ has h', run (drv1e ovlpInt call realK lib 2 (fun _ _ => pure) (two (ncart 1) (ncart 2)) ⟨5, 0⟩ none
    0 0 ⟨1, 0⟩ ⟨2, 0⟩ ⟨3, 0⟩) blank = some (has, h') :=
  C14_cart (s := call) (mem _) sizes outArg (ovlp_eval (s := call) (fun _ _ _ _ => by show (0:ℝ) < 1 + 1; norm_num))
    (le_refl _) (by decide) (by decide)

/-- a cache whose FINT doubles are not readable as doubles and vice versa -/
def typed (isI : Nat → Prop) [DecidablePred isI] : Heap ℝ :=
  ⟨fun q => if q.buf = 0 ∧ isI q.off then .oob else .undef, fun q => if q.buf = 0 ∧ ¬ isI (q.off/2) then .oob else .undef⟩

example (isI : Nat → Prop) [DecidablePred isI] (n : Nat) : CacheMem (typed isI) 2 0 n isI :=
  ⟨fun k _ hk => by simp [typed, hk], fun m _ hm => by simp [typed, hm]⟩
end OvlpDemo

end Verif.Props
