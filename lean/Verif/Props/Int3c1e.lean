import Verif.Spec.Triple
import Verif.Lemmas.Drv3c1e
import Verif.Props.Eri3

/-!
C16 — the queried cache size suffices (one-electron integrals over three functions).
C47 — the values of the one-electron integrals over three functions.
-/
namespace Verif.Props
open Verif Verif.Model Verif.Prog Verif.Lemmas Verif.Spec MeasureTheory

section
variable {α : Type} [Field α] [LinearOrder α]

/-- Where and with what memory an integral over three functions is called: `d t` functions per contraction of shell `t` (1 for
the absent fourth).  The cache has at least the queried size; `fits`: a double holds at least two FINTs, or the shells have few
primitives (see `C16_3c1e_overrun`). -/
structure Mem31 (X : Int2e α) (s : Call3 α) (d : Nat → Nat) where
  fpd : Nat
  buf : Nat
  size : Nat
  empty : Ptr
  fl : Ptr
  loc : Ptr
  counts : Ptr
  out : Ptr
  dims : Option Ptr
  nd : Nat → Nat
  h : Heap α
  hs : Sizes 3 d (Call3.nctrs s) nd
  M : CallMem3 h fpd buf size empty fl loc counts
  fits : CacheFits X s fpd
  hsize : cacheSize3c1e X s ≤ size
  O : OutArg2 3 h nd (fun t => d t * Call3.nctrs s t) X.nComp out dims buf empty fl loc counts

/-- content of the output array: component `n`, function `i` of contraction `ic` of the first shell and so on -/
def Mem31.elem {X : Int2e α} {s : Call3 α} {d : Nat → Nat} (A : Mem31 X s d) (h' : Heap α)
    (n ic i jc j kc k : Nat) : Cell α :=
  h'.D (A.out + outAt A.nd n (ic*d 0+i) (jc*d 1+j) (kc*d 2+k) 0)

/-- memory of a call with Cartesian output -/
abbrev CartMem31 (X : Int2e α) (s : Call3 α) := Mem31 X s (ncar (Call3.ls s))

/-- memory of a call with spherical output; the transformation table is stored at `tab` -/
structure SphMem31 (X : Int2e α) (s : Call3 α) extends Mem31 X s (nsph (Call3.ls s)) where
  tab : Ptr
  hT : HoldsTab h tab
  htb : tab.buf ≠ buf
  hto : out.buf ≠ tab.buf

/-- the Cartesian call returns `has` and ends with memory `h'` -/
def CartEnds31 {X : Int2e α} {s : Call3 α} (A : CartMem31 X s) (R : Rys α) (K : Consts α) (L : MathLib α) (op : Op3c1e α)
    (has : Bool) (h' : Heap α) : Prop :=
  run (drv3c1e X s R K L op A.fpd (fun _ _ => pure) (ncar (Call3.ls s)) A.out A.dims A.buf 0 A.empty A.fl A.loc A.counts) A.h
    = some (has, h')

/-- the spherical call returns `has` and ends with memory `h'` -/
def SphEnds31 {X : Int2e α} {s : Call3 α} (B : SphMem31 X s) (R : Rys α) (K : Consts α) (L : MathLib α) (op : Op3c1e α)
    (has : Bool) (h' : Heap α) : Prop :=
  run (drv3c1e X s R K L op B.fpd (sphTrans3c B.tab B.fpd s.si.l s.sj.l s.sk.l) (nsph (Call3.ls s)) B.out B.dims B.buf 0
    B.empty B.fl B.loc B.counts) B.h = some (has, h')

variable {R : Rys α} {K : Consts α} {L : MathLib α} {op : Op3c1e α} {X : Int2e α} {s : Call3 α}
  {keep : Nat → Nat → Nat → Bool} {w : Nat → Nat → Nat → Nat → α}

/-- **C16**, one-electron integrals over three functions with Cartesian output: with a cache of (at least) the queried size the
call completes without undefined behaviour, whatever the cache and the output array contain, for every integral whose integrand
evaluates correctly. -/
theorem C16_3c1e_cart (A : CartMem31 X s) (hK : EvalOK1 R K L op X s keep w) (hnc : 1 ≤ X.nComp)
    (hl : ∀ t, t < 4 → Call3.ls s t ≤ 15) : ∃ has h', CartEnds31 A R K L op has h' := by
  obtain ⟨has, h', hr, _⟩ := drv3c1e_cart A.M A.fits A.hsize A.hs A.O hK hnc hl
  exact ⟨has, h', hr⟩

/-- **C16**, one-electron integrals over three functions with spherical output. -/
theorem C16_3c1e_sph (B : SphMem31 X s) (hK : EvalOK1 R K L op X s keep w) (hnc : 1 ≤ X.nComp)
    (hl : ∀ t, t < 4 → Call3.ls s t ≤ 15) : ∃ has h', SphEnds31 B R K L op has h' := by
  obtain ⟨has, h', hr, _⟩ := drv3c1e_sph B.M B.fits B.hsize B.hs B.O B.hT B.htb B.hto hK hnc hl
  exact ⟨has, h', hr⟩

/-- **C16**, inside the primitive loop of the one-electron integrals over three functions, with a cache of the queried size and
two FINTs in a double: there is a fixed division of the doubles of the cache into doubles used as `double` and doubles used as
`FINT`s such that the loop runs without leaving the cache and without using any part of it both ways, whatever the shells and
whatever the cache contains. -/
theorem C16_3c1e_loop {fpd buf : Nat} {empty fl loc : Ptr} (hK : EvalOK1 R K L op X s keep w) (hf : 2 ≤ fpd) (hnc : 1 ≤ X.nComp)
    (hc : ∀ t, t < 4 → 1 ≤ Call3.nctrs s t) (hl : ∀ t, t < 4 → Call3.ls s t ≤ 15)
    (he : empty.buf ≠ buf ∧ empty.buf ≠ fl.buf ∧ empty.buf ≠ loc.buf) (hfl : fl.buf ≠ buf) (hloc : loc.buf ≠ buf) :
    ∃ isI : Nat → Prop, ∀ h : Heap α, CacheMem h fpd buf (cacheSize3c1e X s) isI → h.I empty = .val 1 →
      (∀ k, k < 4 → h.I (fl + k) ≠ .oob) → (∀ k, k < 12*136 → h.I (loc + k) ≠ .oob) →
      ∃ res h', run (loop3c1eRun X s R K L op fpd ⟨buf, 0⟩ empty buf
        (fpd * ((s.env X).nf * s.si.nctr * s.sj.nctr * s.sk.nctr * X.nComp)) fl loc) h = some (res, h') := by
  refine ⟨intSlots1 X s fpd ((s.env X).nf * s.si.nctr * s.sj.nctr * s.sk.nctr * X.nComp),
    fun h hm h0 h1 h2 => ?_⟩
  obtain ⟨res, h', hr, _⟩ := run_of_wp (loop3c1eRun_wp (o0 := 0)
    ⟨by omega, hm, used1_le_cacheSize X s (by omega) (Or.inl hf) (hc 0 (by omega)) (hc 1 (by omega)) (hc 2 (by omega)),
      le_of_eq (by unfold Call3.nctr; ring), h0, h1, h2, he.1, he.2.1, he.2.2, hfl, hloc⟩ hK (hc 0 (by omega)) (hc 1 (by omega))
      (hc 2 (by omega)) hnc (hl 0 (by omega)) (hl 1 (by omega)) (hl 2 (by omega)))
  exact ⟨res, h', hr⟩

/-- **C18**, integrals over three functions with Cartesian output: when 0 is returned the block is zero; in any case every
element of the block is overwritten, no double outside the block and the cache changes, and the new contents do not depend on the
contents of memory (`A` and `A'` differ in nothing but the memory). -/
theorem C18_3c1e_cart (A : CartMem31 X s) (hK : EvalOK1 R K L op X s keep w) (hnc : 1 ≤ X.nComp)
    (hl : ∀ t, t < 4 → Call3.ls s t ≤ 15) :
    ∃ v : Nat → α, ∀ A' : CartMem31 X s, A'.nd = A.nd →
      ∃ has h', CartEnds31 A' R K L op has h' ∧
        (∀ m, InBlock A.nd (fun t => ncar (Call3.ls s) t * Call3.nctrs s t) X.nComp m → h'.D (A'.out + m) = .val (v m)) ∧
        (has = false → ∀ m, InBlock A.nd (fun t => ncar (Call3.ls s) t * Call3.nctrs s t) X.nComp m → v m = 0) ∧
        (∀ q, q.buf ≠ A'.buf → (∀ m, InBlock A.nd (fun t => ncar (Call3.ls s) t * Call3.nctrs s t) X.nComp m →
          q ≠ A'.out + m) → h'.D q = A'.h.D q) := by
  obtain ⟨r0, h0, _, v0, _⟩ := drv3c1e_cart A.M A.fits A.hsize A.hs A.O hK hnc hl
  refine ⟨fun m => match h0.D (A.out + m) with | .val x => x | _ => 0, fun B hn => ?_⟩
  obtain ⟨r1, h1, e1, v1, z1, f1, _⟩ := drv3c1e_cart B.M B.fits B.hsize B.hs B.O hK hnc hl
  rw [hn] at v1 z1 f1
  have hv : ∀ m, InBlock A.nd (fun t => ncar (Call3.ls s) t * Call3.nctrs s t) X.nComp m →
      h1.D (B.out + m) = .val (match h0.D (A.out + m) with | .val x => x | _ => 0) := by
    intro m hm
    obtain ⟨n, ic, jc, kc, lc, i, j, k, x, a1, a2, a3, a4, a5, a6, a7, a8, a9, rfl⟩ := inBlock_digits A.hs.nf_pos hm
    obtain ⟨t1, t2, _⟩ := A.hs.trivial 3 (by omega) (by omega)
    rw [t2] at a5
    rw [t1] at a9
    obtain rfl : lc = 0 := by omega
    obtain rfl : x = 0 := by omega
    rw [Nat.zero_mul]
    have b0 := v0 n ic jc kc i j k a1 a2 a3 a4 a6 a7 a8
    have b1 := v1 n ic jc kc i j k a1 a2 a3 a4 a6 a7 a8
    refine b1.trans ?_
    have e : h0.D (A.out + outAt A.nd n (ic * ncar (Call3.ls s) 0 + i) (jc * ncar (Call3.ls s) 1 + j)
      (kc * ncar (Call3.ls s) 2 + k) (0 + 0)) = _ := b0
    rw [e]
  refine ⟨r1, h1, e1, hv, fun hf m hm => ?_, f1.1⟩
  exact Cell.val.inj ((hv m hm).symm.trans (z1 hf m hm))

/-- **C18**, integrals over three functions with spherical output. -/
theorem C18_3c1e_sph (A : SphMem31 X s) (hK : EvalOK1 R K L op X s keep w) (hnc : 1 ≤ X.nComp)
    (hl : ∀ t, t < 4 → Call3.ls s t ≤ 15) :
    ∃ v : Nat → α, ∀ A' : SphMem31 X s, A'.nd = A.nd →
      ∃ has h', SphEnds31 A' R K L op has h' ∧
        (∀ m, InBlock A.nd (fun t => nsph (Call3.ls s) t * Call3.nctrs s t) X.nComp m → h'.D (A'.out + m) = .val (v m)) ∧
        (has = false → ∀ m, InBlock A.nd (fun t => nsph (Call3.ls s) t * Call3.nctrs s t) X.nComp m → v m = 0) ∧
        (∀ q, q.buf ≠ A'.buf → (∀ m, InBlock A.nd (fun t => nsph (Call3.ls s) t * Call3.nctrs s t) X.nComp m →
          q ≠ A'.out + m) → h'.D q = A'.h.D q) := by
  obtain ⟨r0, h0, _, v0, _⟩ := drv3c1e_sph A.M A.fits A.hsize A.hs A.O A.hT A.htb A.hto hK hnc hl
  refine ⟨fun m => match h0.D (A.out + m) with | .val x => x | _ => 0, fun B hn => ?_⟩
  obtain ⟨r1, h1, e1, v1, z1, f1, _⟩ := drv3c1e_sph B.M B.fits B.hsize B.hs B.O B.hT B.htb B.hto hK hnc hl
  rw [hn] at v1 z1 f1
  have hv : ∀ m, InBlock A.nd (fun t => nsph (Call3.ls s) t * Call3.nctrs s t) X.nComp m →
      h1.D (B.out + m) = .val (match h0.D (A.out + m) with | .val x => x | _ => 0) := by
    intro m hm
    obtain ⟨n, ic, jc, kc, lc, i, j, k, x, a1, a2, a3, a4, a5, a6, a7, a8, a9, rfl⟩ := inBlock_digits A.hs.nf_pos hm
    obtain ⟨t1, t2, _⟩ := A.hs.trivial 3 (by omega) (by omega)
    rw [t2] at a5
    rw [t1] at a9
    obtain rfl : lc = 0 := by omega
    obtain rfl : x = 0 := by omega
    rw [Nat.zero_mul]
    have b0 := v0 n ic jc kc i j k a1 a2 a3 a4 a6 a7 a8
    have b1 := v1 n ic jc kc i j k a1 a2 a3 a4 a6 a7 a8
    refine b1.trans ?_
    have e : h0.D (A.out + outAt A.nd n (ic * nsph (Call3.ls s) 0 + i) (jc * nsph (Call3.ls s) 1 + j)
      (kc * nsph (Call3.ls s) 2 + k) (0 + 0)) = _ := b0
    rw [e]
  refine ⟨r1, h1, e1, hv, fun hf m hm => ?_, f1.1⟩
  exact Cell.val.inj ((hv m hm).symm.trans (z1 hf m hm))

/-- **C19**, integrals over three functions: the spherical integrals are the Cartesian ones transformed by the table on all
three indices.  The memory of the two calls need not have anything in common. -/
theorem C19_3c1e (A : CartMem31 X s) (B : SphMem31 X s) (hK : EvalOK1 R K L op X s keep w) (hnc : 1 ≤ X.nComp)
    (hl : ∀ t, t < 4 → Call3.ls s t ≤ 15) :
    ∃ ra ha rb hb, CartEnds31 A R K L op ra ha ∧ SphEnds31 B R K L op rb hb ∧
      ∃ x : Nat → Nat → Nat → Nat → Nat → Nat → Nat → α,
        (∀ n ic jc kc a b c, n < X.nComp → ic < s.si.nctr → jc < s.sj.nctr → kc < s.sk.nctr →
          a < ncart s.si.l → b < ncart s.sj.l → c < ncart s.sk.l →
          A.elem ha n ic a jc b kc c = .val (x n ic a jc b kc c)) ∧
        (∀ n ic jc kc i j k, n < X.nComp → ic < s.si.nctr → jc < s.sj.nctr → kc < s.sk.nctr →
          i < s.si.l*2+1 → j < s.sj.l*2+1 → k < s.sk.l*2+1 →
          B.elem hb n ic i jc j kc k = .val (∑ a ∈ Finset.range (ncart s.si.l), ∑ b ∈ Finset.range (ncart s.sj.l),
            ∑ c ∈ Finset.range (ncart s.sk.l),
            c2sCoef s.si.l i a * c2sCoef s.sj.l j b * c2sCoef s.sk.l k c * x n ic a jc b kc c)) := by
  obtain ⟨ra, ha, r1, v1, _⟩ := drv3c1e_cart A.M A.fits A.hsize A.hs A.O hK hnc hl
  obtain ⟨rb, hb, r2, v2, _⟩ := drv3c1e_sph B.M B.fits B.hsize B.hs B.O B.hT B.htb B.hto hK hnc hl
  refine ⟨ra, ha, rb, hb, r1, r2, fun n ic a jc b kc c =>
    loopVal1 R K L op X s keep w n ic jc kc (pos4c (ncar (Call3.ls s)) a b c 0), ?_, ?_⟩
  · intro n ic jc kc a b c a1 a2 a3 a4 a6 a7 a8
    exact v1 n ic jc kc a b c a1 a2 a3 a4 a6 a7 a8
  · intro n ic jc kc a b c a1 a2 a3 a4 a6 a7 a8
    exact v2 n ic jc kc a b c a1 a2 a3 a4 a6 a7 a8
end

/-! ### Values -/

/-- the sums of the exponents are positive -/
def PosExp31 (s : Call3 ℝ) : Prop := ∀ ip jp kp, ip < s.si.nprim → jp < s.sj.nprim → kp < s.sk.nprim →
  0 < s.si.a ip + s.sj.a jp + s.sk.a kp

/-- the operator between the functions: 1, or the potential of a point charge (`zeta` not positive) or Gaussian charge -/
noncomputable def opPotential : Op3c1e ℝ → (Fin 3 → ℝ) → ℝ
  | .ovlp => fun _ => 1
  | .rinv zeta orig => potential zeta (fun k => orig k)

theorem opPotential_eq (op : Op3c1e ℝ) : opPotential op = opPot op := by cases op <;> rfl

/-- the root finder returns the roots and weights of Rys quadrature for the number of roots this call needs -/
def RootsOK31 (R : Rys ℝ) (s : Call3 ℝ) : Prop := RysOK R ((s.si.l + s.sj.l + s.sk.l)/2 + 1)

theorem eval31 {L : MathLib ℝ} {s : Call3 ℝ} {R : Rys ℝ} {op : Op3c1e ℝ} (hp : PosExp31 s) (hR : RootsOK31 R s) :
    EvalOK1 R realK L op int3c1eInt s (fun _ _ _ => true) (w3c1e op s) := by
  refine evalOK_3c1e hp fun ip jp kp h1 h2 h3 => ?_
  cases op with
  | ovlp => trivial
  | rinv zeta orig => exact hR _ (nucX_nonneg (hp ip jp kp h1 h2 h3) _ _)

/-- the product of three primitives -/
theorem gto_mul3 {a b c : ℝ} (hp : a + b + c ≠ 0) (A B D : Fin 3 → ℝ) (n m l : Fin 3 → ℕ) (r : Fin 3 → ℝ) :
    gto a A n r * gto b B m r * gto c D l r = Real.exp (-tripleExponent a b c A B D) *
      pg (a+b+c) (fun k => (a*A k+b*B k+c*D k)/(a+b+c)) (fun k => pq3 (A k) (B k) (D k) (n k) (m k) (l k)) r := by
  have he : -tripleExponent a b c A B D =
      ∑ k, -((a*b*(A k - B k)^2 + a*c*(A k - D k)^2 + b*c*(B k - D k)^2)/(a+b+c)) := by
    unfold tripleExponent
    rw [Finset.sum_neg_distrib, ← Finset.sum_div, Finset.sum_add_distrib, Finset.sum_add_distrib, Finset.mul_sum,
      Finset.mul_sum, Finset.mul_sum]
  rw [he, Real.exp_sum, gto_prod, gto_prod, gto_prod, ← Finset.prod_mul_distrib, ← Finset.prod_mul_distrib, pg,
    ← Finset.prod_mul_distrib]
  refine Finset.prod_congr rfl (fun k _ => ?_)
  simp only [pq3, gto1, Polynomial.eval_mul, Polynomial.eval_pow, Polynomial.eval_sub, Polynomial.eval_X,
    Polynomial.eval_C]
  have e : Real.exp (-a*(r k - A k)^2) * Real.exp (-b*(r k - B k)^2) * Real.exp (-c*(r k - D k)^2) =
      Real.exp (-((a*b*(A k - B k)^2 + a*c*(A k - D k)^2 + b*c*(B k - D k)^2)/(a+b+c))) *
        Real.exp (-(a+b+c)*(r k - (a*A k+b*B k+c*D k)/(a+b+c))^2) := by
    rw [← Real.exp_add, ← Real.exp_add, ← Real.exp_add]
    congr 1
    field_simp
    ring
  linear_combination (r k-A k)^n k * (r k-B k)^m k * (r k - D k)^l k * e

theorem integrable_pg_op {p : ℝ} (hp : 0 < p) (P : Fin 3 → ℝ) (q : Fin 3 → Polynomial ℝ) (op : Op3c1e ℝ) :
    Integrable fun r => pg p P q r * opPotential op r := by
  cases op with
  | ovlp =>
    have := integrable_pg_gV hp (le_refl 0) P (fun _ => 0) q
    refine this.congr (Filter.Eventually.of_forall fun r => ?_)
    simp [gV, opPotential]
  | rinv zeta orig => exact (int_pg_potential hp zeta P _ q).1

theorem triple_gto {a b c : ℝ} (hp : 0 < a + b + c) (A B D : Fin 3 → ℝ) (n m l : Fin 3 → ℕ) (op : Op3c1e ℝ) :
    (Integrable fun r => gto a A n r * gto b B m r * gto c D l r * opPotential op r) ∧
    triple (opPotential op) (gto a A n) (gto b B m) (gto c D l) = Real.exp (-tripleExponent a b c A B D) *
      ∫ r, pg (a+b+c) (fun k => (a*A k+b*B k+c*D k)/(a+b+c)) (fun k => pq3 (A k) (B k) (D k) (n k) (m k) (l k)) r *
        opPotential op r := by
  have e : (fun r => gto a A n r * gto b B m r * gto c D l r * opPotential op r) = fun r =>
      Real.exp (-tripleExponent a b c A B D) * (pg (a+b+c) (fun k => (a*A k+b*B k+c*D k)/(a+b+c))
        (fun k => pq3 (A k) (B k) (D k) (n k) (m k) (l k)) r * opPotential op r) := by
    funext r
    rw [gto_mul3 hp.ne', mul_assoc]
  unfold triple
  rw [e]
  exact ⟨(integrable_pg_op hp _ _ op).const_mul _, integral_const_mul _ _⟩

/-- `∫ f g k V` of linear combinations -/
theorem triple_sum {ι κ τ : Type} (S : Finset ι) (T : Finset κ) (U : Finset τ) {V : (Fin 3 → ℝ) → ℝ} (x : ι → ℝ) (y : κ → ℝ)
    (z : τ → ℝ) (f : ι → (Fin 3 → ℝ) → ℝ) (g : κ → (Fin 3 → ℝ) → ℝ) (k : τ → (Fin 3 → ℝ) → ℝ)
    (h : ∀ a ∈ S, ∀ b ∈ T, ∀ c ∈ U, Integrable fun r => f a r * g b r * k c r * V r) :
    (Integrable fun r => (∑ a ∈ S, x a * f a r) * (∑ b ∈ T, y b * g b r) * (∑ c ∈ U, z c * k c r) * V r) ∧
    triple V (fun r => ∑ a ∈ S, x a * f a r) (fun r => ∑ b ∈ T, y b * g b r) (fun r => ∑ c ∈ U, z c * k c r) =
      ∑ c ∈ U, ∑ b ∈ T, ∑ a ∈ S, z c * y b * x a * triple V (f a) (g b) (k c) := by
  have e : (fun r => (∑ a ∈ S, x a * f a r) * (∑ b ∈ T, y b * g b r) * (∑ c ∈ U, z c * k c r) * V r) = fun r =>
      ∑ c ∈ U, ∑ b ∈ T, ∑ a ∈ S, z c * y b * x a * (f a r * g b r * k c r * V r) := by
    funext r
    rw [Finset.sum_mul_sum, Finset.sum_comm, Finset.mul_sum, Finset.sum_mul]
    refine Finset.sum_congr rfl fun c _ => ?_
    rw [Finset.sum_mul, Finset.sum_mul]
    refine Finset.sum_congr rfl fun b _ => ?_
    rw [Finset.sum_mul, Finset.sum_mul]
    refine Finset.sum_congr rfl fun a _ => ?_
    ring
  have hi : ∀ c ∈ U, ∀ b ∈ T, ∀ a ∈ S, Integrable fun r => z c * y b * x a * (f a r * g b r * k c r * V r) :=
    fun c hc b hb a ha => (h a ha b hb c hc).const_mul _
  refine ⟨?_, ?_⟩
  · rw [e]
    exact integrable_finset_sum _ fun c hc => integrable_finset_sum _ fun b hb => integrable_finset_sum _ fun a ha => hi c hc b hb a ha
  · unfold triple
    rw [e, integral_finset_sum _ (fun c hc => integrable_finset_sum _ fun b hb => integrable_finset_sum _ fun a ha => hi c hc b hb a ha)]
    refine Finset.sum_congr rfl fun c hc => ?_
    rw [integral_finset_sum _ (fun b hb => integrable_finset_sum _ fun a ha => hi c hc b hb a ha)]
    refine Finset.sum_congr rfl fun b hb => ?_
    rw [integral_finset_sum _ (fun a ha => hi c hc b hb a ha)]
    refine Finset.sum_congr rfl fun a ha => ?_
    exact integral_const_mul _ _

theorem triple_cfun {s : Call3 ℝ} (hp : PosExp31 s) (op : Op3c1e ℝ) (ic jc kc i j k : Nat) :
    (Integrable fun r => cfun s.si ic i r * cfun s.sj jc j r * cfun s.sk kc k r * opPotential op r) ∧
    triple (opPotential op) (cfun s.si ic i) (cfun s.sj jc j) (cfun s.sk kc k) =
      contract3 s.si.nprim s.sj.nprim s.sk.nprim s.si.c s.sj.c s.sk.c (fun ip jp kp =>
        triple (opPotential op) (gto (s.si.a ip) (centre s.si) (powers s.si.l i)) (gto (s.sj.a jp) (centre s.sj) (powers s.sj.l j))
          (gto (s.sk.a kp) (centre s.sk) (powers s.sk.l k))) ic jc kc :=
  triple_sum (Finset.range s.si.nprim) (Finset.range s.sj.nprim) (Finset.range s.sk.nprim)
    (fun ip => s.si.c (s.si.nprim*ic+ip)) (fun jp => s.sj.c (s.sj.nprim*jc+jp)) (fun kp => s.sk.c (s.sk.nprim*kc+kp)) _ _ _
    (fun _ ha _ hb _ hc => (triple_gto (hp _ _ _ (Finset.mem_range.1 ha) (Finset.mem_range.1 hb) (Finset.mem_range.1 hc)) _ _ _ _ _ _ op).1)

theorem triple_sgto {s : Call3 ℝ} (hp : PosExp31 s) (op : Op3c1e ℝ) (ic jc kc i j k : Nat) :
    triple (opPotential op) (sgto s.si ic i) (sgto s.sj jc j) (sgto s.sk kc k) =
      ∑ a ∈ Finset.range (ncart s.si.l), ∑ b ∈ Finset.range (ncart s.sj.l), ∑ c ∈ Finset.range (ncart s.sk.l),
        c2sCoef s.si.l i a * c2sCoef s.sj.l j b * c2sCoef s.sk.l k c *
          (spNorm s.si.l * spNorm s.sj.l * spNorm s.sk.l *
            triple (opPotential op) (cfun s.si ic a) (cfun s.sj jc b) (cfun s.sk kc c)) := by
  rw [sgto_eq s.si, sgto_eq s.sj, sgto_eq s.sk]
  rw [(triple_sum (V := opPotential op) (Finset.range (ncart s.si.l)) (Finset.range (ncart s.sj.l)) (Finset.range (ncart s.sk.l))
    _ _ _ (cfun s.si ic) (cfun s.sj jc) (cfun s.sk kc) (fun a _ b _ c _ => (triple_cfun hp op ic jc kc a b c).1)).2]
  rw [Finset.sum_comm]
  simp_rw [Finset.sum_comm (s := Finset.range (ncart s.sk.l))]
  rw [Finset.sum_comm]
  refine Finset.sum_congr rfl fun a _ => Finset.sum_congr rfl fun b _ => Finset.sum_congr rfl fun c _ => ?_
  ring

theorem eijk_eq (s : Call3 ℝ) (ip jp kp : Nat) :
    s.eijk ip jp kp = tripleExponent (s.si.a ip) (s.sj.a jp) (s.sk.a kp) (centre s.si) (centre s.sj) (centre s.sk) := by
  unfold Call3.eijk Call3.aijk tripleExponent rr2 centre
  simp only [Fin.sum_univ_three]
  congr 1
  show _ = s.si.a ip * s.sj.a jp * ((s.si.r 0 - s.sj.r 0)^2 + (s.si.r 1 - s.sj.r 1)^2 + (s.si.r 2 - s.sj.r 2)^2) +
    s.si.a ip * s.sk.a kp * ((s.si.r 0 - s.sk.r 0)^2 + (s.si.r 1 - s.sk.r 1)^2 + (s.si.r 2 - s.sk.r 2)^2) +
    s.sj.a jp * s.sk.a kp * ((s.sj.r 0 - s.sk.r 0)^2 + (s.sj.r 1 - s.sk.r 1)^2 + (s.sj.r 2 - s.sk.r 2)^2)
  ring

theorem loopVal31 {L : MathLib ℝ} {s : Call3 ℝ} {R : Rys ℝ} {op : Op3c1e ℝ} (hL : L.exp = Real.exp) (hp : PosExp31 s)
    {ic jc kc i j k : Nat} (h1 : i < ncart s.si.l) (h2 : j < ncart s.sj.l) (h3 : k < ncart s.sk.l) :
    loopVal1 R realK L op int3c1eInt s (fun _ _ _ => true) (w3c1e op s) 0 ic jc kc (pos4c (ncar (Call3.ls s)) i j k 0) =
    spNorm s.si.l * spNorm s.sj.l * spNorm s.sk.l *
      contract3 s.si.nprim s.sj.nprim s.sk.nprim s.si.c s.sj.c s.sk.c (fun ip jp kp =>
        open Classical in if tripleExponent (s.si.a ip) (s.sj.a jp) (s.sk.a kp) (centre s.si) (centre s.sj) (centre s.sk) ≤ 60 then
          triple (opPotential op) (gto (s.si.a ip) (centre s.si) (powers s.si.l i))
            (gto (s.sj.a jp) (centre s.sj) (powers s.sj.l j)) (gto (s.sk.a kp) (centre s.sk) (powers s.sk.l k))
        else 0) ic jc kc := by
  classical
  have hpi : (Real.sqrt Real.pi * Real.pi) ≠ 0 := by positivity
  unfold loopVal1 expected3
  have hcom : (s.triple1 int3c1eInt R realK L op ⟨⟨0,0⟩,⟨0,0⟩,⟨0,0⟩⟩).common =
      (Real.sqrt Real.pi * Real.pi) * (spNorm s.si.l * spNorm s.sj.l * spNorm s.sk.l) := by
    show 1 * (Real.sqrt Real.pi * Real.pi * commonFacSp s.si.l * commonFacSp s.sj.l * commonFacSp s.sk.l) = _
    rw [spNorm_eq, spNorm_eq, spNorm_eq]
    ring
  rw [hcom, mul_comm (Real.sqrt Real.pi * Real.pi), mul_assoc]
  congr 1
  unfold contract3
  rw [Finset.mul_sum]
  refine Finset.sum_congr rfl (fun kp hkp => ?_)
  rw [Finset.mul_sum]
  refine Finset.sum_congr rfl (fun jp hjp => ?_)
  rw [Finset.mul_sum]
  refine Finset.sum_congr rfl (fun ip hip => ?_)
  have hip : ip < s.si.nprim := Finset.mem_range.1 hip
  have hjp : jp < s.sj.nprim := Finset.mem_range.1 hjp
  have hkp : kp < s.sk.nprim := Finset.mem_range.1 hkp
  rw [mul_comm (Real.sqrt Real.pi * Real.pi), mul_assoc]
  show s.sk.c (s.sk.nprim*kc+kp) * s.sj.c (s.sj.nprim*jc+jp) * s.si.c (s.si.nprim*ic+ip) * _ = _
  congr 1
  -- digits of the position
  have hx : pos4c (ncar (Call3.ls s)) i j k 0 = (j*ncart s.sk.l + k)*ncart s.si.l + i := by
    unfold pos4c ncar
    show i + ncart s.si.l * (k + ncart s.sk.l * (0 + ncart 0 * j)) = _
    rw [ncart_zero]
    ring
  have qi : ∀ c, i4 (s.env1 (int3c1eInt : Int2e ℝ)) c (pos4c (ncar (Call3.ls s)) i j k 0 * 1 + 0) = pw s.si.l c i := by
    intro c
    rw [Nat.mul_one, Nat.add_zero, hx]
    show pw s.si.l c (_ % ncart s.si.l) = _
    rw [(digit h1).2]
  have qk : ∀ c, k4 (s.env1 (int3c1eInt : Int2e ℝ)) c (pos4c (ncar (Call3.ls s)) i j k 0 * 1 + 0) = pw s.sk.l c k := by
    intro c
    rw [Nat.mul_one, Nat.add_zero, hx]
    show pw s.sk.l c (_ / ncart s.si.l % ncart s.sk.l) = _
    rw [(digit h1).1, (digit h3).2]
  have qj : ∀ c, j4 (s.env1 (int3c1eInt : Int2e ℝ)) c (pos4c (ncar (Call3.ls s)) i j k 0 * 1 + 0) = pw s.sj.l c j := by
    intro c
    rw [Nat.mul_one, Nat.add_zero, hx]
    show pw s.sj.l c (_ / ncart s.si.l / ncart s.sk.l / 1) = _
    rw [(digit h1).1, (digit h3).1, Nat.div_one]
  have hpol : pol3 (s.env1 (int3c1eInt : Int2e ℝ)) (s.g1 ip jp kp) (pos4c (ncar (Call3.ls s)) i j k 0 * 1 + 0) = fun c =>
      pq3 (centre s.si c) (centre s.sj c) (centre s.sk c) (powers s.si.l i c) (powers s.sj.l j c) (powers s.sk.l k c) := by
    funext c
    unfold pol3
    rw [qi, qj, qk]
    rfl
  show (if decide (s.eijk ip jp kp > 60) = false ∧ true = true then
    L.exp (-(s.eijk ip jp kp)) * w3c1e op s ip jp kp (pos4c (ncar (Call3.ls s)) i j k 0 * 1 + 0) else 0) *
      (Real.sqrt Real.pi * Real.pi) = _
  rw [eijk_eq]
  beta_reduce
  by_cases hk : tripleExponent (s.si.a ip) (s.sj.a jp) (s.sk.a kp) (centre s.si) (centre s.sj) (centre s.sk) ≤ 60
  · rw [if_pos ⟨by rw [decide_eq_false_iff_not]; exact not_lt.2 hk, rfl⟩, if_pos hk]
    rw [(triple_gto (hp ip jp kp hip hjp hkp) _ _ _ _ _ _ op).2, hL]
    unfold w3c1e
    rw [hpol, ← opPotential_eq, mul_assoc]
    congr 1
    rw [one_div, mul_comm, ← mul_assoc, mul_inv_cancel₀ hpi, one_mul]
    rfl
  · rw [if_neg (fun x => hk (not_lt.1 (decide_eq_false_iff_not.1 x.1))), if_neg hk, zero_mul]

/-- **C47** int3c1e_cart and int3c1e_rinv_cart: each element is, up to the normalisation of s and p functions, the contraction
of the integrals of three primitives (times the potential for rinv); triples with a prefactor below exp(-60) are left out.
Exponents, centres, contractions and angular momenta are arbitrary. -/
theorem C47_cart {L : MathLib ℝ} {s : Call3 ℝ} {R : Rys ℝ} {op : Op3c1e ℝ} (A : CartMem31 int3c1eInt s)
    (hL : L.exp = Real.exp) (hp : PosExp31 s) (hR : RootsOK31 R s) (h15 : LOK3 s) :
    ∃ has h', CartEnds31 A R realK L op has h' ∧
      ∀ ic jc kc i j k, ic < s.si.nctr → jc < s.sj.nctr → kc < s.sk.nctr →
        i < ncart s.si.l → j < ncart s.sj.l → k < ncart s.sk.l →
        A.elem h' 0 ic i jc j kc k = .val (spNorm s.si.l * spNorm s.sj.l * spNorm s.sk.l *
          contract3 s.si.nprim s.sj.nprim s.sk.nprim s.si.c s.sj.c s.sk.c (fun ip jp kp =>
            open Classical in
            if tripleExponent (s.si.a ip) (s.sj.a jp) (s.sk.a kp) (centre s.si) (centre s.sj) (centre s.sk) ≤ 60 then
              triple (opPotential op) (gto (s.si.a ip) (centre s.si) (powers s.si.l i))
                (gto (s.sj.a jp) (centre s.sj) (powers s.sj.l j)) (gto (s.sk.a kp) (centre s.sk) (powers s.sk.l k))
            else 0) ic jc kc) := by
  obtain ⟨has, h', hr, hv, _⟩ := drv3c1e_cart A.M A.fits A.hsize A.hs A.O (eval31 (L := L) (op := op) hp hR) (le_refl 1) h15
  refine ⟨has, h', hr, fun ic jc kc i j k a2 a3 a4 a6 a7 a8 => ?_⟩
  refine (hv 0 ic jc kc i j k Nat.zero_lt_one a2 a3 a4 a6 a7 a8).trans ?_
  exact congrArg Cell.val (loopVal31 hL hp a6 a7 a8)

/-- no primitive triple of the call is screened -/
def AllKept31 (s : Call3 ℝ) : Prop := ∀ ip jp kp, ip < s.si.nprim → jp < s.sj.nprim → kp < s.sk.nprim →
  tripleExponent (s.si.a ip) (s.sj.a jp) (s.sk.a kp) (centre s.si) (centre s.sj) (centre s.sk) ≤ 60

/-- **C47** int3c1e_cart and int3c1e_rinv_cart, nothing screened: exactly the integral of the three contracted functions. -/
theorem C47_cart_exact {L : MathLib ℝ} {s : Call3 ℝ} {R : Rys ℝ} {op : Op3c1e ℝ} (A : CartMem31 int3c1eInt s)
    (hL : L.exp = Real.exp) (hkept : AllKept31 s) (hp : PosExp31 s) (hR : RootsOK31 R s) (h15 : LOK3 s) :
    ∃ has h', CartEnds31 A R realK L op has h' ∧
      ∀ ic jc kc i j k, ic < s.si.nctr → jc < s.sj.nctr → kc < s.sk.nctr →
        i < ncart s.si.l → j < ncart s.sj.l → k < ncart s.sk.l →
        A.elem h' 0 ic i jc j kc k = .val (spNorm s.si.l * spNorm s.sj.l * spNorm s.sk.l *
          triple (opPotential op) (cfun s.si ic i) (cfun s.sj jc j) (cfun s.sk kc k)) := by
  obtain ⟨has, h', hr, hv⟩ := C47_cart (L := L) (op := op) A hL hp hR h15
  refine ⟨has, h', hr, fun ic jc kc i j k a2 a3 a4 a6 a7 a8 => ?_⟩
  rw [hv ic jc kc i j k a2 a3 a4 a6 a7 a8, (triple_cfun hp _ _ _ _ _ _ _).2]
  congr 2
  unfold contract3
  refine Finset.sum_congr rfl fun kp b2 => Finset.sum_congr rfl fun jp b3 => Finset.sum_congr rfl fun ip b4 => ?_
  rw [Finset.mem_range] at b2 b3 b4
  dsimp only
  rw [if_pos (hkept ip jp kp b4 b3 b2)]

/-- a Cartesian call in memory that is allocated but not initialised -/
def blankMem31 {α : Type} [Field α] [LinearOrder α] (X : Int2e α) (s : Call3 α) (h : ∀ t, t < 4 → 0 < Call3.nctrs s t) :
    CartMem31 X s where
  fpd := 2
  buf := 0
  size := cacheSize3c1e X s
  empty := ⟨4, 0⟩
  fl := ⟨1, 0⟩
  loc := ⟨2, 0⟩
  counts := ⟨3, 0⟩
  out := ⟨5, 7⟩
  dims := none
  nd := fun t => ncar (Call3.ls s) t * Call3.nctrs s t
  h := ⟨fun _ => .undef, fun _ => .undef⟩
  hs := ⟨Or.inr (Or.inl rfl), fun t _ => ncart_pos _, fun t ht => h t ht, fun t a b => by
    obtain rfl : t = 3 := by omega
    exact ⟨ncart_zero, rfl, by show ncart 0 * 1 = 1; rw [ncart_zero]⟩, fun t _ => le_refl _⟩
  M := ⟨by omega, fun k _ => by simp, fun k _ => by simp, by simp, fun k _ => by simp, fun k _ => by simp,
    fun k _ => by simp, by decide, by decide, by decide, by decide, by decide⟩
  fits := Or.inl (le_refl 2)
  hsize := le_refl _
  O := { h_dims := fun t _ => rfl
         h_dbuf := fun d hd => nomatch hd
         h_out := fun m _ => by simp
         h_obuf := by decide }

/-- **C47** int3c1e_sph and int3c1e_rinv_sph, nothing screened: exactly the integral of the three spherical functions. -/
theorem C47_spherical {L : MathLib ℝ} {s : Call3 ℝ} {R : Rys ℝ} {op : Op3c1e ℝ} (B : SphMem31 int3c1eInt s)
    (hL : L.exp = Real.exp) (hkept : AllKept31 s) (hp : PosExp31 s) (hR : RootsOK31 R s) (h15 : LOK3 s) :
    ∃ has h', SphEnds31 B R realK L op has h' ∧
      ∀ ic jc kc i j k, ic < s.si.nctr → jc < s.sj.nctr → kc < s.sk.nctr →
        i < s.si.l*2+1 → j < s.sj.l*2+1 → k < s.sk.l*2+1 →
        B.elem h' 0 ic i jc j kc k = .val (triple (opPotential op) (sgto s.si ic i) (sgto s.sj jc j) (sgto s.sk kc k)) := by
  let A := blankMem31 int3c1eInt s B.hs.nctr_pos
  obtain ⟨ra, ha, rb, hb, eA, eB, x, vA, vB⟩ := C19_3c1e A B (eval31 (L := L) (op := op) hp hR) (le_refl 1) h15
  obtain ⟨rc, hc, eC, vC⟩ := C47_cart_exact (R := R) (op := op) A hL hkept hp hR h15
  have hAC : ha = hc := by
    have e : some (ra, ha) = some (rc, hc) := eA.symm.trans eC
    simp only [Option.some.injEq, Prod.mk.injEq] at e
    exact e.2
  refine ⟨rb, hb, eB, fun ic jc kc i j k a2 a3 a4 a6 a7 a8 => ?_⟩
  rw [vB 0 ic jc kc i j k Nat.zero_lt_one a2 a3 a4 a6 a7 a8, triple_sgto hp]
  congr 1
  refine Finset.sum_congr rfl fun a b1 => Finset.sum_congr rfl fun b b2 => Finset.sum_congr rfl fun c b3 => ?_
  rw [Finset.mem_range] at b1 b2 b3
  congr 1
  have c1 := vA 0 ic jc kc a b c Nat.zero_lt_one a2 a3 a4 b1 b2 b3
  have c2 := vC ic jc kc a b c a2 a3 a4 b1 b2 b3
  rw [← hAC] at c2
  exact Cell.val.inj (c1.symm.trans c2)

/-! ### Symmetry -/

theorem triple_swap12 (V f g k : (Fin 3 → ℝ) → ℝ) : triple V f g k = triple V g f k := by
  unfold triple
  congr 1
  funext r
  ring

theorem triple_swap23 (V f g k : (Fin 3 → ℝ) → ℝ) : triple V f g k = triple V f k g := by
  unfold triple
  congr 1
  funext r
  ring

theorem tripleExponent_swap12 (a b c : ℝ) (A B D : Fin 3 → ℝ) : tripleExponent b a c B A D = tripleExponent a b c A B D := by
  unfold tripleExponent
  simp only [Fin.sum_univ_three]
  congr 1 <;> ring

theorem tripleExponent_swap23 (a b c : ℝ) (A B D : Fin 3 → ℝ) : tripleExponent a c b A D B = tripleExponent a b c A B D := by
  unfold tripleExponent
  simp only [Fin.sum_univ_three]
  congr 1 <;> ring

/-- the call with the last two shells exchanged -/
def swapJK3 {α : Type} (s : Call3 α) : Call3 α := { s with sj := s.sk, sk := s.sj }

theorem contract3_swapJK (ni nj nk : ℕ) (ci cj ck : ℕ → ℝ) (f : ℕ → ℕ → ℕ → ℝ) (ic jc kc : ℕ) :
    contract3 ni nk nj ci ck cj (fun ip kp jp => f ip jp kp) ic kc jc = contract3 ni nj nk ci cj ck f ic jc kc := by
  unfold contract3
  rw [Finset.sum_comm]
  refine Finset.sum_congr rfl fun _ _ => Finset.sum_congr rfl fun _ _ => Finset.sum_congr rfl fun _ _ => ?_
  ring

/-- **C47** symmetry: exchanging the first two shells exchanges the indices.  Screening does not break this. -/
theorem C47_swap_ij {L : MathLib ℝ} {s : Call3 ℝ} {R : Rys ℝ} {op : Op3c1e ℝ} (A : CartMem31 int3c1eInt s)
    (B : CartMem31 int3c1eInt (swapIJ3 s)) (hL : L.exp = Real.exp) (hp : PosExp31 s) (hR : RootsOK31 R s) (h15 : LOK3 s) :
    ∃ ra ha rb hb, CartEnds31 A R realK L op ra ha ∧ CartEnds31 B R realK L op rb hb ∧
      ∀ ic jc kc i j k, ic < s.si.nctr → jc < s.sj.nctr → kc < s.sk.nctr →
        i < ncart s.si.l → j < ncart s.sj.l → k < ncart s.sk.l →
        B.elem hb 0 jc j ic i kc k = A.elem ha 0 ic i jc j kc k := by
  have hp' : PosExp31 (swapIJ3 s) := fun ip jp kp h1 h2 h3 => by
    have := hp jp ip kp h2 h1 h3
    show 0 < s.sj.a ip + s.si.a jp + s.sk.a kp
    linarith
  have hR' : RootsOK31 R (swapIJ3 s) := by
    unfold RootsOK31 at *
    show RysOK R ((s.sj.l + s.si.l + s.sk.l)/2 + 1)
    rwa [Nat.add_comm s.sj.l]
  have h15' : LOK3 (swapIJ3 s) := by
    rw [lok3_iff] at *
    exact ⟨h15.2.1, h15.1, h15.2.2⟩
  obtain ⟨ra, ha, e1, v1⟩ := C47_cart (L := L) (op := op) A hL hp hR h15
  obtain ⟨rb, hb, e2, v2⟩ := C47_cart (L := L) (op := op) B hL hp' hR' h15'
  refine ⟨ra, ha, rb, hb, e1, e2, fun ic jc kc i j k a1 a2 a3 a4 a5 a6 => ?_⟩
  rw [v1 ic jc kc i j k a1 a2 a3 a4 a5 a6, v2 jc ic kc j i k a2 a1 a3 a5 a4 a6]
  congr 1
  have e : spNorm (swapIJ3 s).si.l * spNorm (swapIJ3 s).sj.l * spNorm (swapIJ3 s).sk.l =
      spNorm s.si.l * spNorm s.sj.l * spNorm s.sk.l := by
    show spNorm s.sj.l * spNorm s.si.l * spNorm s.sk.l = _
    ring
  rw [e]
  congr 1
  rw [← contract3_swap]
  unfold contract3
  refine Finset.sum_congr rfl fun kp _ => Finset.sum_congr rfl fun jp _ => Finset.sum_congr rfl fun ip _ => ?_
  congr 1
  show (open Classical in if tripleExponent (s.sj.a jp) (s.si.a ip) (s.sk.a kp) (centre s.sj) (centre s.si) (centre s.sk) ≤ 60 then
    _ else _) = _
  rw [tripleExponent_swap12]
  refine if_congr Iff.rfl ?_ rfl
  exact triple_swap12 _ _ _ _

/-- **C47** symmetry: exchanging the last two shells exchanges the indices. -/
theorem C47_swap_jk {L : MathLib ℝ} {s : Call3 ℝ} {R : Rys ℝ} {op : Op3c1e ℝ} (A : CartMem31 int3c1eInt s)
    (B : CartMem31 int3c1eInt (swapJK3 s)) (hL : L.exp = Real.exp) (hp : PosExp31 s) (hR : RootsOK31 R s) (h15 : LOK3 s) :
    ∃ ra ha rb hb, CartEnds31 A R realK L op ra ha ∧ CartEnds31 B R realK L op rb hb ∧
      ∀ ic jc kc i j k, ic < s.si.nctr → jc < s.sj.nctr → kc < s.sk.nctr →
        i < ncart s.si.l → j < ncart s.sj.l → k < ncart s.sk.l →
        B.elem hb 0 ic i kc k jc j = A.elem ha 0 ic i jc j kc k := by
  have hp' : PosExp31 (swapJK3 s) := fun ip jp kp h1 h2 h3 => by
    have := hp ip kp jp h1 h3 h2
    show 0 < s.si.a ip + s.sk.a jp + s.sj.a kp
    linarith
  have hR' : RootsOK31 R (swapJK3 s) := by
    unfold RootsOK31 at *
    show RysOK R ((s.si.l + s.sk.l + s.sj.l)/2 + 1)
    rwa [Nat.add_right_comm]
  have h15' : LOK3 (swapJK3 s) := by
    rw [lok3_iff] at *
    exact ⟨h15.1, h15.2.2, h15.2.1⟩
  obtain ⟨ra, ha, e1, v1⟩ := C47_cart (L := L) (op := op) A hL hp hR h15
  obtain ⟨rb, hb, e2, v2⟩ := C47_cart (L := L) (op := op) B hL hp' hR' h15'
  refine ⟨ra, ha, rb, hb, e1, e2, fun ic jc kc i j k a1 a2 a3 a4 a5 a6 => ?_⟩
  rw [v1 ic jc kc i j k a1 a2 a3 a4 a5 a6, v2 ic kc jc i k j a1 a3 a2 a4 a6 a5]
  congr 1
  have e : spNorm (swapJK3 s).si.l * spNorm (swapJK3 s).sj.l * spNorm (swapJK3 s).sk.l =
      spNorm s.si.l * spNorm s.sj.l * spNorm s.sk.l := by
    show spNorm s.si.l * spNorm s.sk.l * spNorm s.sj.l = _
    ring
  rw [e]
  congr 1
  rw [← contract3_swapJK]
  unfold contract3
  refine Finset.sum_congr rfl fun kp _ => Finset.sum_congr rfl fun jp _ => Finset.sum_congr rfl fun ip _ => ?_
  congr 1
  show (open Classical in if tripleExponent (s.si.a ip) (s.sk.a kp) (s.sj.a jp) (centre s.si) (centre s.sk) (centre s.sj) ≤ 60 then
    _ else _) = _
  rw [tripleExponent_swap23]
  refine if_congr Iff.rfl ?_ rfl
  exact triple_swap23 _ _ _ _

namespace Int3c1eDemo
open OvlpDemo SphDemo EriDemo Eri3Demo

theorem posExp31 (o : ℝ) : PosExp31 (call3 o) := fun _ _ _ _ _ _ => by show (0:ℝ) < 1 + 1 + 1; norm_num

theorem allKept31 (o : ℝ) : AllKept31 (call3 o) := fun ip jp kp _ _ _ => by
  unfold tripleExponent call3 centre
  simp

noncomputable def cartMem31 (s : Call3 ℝ) (h : ∀ t, t < 4 → 0 < Call3.nctrs s t) : CartMem31 int3c1eInt s := blankMem31 int3c1eInt s h

/-- a point charge at (1, 2, 3) and p_y (second contraction), d_xz and the fifth f function -/
example : ∃ R has h', CartEnds31 (cartMem31 (call3 0) (ctr_pos3 _)) R realK lib (.rinv 0 fun k => k+1) has h' ∧
    (cartMem31 (call3 0) (ctr_pos3 _)).elem h' 0 1 1 0 2 1 4 = .val (spNorm 1 * spNorm 2 * spNorm 3 *
      triple (potential 0 fun k => (k:ℕ)+1) (cfun (call3 0).si 1 1) (cfun (call3 0).sj 0 2) (cfun (call3 0).sk 1 4)) := by
  obtain ⟨R, hR⟩ := NucDemo.rys
  obtain ⟨has, h', h1, h2⟩ := C47_cart_exact (L := lib) (R := R) (op := .rinv 0 fun k => k+1) (cartMem31 (call3 0) (ctr_pos3 _)) rfl
    (allKept31 _) (posExp31 _) (hR _) (lok3 _)
  exact ⟨R, has, h', h1, h2 1 0 1 1 2 4 (by show 1 < 2; omega) (by show 0 < 2; omega) (by show 1 < 2; omega)
    (by show 1 < ncart 1; decide) (by show 2 < ncart 2; decide) (by show 4 < ncart 3; decide)⟩

/-- memory for a call with spherical output -/
noncomputable def sphMem31 (s : Call3 ℝ) (h : ∀ t, t < 4 → 0 < Call3.nctrs s t) : SphMem31 int3c1eInt s where
  fpd := 2
  buf := 0
  size := cacheSize3c1e int3c1eInt s
  empty := ⟨4, 0⟩
  fl := ⟨1, 0⟩
  loc := ⟨2, 0⟩
  counts := ⟨3, 0⟩
  out := ⟨5, 7⟩
  dims := none
  nd := fun t => nsph (Call3.ls s) t * Call3.nctrs s t
  h := memR
  hs := ⟨Or.inr (Or.inl rfl), fun t _ => Nat.succ_pos _, fun t ht => h t ht, fun t a b => by
    obtain rfl : t = 3 := by omega
    exact ⟨rfl, rfl, rfl⟩, fun t _ => le_refl _⟩
  M := ⟨by omega, fun k _ => by simp [memR], fun k _ => by simp [memR], by simp [memR], fun k _ => by simp [memR],
    fun k _ => by simp [memR], fun k _ => by simp [memR], by decide, by decide, by decide, by decide, by decide⟩
  fits := Or.inl (le_refl 2)
  hsize := le_refl _
  O := { h_dims := fun t _ => rfl
         h_dbuf := fun d hd => nomatch hd
         h_out := fun m _ => by simp [memR]
         h_obuf := by decide }
  tab := ⟨9, 0⟩
  hT := tabR
  htb := by decide
  hto := by decide

/-- the overlap of three spherical functions -/
example : ∃ R has h', SphEnds31 (sphMem31 (call3 0) (ctr_pos3 _)) R realK lib .ovlp has h' ∧
    (sphMem31 (call3 0) (ctr_pos3 _)).elem h' 0 1 1 0 4 1 6 = .val (triple (fun _ => 1)
      (sgto (call3 0).si 1 1) (sgto (call3 0).sj 0 4) (sgto (call3 0).sk 1 6)) := by
  obtain ⟨R, hR⟩ := NucDemo.rys
  obtain ⟨has, h', h1, h2⟩ := C47_spherical (L := lib) (R := R) (op := .ovlp) (sphMem31 (call3 0) (ctr_pos3 _)) rfl (allKept31 _)
    (posExp31 _) (hR _) (lok3 _)
  exact ⟨R, has, h', h1, h2 1 0 1 1 4 6 (by show 1 < 2; omega) (by show 0 < 2; omega) (by show 1 < 2; omega)
    (by show 1 < 1*2+1; omega) (by show 4 < 2*2+1; omega) (by show 6 < 3*2+1; omega)⟩

/-- the symmetry theorems apply -/
example : ∃ R ra ha rb hb rc hc, CartEnds31 (cartMem31 (call3 0) (ctr_pos3 _)) R realK lib .ovlp ra ha ∧
    CartEnds31 (cartMem31 (swapIJ3 (call3 0)) (ctr_pos3 0)) R realK lib .ovlp rb hb ∧
    CartEnds31 (cartMem31 (swapJK3 (call3 0)) (ctr_pos3 0)) R realK lib .ovlp rc hc := by
  obtain ⟨R, hR⟩ := NucDemo.rys
  obtain ⟨ra, ha, rb, hb, e1, e2, _⟩ := C47_swap_ij (L := lib) (R := R) (op := .ovlp) (s := call3 0)
    (cartMem31 (call3 0) (ctr_pos3 _)) (cartMem31 (swapIJ3 (call3 0)) (ctr_pos3 0)) rfl (posExp31 _) (hR _) (lok3 _)
  obtain ⟨_, _, rc, hc, _, e3, _⟩ := C47_swap_jk (L := lib) (R := R) (op := .ovlp) (s := call3 0)
    (cartMem31 (call3 0) (ctr_pos3 _)) (cartMem31 (swapJK3 (call3 0)) (ctr_pos3 0)) rfl (posExp31 _) (hR _) (lok3 _)
  exact ⟨R, ra, ha, rb, hb, rc, hc, e1, e2, e3⟩

/-- the loop theorem: its hypotheses hold for these shells -/
example : ∃ R : Rys ℝ, ∃ isI : Nat → Prop, ∀ h : Heap ℝ, CacheMem h 2 0 (cacheSize3c1e int3c1eInt (call3 0)) isI →
    h.I ⟨4, 0⟩ = .val 1 → (∀ k, k < 4 → h.I ((⟨1, 0⟩ : Ptr) + k) ≠ .oob) → (∀ k, k < 12*136 → h.I ((⟨2, 0⟩ : Ptr) + k) ≠ .oob) →
    ∃ res h', run (loop3c1eRun int3c1eInt (call3 0) R realK lib (.rinv 2 fun _ => 1) 2 ⟨0, 0⟩ ⟨4, 0⟩ 0
        (2 * (((call3 0).env int3c1eInt).nf * 2 * 2 * 2 * 1)) ⟨1, 0⟩ ⟨2, 0⟩) h = some (res, h') := by
  obtain ⟨R, hR⟩ := NucDemo.rys
  exact ⟨R, C16_3c1e_loop (eval31 (L := lib) (op := .rinv 2 fun _ => 1) (posExp31 _) (hR _)) (le_refl 2) (le_refl 1) (ctr_pos3 _) (lok3 _)
    ⟨by decide, by decide, by decide⟩ (by decide) (by decide)⟩

/-- an s shell with three primitives -/
def sh : PShell ℚ := { nprim := 3, nctr := 1, l := 0, a := fun _ => 1, c := fun _ => 1, r := fun _ => 0 }
def call : Call3 ℚ := { si := sh, sj := sh, sk := sh, envCut := 0, omega := 0 }
/-- memory in which buffer 0 has `n` doubles, and as many FINTs -/
def mem (n : Nat) : Heap ℚ where
  D := fun p => if p.buf = 0 ∧ n ≤ p.off then .oob else .undef
  I := fun p => if p.buf = 0 ∧ n ≤ p.off then .oob else .undef
/-- any functions will do -/
def consts : Consts ℚ := { sqrtpi := 1, pi := 3, sqrt := fun x => x }
def mlib : MathLib ℚ := { log := fun _ => 0, exp := fun _ => 1, sqrt := id }
def roots : Rys ℚ := ⟨fun _ _ _ => 0, fun _ _ _ => 0⟩

end Int3c1eDemo

/-- **C16** is false of the one-electron integrals over three functions when a FINT is as large as a double (`-DI8`), and
therefore `Mem31.fits` is needed: CINT3c1e_drv asks for 23 doubles for three s shells with three primitives each, and the call
with a cache of that size (the driver's own, when the caller passes none) stores outside it. -/
theorem C16_3c1e_overrun : ∃ (s : Call3 ℚ) (h : Heap ℚ), s.si.nprim = 3 ∧ s.sj.nprim = 3 ∧ s.sk.nprim = 3 ∧
    (∀ t, t < 3 → Call3.ls s t = 0 ∧ Call3.nctrs s t = 1) ∧
    CallMem3 h 1 0 (cacheSize3c1e int3c1eInt s) ⟨4, 0⟩ ⟨1, 0⟩ ⟨2, 0⟩ ⟨3, 0⟩ ∧
    OutArg2 3 h (fun _ => 1) (fun _ => 1) 1 ⟨5, 0⟩ none 0 ⟨4, 0⟩ ⟨1, 0⟩ ⟨2, 0⟩ ⟨3, 0⟩ ∧
    ∃ R K L, run (drv3c1e int3c1eInt s R K L .ovlp 1 (fun _ _ => pure) (ncar (Call3.ls s)) ⟨5, 0⟩ none 0 0
      ⟨4, 0⟩ ⟨1, 0⟩ ⟨2, 0⟩ ⟨3, 0⟩) h = none := by
  have hs : cacheSize3c1e int3c1eInt Int3c1eDemo.call = 23 := by decide +kernel
  refine ⟨Int3c1eDemo.call, Int3c1eDemo.mem 23, rfl, rfl, rfl, by decide, ?_, ?_, Int3c1eDemo.roots, Int3c1eDemo.consts,
    Int3c1eDemo.mlib, ?_⟩
  · rw [hs]
    exact ⟨by omega, fun k h => by simp [Int3c1eDemo.mem]; omega, fun k h => by simp [Int3c1eDemo.mem]; omega,
      by simp [Int3c1eDemo.mem], fun k _ => by simp [Int3c1eDemo.mem], fun k _ => by simp [Int3c1eDemo.mem],
      fun k _ => by simp [Int3c1eDemo.mem], by decide, by decide, by decide, by decide, by decide⟩
  · exact { h_dims := fun t _ => rfl
            h_dbuf := fun d hd => nomatch hd
            h_out := fun m _ => by simp [Int3c1eDemo.mem]
            h_obuf := by decide }
  · rw [← Option.isNone_iff_eq_none]
    decide +kernel

end Verif.Props
