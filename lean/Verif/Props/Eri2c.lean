import Verif.Lemmas.Drv2c
import Verif.Props.Eri3

/-!
C14 — the queried cache size suffices (two-centre two-electron integrals).
C46 — two-centre electron repulsion integrals are the integrals over the selected interaction.
-/
namespace Verif.Props
open Verif Verif.Model Verif.Prog Verif.Lemmas Verif.Spec MeasureTheory

section
variable {α : Type} [Field α] [LinearOrder α]

/-- Where and with what memory a two-centre integral is called: `d t` functions per contraction of shell `t` (1 for the
absent ones).  The cache has at least the queried size.  `dims`, when given, has a third entry. -/
structure Mem2c (X : Int2e α) (s : Call2c α) (d : Nat → Nat) where
  fpd : Nat
  buf : Nat
  size : Nat
  empty : Ptr
  fl : Ptr
  loc : Ptr
  counts : Ptr
  out : Ptr
  dims : Option Ptr
  nd : Nat → Nat
  h : Heap α
  hs : Sizes 2 d (Call2c.nctrs s) nd
  M : CallMem3 h fpd buf size empty fl loc counts
  hsize : cacheSize2c2e X s ≤ size
  O : OutArg2 2 h nd (fun t => d t * Call2c.nctrs s t) X.nComp out dims buf empty fl loc counts
  hd2 : ∀ d, dims = some d → ∃ x, h.I (d + 2) = .val x

/-- content of the output array: component `n`, function `i` of contraction `ic` of the first shell and so on -/
def Mem2c.elem {X : Int2e α} {s : Call2c α} {d : Nat → Nat} (A : Mem2c X s d) (h' : Heap α)
    (n ic i kc k : Nat) : Cell α :=
  h'.D (A.out + outAt A.nd n (ic*d 0+i) (kc*d 1+k) 0 0)

/-- memory of a call with Cartesian output -/
abbrev CartMem2c (X : Int2e α) (s : Call2c α) := Mem2c X s (ncar (Call2c.ls s))

/-- memory of a call with spherical output; the transformation table is stored at `tab` -/
structure SphMem2c (X : Int2e α) (s : Call2c α) extends Mem2c X s (nsph (Call2c.ls s)) where
  tab : Ptr
  hT : HoldsTab h tab
  htb : tab.buf ≠ buf
  hto : out.buf ≠ tab.buf

/-- the Cartesian call returns `has` and ends with memory `h'` -/
def CartEnds2c {X : Int2e α} {s : Call2c α} (A : CartMem2c X s) (R : Rys2 α) (K : Consts α) (has : Bool)
    (h' : Heap α) : Prop :=
  run (drv2c2e X s R K A.fpd (fun _ _ => pure) (ncar (Call2c.ls s)) A.out A.dims A.buf 0 A.empty A.fl A.loc A.counts) A.h
    = some (has, h')

/-- the spherical call returns `has` and ends with memory `h'` -/
def SphEnds2c {X : Int2e α} {s : Call2c α} (B : SphMem2c X s) (R : Rys2 α) (K : Consts α) (has : Bool)
    (h' : Heap α) : Prop :=
  run (drv2c2e X s R K B.fpd (sphTrans1e B.tab B.fpd s.si.l s.sk.l) (nsph (Call2c.ls s)) B.out B.dims B.buf 0
    B.empty B.fl B.loc B.counts) B.h = some (has, h')

variable {R : Rys2 α} {K : Consts α} {X : Int2e α} {s : Call2c α} {keep : Nat → Nat → Bool} {w : Nat → Nat → Nat → α}

/-- **C14**, two-centre two-electron integrals with Cartesian output: with a cache of (at least) the queried size the call
completes without undefined behaviour, whatever the cache and the output array contain, for every integral whose integrand
evaluates correctly. -/
theorem C14_2c2e_cart (A : CartMem2c X s) (hK : EvalOK2c R K X s keep w) (hnc : 1 ≤ X.nComp)
    (hl : ∀ t, t < 4 → Call2c.ls s t ≤ 15) : ∃ has h', CartEnds2c A R K has h' := by
  obtain ⟨has, h', hr, _⟩ := drv2c2e_cart A.M A.hsize A.hs A.O A.hd2 hK hnc hl
  exact ⟨has, h', hr⟩

/-- **C14**, two-centre two-electron integrals with spherical output. -/
theorem C14_2c2e_sph (B : SphMem2c X s) (hK : EvalOK2c R K X s keep w) (hnc : 1 ≤ X.nComp)
    (hl : ∀ t, t < 4 → Call2c.ls s t ≤ 15) : ∃ has h', SphEnds2c B R K has h' := by
  obtain ⟨has, h', hr, _⟩ := drv2c2e_sph B.M B.hsize B.hs B.O B.hd2 B.hT B.htb B.hto hK hnc hl
  exact ⟨has, h', hr⟩

/-- **C14**, inside the primitive loop of the two-centre two-electron integrals.  The cache has the queried size.  There is a
fixed division of its doubles into doubles used as `double` and doubles used as `FINT`s (`fpd` each) such that the loop runs
without leaving the cache and without using any part of it both ways, whatever the shells and whatever the cache contains. -/
theorem C14_2c2e_loop {fpd buf : Nat} {empty fl loc : Ptr} (hK : EvalOK2c R K X s keep w) (hf : 0 < fpd) (hnc : 1 ≤ X.nComp)
    (hc : ∀ t, t < 4 → 1 ≤ Call2c.nctrs s t) (hl : ∀ t, t < 4 → Call2c.ls s t ≤ 15)
    (he : empty.buf ≠ buf ∧ empty.buf ≠ fl.buf ∧ empty.buf ≠ loc.buf) (hfl : fl.buf ≠ buf) (hloc : loc.buf ≠ buf) :
    ∃ isI : Nat → Prop, ∀ h : Heap α, CacheMem h fpd buf (cacheSize2c2e X s) isI → h.I empty = .val 1 →
      (∀ k, k < 3 → h.I (fl + k) ≠ .oob) → (∀ k, k < 12*136 → h.I (loc + k) ≠ .oob) →
      ∃ res h', run (loop2c2eRun X s R K fpd ⟨buf, 0⟩ empty buf
        (fpd * ((s.env X).nf * s.si.nctr * s.sk.nctr * X.nComp)) fl loc) h = some (res, h') := by
  refine ⟨intSlots2c X s fpd ((s.env X).nf * s.si.nctr * s.sk.nctr * X.nComp),
    fun h hm h0 h1 h2 => ?_⟩
  obtain ⟨res, h', hr, _⟩ := run_of_wp (loop2c2eRun_wp (o0 := 0)
    ⟨hf, hm, used2c_le_cacheSize X s hf,
      le_of_eq (by ring), h0, h1, h2, he.1, he.2.1, he.2.2, hfl, hloc⟩ hK (hc 0 (by omega)) (hc 1 (by omega))
      hnc (hl 0 (by omega)) (hl 1 (by omega)))
  exact ⟨res, h', hr⟩

/-- **C18**, two-centre two-electron calls with Cartesian output: when 0 is returned the block is zero; in any case every element of
the block is overwritten, no double outside the block and the cache changes, and the new contents do not depend on the contents of
memory (`A` and `A'` differ in nothing but the memory). -/
theorem C18_two_centre_cart (A : CartMem2c X s) (hK : EvalOK2c R K X s keep w) (hnc : 1 ≤ X.nComp)
    (hl : ∀ t, t < 4 → Call2c.ls s t ≤ 15) :
    ∃ v : Nat → α, ∀ A' : CartMem2c X s, A'.nd = A.nd →
      ∃ has h', CartEnds2c A' R K has h' ∧
        (∀ m, InBlock A.nd (fun t => ncar (Call2c.ls s) t * Call2c.nctrs s t) X.nComp m → h'.D (A'.out + m) = .val (v m)) ∧
        (has = false → ∀ m, InBlock A.nd (fun t => ncar (Call2c.ls s) t * Call2c.nctrs s t) X.nComp m → v m = 0) ∧
        (∀ q, q.buf ≠ A'.buf → (∀ m, InBlock A.nd (fun t => ncar (Call2c.ls s) t * Call2c.nctrs s t) X.nComp m →
          q ≠ A'.out + m) → h'.D q = A'.h.D q) := by
  obtain ⟨r0, h0, _, v0, _⟩ := drv2c2e_cart A.M A.hsize A.hs A.O A.hd2 hK hnc hl
  refine ⟨fun m => match h0.D (A.out + m) with | .val x => x | _ => 0, fun B hn => ?_⟩
  obtain ⟨r1, h1, e1, v1, z1, f1, _⟩ := drv2c2e_cart B.M B.hsize B.hs B.O B.hd2 hK hnc hl
  rw [hn] at v1 z1 f1
  have hv : ∀ m, InBlock A.nd (fun t => ncar (Call2c.ls s) t * Call2c.nctrs s t) X.nComp m →
      h1.D (B.out + m) = .val (match h0.D (A.out + m) with | .val x => x | _ => 0) := by
    intro m hm
    obtain ⟨n, ic, jc, kc, lc, i, j, k, x, a1, a2, a3, a4, a5, a6, a7, a8, a9, rfl⟩ := inBlock_digits A.hs.nf_pos hm
    obtain ⟨t1, t2, _⟩ := A.hs.trivial 3 (by omega) (by omega)
    obtain ⟨t3, t4, _⟩ := A.hs.trivial 2 (by omega) (by omega)
    rw [t2] at a5
    rw [t1] at a9
    rw [t4] at a4
    rw [t3] at a8
    obtain rfl : lc = 0 := by omega
    obtain rfl : x = 0 := by omega
    obtain rfl : kc = 0 := by omega
    obtain rfl : k = 0 := by omega
    rw [Nat.zero_mul, Nat.zero_mul]
    have b0 := v0 n ic jc i j a1 a2 a3 a6 a7
    have b1 := v1 n ic jc i j a1 a2 a3 a6 a7
    refine b1.trans ?_
    have e : h0.D (A.out + outAt A.nd n (ic * ncar (Call2c.ls s) 0 + i) (jc * ncar (Call2c.ls s) 1 + j)
      (0 + 0) (0 + 0)) = _ := b0
    rw [e]
  refine ⟨r1, h1, e1, hv, fun hf m hm => ?_, f1.1⟩
  exact Cell.val.inj ((hv m hm).symm.trans (z1 hf m hm))

/-- **C18**, two-centre two-electron calls with spherical output: when 0 is returned the block is zero; in any case every element of
the block is overwritten, no double outside the block and the cache changes, and the new contents do not depend on the contents of
memory (`A` and `A'` differ in nothing but the memory). -/
theorem C18_two_centre_sph (A : SphMem2c X s) (hK : EvalOK2c R K X s keep w) (hnc : 1 ≤ X.nComp)
    (hl : ∀ t, t < 4 → Call2c.ls s t ≤ 15) :
    ∃ v : Nat → α, ∀ A' : SphMem2c X s, A'.nd = A.nd →
      ∃ has h', SphEnds2c A' R K has h' ∧
        (∀ m, InBlock A.nd (fun t => nsph (Call2c.ls s) t * Call2c.nctrs s t) X.nComp m → h'.D (A'.out + m) = .val (v m)) ∧
        (has = false → ∀ m, InBlock A.nd (fun t => nsph (Call2c.ls s) t * Call2c.nctrs s t) X.nComp m → v m = 0) ∧
        (∀ q, q.buf ≠ A'.buf → (∀ m, InBlock A.nd (fun t => nsph (Call2c.ls s) t * Call2c.nctrs s t) X.nComp m →
          q ≠ A'.out + m) → h'.D q = A'.h.D q) := by
  obtain ⟨r0, h0, _, v0, _⟩ := drv2c2e_sph A.M A.hsize A.hs A.O A.hd2 A.hT A.htb A.hto hK hnc hl
  refine ⟨fun m => match h0.D (A.out + m) with | .val x => x | _ => 0, fun B hn => ?_⟩
  obtain ⟨r1, h1, e1, v1, z1, f1, _⟩ := drv2c2e_sph B.M B.hsize B.hs B.O B.hd2 B.hT B.htb B.hto hK hnc hl
  rw [hn] at v1 z1 f1
  have hv : ∀ m, InBlock A.nd (fun t => nsph (Call2c.ls s) t * Call2c.nctrs s t) X.nComp m →
      h1.D (B.out + m) = .val (match h0.D (A.out + m) with | .val x => x | _ => 0) := by
    intro m hm
    obtain ⟨n, ic, jc, kc, lc, i, j, k, x, a1, a2, a3, a4, a5, a6, a7, a8, a9, rfl⟩ := inBlock_digits A.hs.nf_pos hm
    obtain ⟨t1, t2, _⟩ := A.hs.trivial 3 (by omega) (by omega)
    obtain ⟨t3, t4, _⟩ := A.hs.trivial 2 (by omega) (by omega)
    rw [t2] at a5
    rw [t1] at a9
    rw [t4] at a4
    rw [t3] at a8
    obtain rfl : lc = 0 := by omega
    obtain rfl : x = 0 := by omega
    obtain rfl : kc = 0 := by omega
    obtain rfl : k = 0 := by omega
    rw [Nat.zero_mul, Nat.zero_mul]
    have b0 := v0 n ic jc i j a1 a2 a3 a6 a7
    have b1 := v1 n ic jc i j a1 a2 a3 a6 a7
    refine b1.trans ?_
    have e : h0.D (A.out + outAt A.nd n (ic * nsph (Call2c.ls s) 0 + i) (jc * nsph (Call2c.ls s) 1 + j)
      (0 + 0) (0 + 0)) = _ := b0
    rw [e]
  refine ⟨r1, h1, e1, hv, fun hf m hm => ?_, f1.1⟩
  exact Cell.val.inj ((hv m hm).symm.trans (z1 hf m hm))

/-- **C19**, two-centre two-electron calls: the spherical integrals are the Cartesian ones transformed by the table on both
indices.  The memory of the two calls need not have anything in common. -/
theorem C19_two_centre (A : CartMem2c X s) (B : SphMem2c X s) (hK : EvalOK2c R K X s keep w) (hnc : 1 ≤ X.nComp)
    (hl : ∀ t, t < 4 → Call2c.ls s t ≤ 15) :
    ∃ ra ha rb hb, CartEnds2c A R K ra ha ∧ SphEnds2c B R K rb hb ∧
      ∃ x : Nat → Nat → Nat → Nat → Nat → α,
        (∀ n ic kc a c, n < X.nComp → ic < s.si.nctr → kc < s.sk.nctr → a < ncart s.si.l → c < ncart s.sk.l →
          A.elem ha n ic a kc c = .val (x n ic a kc c)) ∧
        (∀ n ic kc i k, n < X.nComp → ic < s.si.nctr → kc < s.sk.nctr → i < s.si.l*2+1 → k < s.sk.l*2+1 →
          B.elem hb n ic i kc k = .val (∑ a ∈ Finset.range (ncart s.si.l), ∑ c ∈ Finset.range (ncart s.sk.l),
            c2sCoef s.si.l i a * c2sCoef s.sk.l k c * x n ic a kc c)) := by
  obtain ⟨ra, ha, r1, v1, _⟩ := drv2c2e_cart A.M A.hsize A.hs A.O A.hd2 hK hnc hl
  obtain ⟨rb, hb, r2, v2, _⟩ := drv2c2e_sph B.M B.hsize B.hs B.O B.hd2 B.hT B.htb B.hto hK hnc hl
  refine ⟨ra, ha, rb, hb, r1, r2, fun n ic a kc c =>
    loopVal2c K X s keep w n ic kc (pos4c (ncar (Call2c.ls s)) a c 0 0), ?_, ?_⟩
  · intro n ic kc a c a1 a2 a3 a4 a6
    exact v1 n ic kc a c a1 a2 a3 a4 a6
  · intro n ic kc a c a1 a2 a3 a4 a6
    exact v2 n ic kc a c a1 a2 a3 a4 a6
end

/-! ### Values -/

/-- the exponents are positive -/
structure PosExp2c (s : Call2c ℝ) : Prop where
  i : ∀ ip, ip < s.si.nprim → 0 < s.si.a ip
  k : ∀ kp, kp < s.sk.nprim → 0 < s.sk.a kp

/-- the root finder returns the roots and weights of Rys quadrature for the numbers of roots this call needs -/
def RootsOK2c (R : Rys2 ℝ) (s : Call2c ℝ) : Prop := Rys2OK R (s.env eriInt).nrys_roots

/-- The shells are as tall as the library supports. -/
def LOK2c (s : Call2c ℝ) : Prop := ∀ t, t < 4 → Call2c.ls s t ≤ 15

open Classical in
theorem eri_eval2c {s : Call2c ℝ} {R : Rys2 ℝ} (hp : PosExp2c s) (hR : RootsOK2c R s) :
    EvalOK2c R realK eriInt s
      (fun ip kp => decide (G2.kept (s.g2 ip kp) (cutoff2c2e s.envCut)))
      (fun ip kp n => eriW (s.g2 ip kp) (fun c => pw s.si.l c (n % ncart s.si.l)) (fun _ => 0)
        (fun c => pw s.sk.l c (n / ncart s.si.l)) (fun _ => 0)) := by
  intro ip kp g idx T hip hkp hT
  have hnf : (s.env (eriInt : Int2e ℝ)).nf = ncart s.sk.l * ncart s.si.l := by
    show lenCart s.si.l * lenCart s.sk.l = _
    simp only [lenCart_eq]; ring
  have dig : ∀ n, n < (s.env (eriInt : Int2e ℝ)).nf → n % ncart s.si.l < ncart s.si.l ∧ n / ncart s.si.l < ncart s.sk.l := by
    intro n hn
    rw [hnf] at hn
    exact ⟨Nat.mod_lt _ (ncart_pos _), (Nat.div_lt_iff_lt_mul (ncart_pos _)).2 hn⟩
  have key := eri_kernel (R := R) (e := env4 (s.env eriInt)) (d := s.g2 ip kp) (cutoff := cutoff2c2e s.envCut)
    (g := g) (idx := idx) (leng := s.leng eriInt) (nf := (s.env eriInt).nf) (T := T)
    (I := fun c n => pw s.si.l c (n % ncart s.si.l)) (J := fun _ _ => 0)
    (K := fun c n => pw s.sk.l c (n / ncart s.si.l)) (L := fun _ _ => 0)
    (env4_shape _ _ _ _) (by
      show 3 * (s.env eriInt).g_size ≤ (s.env eriInt).g_size * 3 * (2^0+1)
      omega) (by
      show (s.si.l + 0 + (s.sk.l + 0))/2 + 1 = (s.si.l + 0 + 0 + (s.sk.l + 0) + 0)/2 + 1
      omega) (by
      show srRoots _ _ = _ ∨ srRoots _ _ = 2 * _
      unfold srRoots
      split
      · right
        exact Nat.mul_comm _ 2
      · left; rfl) hR (by
      show 0 < s.si.a ip + 0
      rw [add_zero]
      exact hp.i ip hip) (by
      show 0 < s.sk.a kp + 0
      rw [add_zero]
      exact hp.k kp hkp) (by
      intro n c hn hc
      obtain ⟨d1, d2⟩ := dig n hn
      exact ⟨pw_le d1, le_refl _, pw_le d2, le_refl _⟩) (by
      intro n hn
      obtain ⟨d1, d2⟩ := dig n hn
      simp only [Finset.sum_add_distrib]
      have e1 : ∑ c : Fin 3, pw s.si.l c (n % ncart s.si.l) = s.si.l := pw_sum d1
      have e2 : ∑ c : Fin 3, pw s.sk.l c (n / ncart s.si.l) = s.sk.l := pw_sum d2
      rw [e1, e2]
      simp only [Finset.sum_const_zero]
      show _ < 2 * ((s.si.l + 0 + (s.sk.l + 0))/2 + 1)
      omega) (by
      intro n c hn hc
      rw [hT n c hn hc]
      rfl)
  show KernelSpec T _ (fun _ gout em => gout2e (s.env eriInt).nf _ idx g gout em) _ ((s.env eriInt).nf * 1) _ _
  rw [Nat.mul_one]
  have hfun : (fun fac => g0_2e R realK (s.env eriInt) (s.g2 ip kp) (cutoff2c2e s.envCut) g fac g0_2d2c) =
      fun fac => g0_2e R realK (env4 (s.env eriInt)) (s.g2 ip kp) (cutoff2c2e s.envCut) g fac := by
    funext fac
    exact g0_2c_eq R realK _ _ _ _ _ _ _ _
  rw [hfun]
  exact key

/-- `θ ρ |A-C|²` with `ρ = pq/(p+q)`, `θ = ω²/(ω²+ρ)`: the exponent of the short-range integral of two primitives -/
noncomputable def srExp2c (s : Call2c ℝ) (ip kp : Nat) : ℝ :=
  let p := s.si.a ip
  let q := s.sk.a kp
  s.omega^2/(s.omega^2 + p*q/(p+q)) * (p*q/(p+q) * ∑ c, (centre s.si c - centre s.sk c)^2)

/-- The primitive pair is not screened: only short-range integrals are, by their exponent. -/
def Kept2c (s : Call2c ℝ) (ip kp : Nat) : Prop :=
  s.omega < 0 → srExp2c s ip kp ≤ 40 ∧ srExp2c s ip kp ≤ cutoff2c2e s.envCut

theorem kept2c_iff (s : Call2c ℝ) (ip kp : Nat) : G2.kept (s.g2 ip kp) (cutoff2c2e s.envCut) ↔ Kept2c s ip kp := by
  have hx : G2.theta (s.g2 ip kp) * G2.x (s.g2 ip kp) = srExp2c s ip kp := by
    unfold G2.theta G2.x G2.a0 Call2c.g2 srExp2c centre
    dsimp only
    rw [Fin.sum_univ_three]
    simp only [Fin.val_zero, Fin.val_one, Fin.val_two, add_zero]
    ring
  unfold G2.kept Kept2c
  rw [hx]
  show ¬ (s.omega < 0 ∧ _) ↔ _
  rw [not_and]
  refine imp_congr_right fun _ => ?_
  rw [not_or, not_lt, not_lt, and_comm]

/-- a primitive, as the recursion sees it -/
theorem gto_pg' {a : ℝ} (ha : 0 < a) (A : Fin 3 → ℝ) (n : Fin 3 → ℕ) (r : Fin 3 → ℝ) :
    gto a A n r = pg (a+0) A (fun k => pq (A k) (A k) (n k) 0) r := by
  have h := gto_mul_eq (a := a) (b := 0) (by rw [add_zero]; exact ha.ne') A A n (fun _ => 0) r
  have h1 : gto 0 A (fun _ => 0) r = 1 := by unfold gto; simp
  rw [h1, mul_one] at h
  rw [h]
  have h2 : (fun k => (a * A k + 0 * A k)/(a+0)) = A := by
    funext k
    rw [zero_mul, add_zero, add_zero, mul_div_cancel_left₀ _ ha.ne']
  rw [h2, mul_zero, zero_div, neg_zero, zero_mul, Real.exp_zero, one_mul]

open Classical in
theorem eri_loopVal2c {s : Call2c ℝ} (hp : PosExp2c s) {ic kc i k : Nat} (h1 : i < ncart s.si.l) :
    loopVal2c realK eriInt s
      (fun ip kp => decide (G2.kept (s.g2 ip kp) (cutoff2c2e s.envCut)))
      (fun ip kp n => eriW (s.g2 ip kp) (fun c => pw s.si.l c (n % ncart s.si.l)) (fun _ => 0)
        (fun c => pw s.sk.l c (n / ncart s.si.l)) (fun _ => 0)) 0 ic kc (pos4c (ncar (Call2c.ls s)) i k 0 0) =
    spNorm s.si.l * spNorm s.sk.l *
      contract2 s.si.nprim s.sk.nprim s.si.c s.sk.c (fun ip kp =>
        if Kept2c s ip kp then
          repulsion (interaction s.omega) (gto (s.si.a ip) (centre s.si) (powers s.si.l i))
            (gto (s.sk.a kp) (centre s.sk) (powers s.sk.l k)) else 0) ic kc := by
  have hpi : (2 / Real.sqrt Real.pi * Real.pi^3) ≠ 0 := by positivity
  unfold loopVal2c
  have hcom : (eriInt : Int2e ℝ).common * (realK.pi * realK.pi * realK.pi * 2 / realK.sqrtpi * commonFacSp s.si.l * commonFacSp s.sk.l) =
      (2 / Real.sqrt Real.pi * Real.pi^3) * (spNorm s.si.l * spNorm s.sk.l) := by
    show 1 * (Real.pi * Real.pi * Real.pi * 2 / Real.sqrt Real.pi * commonFacSp s.si.l * commonFacSp s.sk.l) = _
    rw [spNorm_eq, spNorm_eq]
    ring
  rw [hcom, mul_comm (2 / Real.sqrt Real.pi * Real.pi^3), mul_assoc]
  congr 1
  unfold contract2
  rw [Finset.mul_sum]
  refine Finset.sum_congr rfl (fun kp hkp => ?_)
  rw [Finset.mul_sum]
  refine Finset.sum_congr rfl (fun ip hip => ?_)
  have hip : ip < s.si.nprim := Finset.mem_range.1 hip
  have hkp : kp < s.sk.nprim := Finset.mem_range.1 hkp
  rw [mul_comm (2 / Real.sqrt Real.pi * Real.pi^3), mul_assoc]
  congr 1
  have hx : pos4c (ncar (Call2c.ls s)) i k 0 0 = k*ncart s.si.l + i := by
    unfold pos4c ncar
    show i + ncart s.si.l * (0 + ncart 0 * (0 + ncart 0 * k)) = _
    rw [ncart_zero]
    ring
  have e1 : (pos4c (ncar (Call2c.ls s)) i k 0 0 * (eriInt : Int2e ℝ).nComp + 0) % ncart s.si.l = i := by
    show (_ * 1 + 0) % _ = i
    rw [Nat.mul_one, Nat.add_zero, hx, (digit h1).2]
  have e2 : (pos4c (ncar (Call2c.ls s)) i k 0 0 * (eriInt : Int2e ℝ).nComp + 0) / ncart s.si.l = k := by
    show (_ * 1 + 0) / _ = k
    rw [Nat.mul_one, Nat.add_zero, hx, (digit h1).1]
  simp only [e1, e2]
  by_cases hk : Kept2c s ip kp
  · rw [if_pos (decide_eq_true ((kept2c_iff s ip kp).2 hk)), if_pos hk]
    unfold eriW
    rw [div_mul_cancel₀ _ hpi]
    have f1 : gto (s.si.a ip) (centre s.si) (powers s.si.l i) = pg (s.si.a ip+0) (centre s.si)
        (fun c => pq (centre s.si c) (centre s.si c) (powers s.si.l i c) 0) := funext fun r => gto_pg' (hp.i ip hip) _ _ r
    have f2 : gto (s.sk.a kp) (centre s.sk) (powers s.sk.l k) = pg (s.sk.a kp+0) (centre s.sk)
        (fun c => pq (centre s.sk c) (centre s.sk c) (powers s.sk.l k c) 0) := funext fun r => gto_pg' (hp.k kp hkp) _ _ r
    rw [f1, f2]
    rfl
  · rw [if_neg (fun x => hk ((kept2c_iff s ip kp).1 (of_decide_eq_true x))), if_neg hk, zero_mul]

/-- **C46** int2c2e_cart: each element is, up to the normalisation of s and p functions, the contraction of the repulsion
integrals of the primitive pairs, over the interaction selected by `env[PTR_RANGE_OMEGA]`; nothing is left out but short-range
integrals whose exponent exceeds the cutoff. -/
theorem C46_two_centre {s : Call2c ℝ} {R : Rys2 ℝ} (A : CartMem2c eriInt s) (hp : PosExp2c s) (hR : RootsOK2c R s)
    (h15 : LOK2c s) :
    ∃ has h', CartEnds2c A R realK has h' ∧
      ∀ ic kc i k, ic < s.si.nctr → kc < s.sk.nctr → i < ncart s.si.l → k < ncart s.sk.l →
        A.elem h' 0 ic i kc k = .val (spNorm s.si.l * spNorm s.sk.l *
          contract2 s.si.nprim s.sk.nprim s.si.c s.sk.c (fun ip kp =>
            open Classical in if Kept2c s ip kp then
              repulsion (interaction s.omega) (gto (s.si.a ip) (centre s.si) (powers s.si.l i))
                (gto (s.sk.a kp) (centre s.sk) (powers s.sk.l k))
            else 0) ic kc) := by
  obtain ⟨has, h', hr, hv, _⟩ := drv2c2e_cart A.M A.hsize A.hs A.O A.hd2 (eri_eval2c hp hR) (le_refl 1) h15
  refine ⟨has, h', hr, fun ic kc i k a2 a3 a4 a6 => ?_⟩
  refine (hv 0 ic kc i k Nat.zero_lt_one a2 a3 a4 a6).trans ?_
  exact congrArg Cell.val (eri_loopVal2c hp a4)

/-- no primitive pair of the call is screened -/
def AllKept2c (s : Call2c ℝ) : Prop := ∀ ip kp, ip < s.si.nprim → kp < s.sk.nprim → Kept2c s ip kp

/-- the call with a second shell consisting of the constant function 1 -/
def withUnit2c (s : Call2c ℝ) : Call3 ℝ := { si := s.si, sj := unitShell, sk := s.sk, envCut := s.envCut, omega := s.omega }

theorem posExp_unit2c {s : Call2c ℝ} (hp : PosExp2c s) : PosExp3 (withUnit2c s) :=
  ⟨fun ip _ h _ => by show 0 < s.si.a ip + 0; rw [add_zero]; exact hp.i ip h, hp.k⟩

theorem repulsion_cfun2c {s : Call2c ℝ} (hp : PosExp2c s) (omega : ℝ) (ic kc i k : Nat) :
    (Integrable fun z : (Fin 3 → ℝ) × (Fin 3 → ℝ) => cfun s.si ic i z.1 * interaction omega z.1 z.2 * cfun s.sk kc k z.2) ∧
    repulsion (interaction omega) (cfun s.si ic i) (cfun s.sk kc k) =
      contract2 s.si.nprim s.sk.nprim s.si.c s.sk.c (fun ip kp =>
        repulsion (interaction omega) (gto (s.si.a ip) (centre s.si) (powers s.si.l i))
          (gto (s.sk.a kp) (centre s.sk) (powers s.sk.l k))) ic kc := by
  obtain ⟨h1, h2⟩ := repulsion_cfun3 (posExp_unit2c hp) omega ic 0 kc i 0 k
  have e : (fun r => cfun (withUnit2c s).si ic i r * cfun (withUnit2c s).sj 0 0 r) = cfun s.si ic i := by
    funext r
    show cfun s.si ic i r * cfun unitShell 0 0 r = _
    rw [cfun_unit, mul_one]
  rw [e] at h2
  refine ⟨?_, h2.trans ?_⟩
  · refine h1.congr (Filter.Eventually.of_forall fun z => ?_)
    exact congrArg (fun x => x * interaction omega z.1 z.2 * cfun s.sk kc k z.2) (congrFun e z.1)
  · unfold contract3 contract2
    refine Finset.sum_congr rfl fun kp _ => ?_
    show ∑ jp ∈ Finset.range 1, _ = _
    rw [Finset.sum_range_one]
    refine Finset.sum_congr rfl fun ip _ => ?_
    show s.sk.c (s.sk.nprim*kc+kp) * 1 * _ * repulsion _ (fun r => gto (s.si.a ip) (centre s.si) (powers s.si.l i) r *
      gto 0 (centre unitShell) (powers 0 0) r) _ = _
    simp only [gto_unit, mul_one]
    rfl

/-- **C46** int2c2e_cart, nothing screened: exactly the repulsion integral of the two contracted functions. -/
theorem C46_two_centre_exact {s : Call2c ℝ} {R : Rys2 ℝ} (A : CartMem2c eriInt s)
    (hkept : AllKept2c s) (hp : PosExp2c s) (hR : RootsOK2c R s) (h15 : LOK2c s) :
    ∃ has h', CartEnds2c A R realK has h' ∧
      ∀ ic kc i k, ic < s.si.nctr → kc < s.sk.nctr → i < ncart s.si.l → k < ncart s.sk.l →
        A.elem h' 0 ic i kc k = .val (spNorm s.si.l * spNorm s.sk.l *
          repulsion (interaction s.omega) (cfun s.si ic i) (cfun s.sk kc k)) := by
  obtain ⟨has, h', hr, hv⟩ := C46_two_centre A hp hR h15
  refine ⟨has, h', hr, fun ic kc i k a2 a3 a4 a6 => ?_⟩
  rw [hv ic kc i k a2 a3 a4 a6, (repulsion_cfun2c hp _ _ _ _ _).2]
  congr 2
  unfold contract2
  refine Finset.sum_congr rfl fun kp b2 => Finset.sum_congr rfl fun ip b4 => ?_
  rw [Finset.mem_range] at b2 b4
  dsimp only
  rw [if_pos (hkept ip kp b4 b2)]

/-- **C46** int2c2e_cart with `env[PTR_RANGE_OMEGA]` not negative: no condition on the screening at all. -/
theorem C46_two_centre_full_or_long {s : Call2c ℝ} {R : Rys2 ℝ} (A : CartMem2c eriInt s) (ho : 0 ≤ s.omega)
    (hp : PosExp2c s) (hR : RootsOK2c R s) (h15 : LOK2c s) :
    ∃ has h', CartEnds2c A R realK has h' ∧
      ∀ ic kc i k, ic < s.si.nctr → kc < s.sk.nctr → i < ncart s.si.l → k < ncart s.sk.l →
        A.elem h' 0 ic i kc k = .val (spNorm s.si.l * spNorm s.sk.l *
          repulsion (interaction s.omega) (cfun s.si ic i) (cfun s.sk kc k)) :=
  C46_two_centre_exact A (fun _ _ _ _ h => absurd ho (not_le.2 h)) hp hR h15

/-- a Cartesian call in memory that is allocated but not initialised -/
def blankMem2c {α : Type} [Field α] [LinearOrder α] (X : Int2e α) (s : Call2c α) (h : ∀ t, t < 4 → 0 < Call2c.nctrs s t) :
    CartMem2c X s where
  fpd := 1
  buf := 0
  size := cacheSize2c2e X s
  empty := ⟨4, 0⟩
  fl := ⟨1, 0⟩
  loc := ⟨2, 0⟩
  counts := ⟨3, 0⟩
  out := ⟨5, 7⟩
  dims := none
  nd := fun t => ncar (Call2c.ls s) t * Call2c.nctrs s t
  h := ⟨fun _ => .undef, fun _ => .undef⟩
  hs := ⟨Or.inl rfl, fun t _ => ncart_pos _, fun t ht => h t ht, fun t a b => by
    obtain rfl | rfl : t = 2 ∨ t = 3 := by omega
    · exact ⟨ncart_zero, rfl, by show ncart 0 * 1 = 1; rw [ncart_zero]⟩
    · exact ⟨ncart_zero, rfl, by show ncart 0 * 1 = 1; rw [ncart_zero]⟩, fun t _ => le_refl _⟩
  M := ⟨by omega, fun k _ => by simp, fun k _ => by simp, by simp, fun k _ => by simp, fun k _ => by simp,
    fun k _ => by simp, by decide, by decide, by decide, by decide, by decide⟩
  hsize := le_refl _
  O := { h_dims := fun t _ => rfl
         h_dbuf := fun d hd => nomatch hd
         h_out := fun m _ => by simp
         h_obuf := by decide }
  hd2 := fun d hd => nomatch hd

theorem repulsion_sgto2c {s : Call2c ℝ} (hp : PosExp2c s) (omega : ℝ) (ic kc i k : Nat) :
    repulsion (interaction omega) (sgto s.si ic i) (sgto s.sk kc k) =
      ∑ a ∈ Finset.range (ncart s.si.l), ∑ c ∈ Finset.range (ncart s.sk.l),
        c2sCoef s.si.l i a * c2sCoef s.sk.l k c *
          (spNorm s.si.l * spNorm s.sk.l * repulsion (interaction omega) (cfun s.si ic a) (cfun s.sk kc c)) := by
  rw [sgto_eq s.sk, sgto_eq s.si]
  refine (repulsion_sum (V := interaction omega) _ _ _ _ (fun a _ b _ => (repulsion_cfun2c hp omega ic kc a b).1)).2.trans ?_
  refine Finset.sum_congr rfl fun a _ => Finset.sum_congr rfl fun c _ => ?_
  ring

/-- **C46** int2c2e_sph, nothing screened: exactly the repulsion integral of the spherical functions. -/
theorem C46_two_centre_spherical {s : Call2c ℝ} {R : Rys2 ℝ} (B : SphMem2c eriInt s)
    (hkept : AllKept2c s) (hp : PosExp2c s) (hR : RootsOK2c R s) (h15 : LOK2c s) :
    ∃ has h', SphEnds2c B R realK has h' ∧
      ∀ ic kc i k, ic < s.si.nctr → kc < s.sk.nctr → i < s.si.l*2+1 → k < s.sk.l*2+1 →
        B.elem h' 0 ic i kc k = .val (repulsion (interaction s.omega) (sgto s.si ic i) (sgto s.sk kc k)) := by
  let A := blankMem2c eriInt s B.hs.nctr_pos
  obtain ⟨ra, ha, rb, hb, eA, eB, x, vA, vB⟩ := C19_two_centre A B (eri_eval2c hp hR) (le_refl 1) h15
  obtain ⟨rc, hc, eC, vC⟩ := C46_two_centre_exact (R := R) A hkept hp hR h15
  have hAC : ha = hc := by
    have e : some (ra, ha) = some (rc, hc) := eA.symm.trans eC
    simp only [Option.some.injEq, Prod.mk.injEq] at e
    exact e.2
  refine ⟨rb, hb, eB, fun ic kc i k a2 a3 a4 a6 => ?_⟩
  rw [vB 0 ic kc i k Nat.zero_lt_one a2 a3 a4 a6, repulsion_sgto2c hp]
  congr 1
  refine Finset.sum_congr rfl fun a b1 => Finset.sum_congr rfl fun c b3 => ?_
  rw [Finset.mem_range] at b1 b3
  congr 1
  have c1 := vA 0 ic kc a c Nat.zero_lt_one a2 a3 b1 b3
  have c2 := vC ic kc a c a2 a3 b1 b3
  rw [← hAC] at c2
  exact Cell.val.inj (c1.symm.trans c2)

/-! ### Symmetry and range separation -/

/-- the call with the shells exchanged -/
def swap2c {α : Type} (s : Call2c α) : Call2c α := { s with si := s.sk, sk := s.si }

theorem kept2c_swap {s : Call2c ℝ} {ip kp : Nat} : Kept2c (swap2c s) kp ip ↔ Kept2c s ip kp := by
  have e : srExp2c (swap2c s) kp ip = srExp2c s ip kp := by
    unfold srExp2c
    simp only [swap2c]
    rw [add_comm (s.sk.a kp), mul_comm (s.sk.a kp)]
    congr 2
    exact Finset.sum_congr rfl fun c _ => by ring
  unfold Kept2c
  rw [e]
  rfl

theorem posExp2c_swap {s : Call2c ℝ} (hp : PosExp2c s) : PosExp2c (swap2c s) := ⟨hp.k, hp.i⟩

theorem roots_eq2c (s : Call2c ℝ) : (s.env eriInt).nrys_roots =
    srRoots (decide (s.omega < 0)) ((s.si.l + s.sk.l)/2 + 1) := rfl

theorem rootsOK2c_swap {s : Call2c ℝ} {R : Rys2 ℝ} (h : RootsOK2c R s) : RootsOK2c R (swap2c s) := by
  unfold RootsOK2c at *
  rw [roots_eq2c] at *
  rwa [show (swap2c s).si.l + (swap2c s).sk.l = s.si.l + s.sk.l from Nat.add_comm _ _]

theorem lok2c_iff (s : Call2c ℝ) : LOK2c s ↔ s.si.l ≤ 15 ∧ s.sk.l ≤ 15 := by
  constructor
  · intro h
    exact ⟨h 0 (by omega), h 1 (by omega)⟩
  · rintro ⟨h0, h1⟩ t ht
    obtain rfl | rfl | rfl | rfl : t = 0 ∨ t = 1 ∨ t = 2 ∨ t = 3 := by omega
    · exact h0
    · exact h1
    · exact Nat.zero_le _
    · exact Nat.zero_le _

/-- **C29** two-centre integrals: exchanging the two shells transposes the block, whatever is screened. -/
theorem C29_two_centre_swap {s : Call2c ℝ} {R : Rys2 ℝ} (A : CartMem2c eriInt s) (B : CartMem2c eriInt (swap2c s))
    (hp : PosExp2c s) (hR : RootsOK2c R s) (h15 : LOK2c s) :
    ∃ ra ha rb hb, CartEnds2c A R realK ra ha ∧ CartEnds2c B R realK rb hb ∧
      ∀ ic kc i k, ic < s.si.nctr → kc < s.sk.nctr → i < ncart s.si.l → k < ncart s.sk.l →
        ∃ x, A.elem ha 0 ic i kc k = .val x ∧ B.elem hb 0 kc k ic i = .val x := by
  obtain ⟨ra, ha, e1, v1⟩ := C46_two_centre A hp hR h15
  have h15' : LOK2c (swap2c s) := by
    obtain ⟨a, b⟩ := (lok2c_iff s).1 h15
    exact (lok2c_iff _).2 ⟨b, a⟩
  obtain ⟨rb, hb, e2, v2⟩ := C46_two_centre B (posExp2c_swap hp) (rootsOK2c_swap hR) h15'
  refine ⟨ra, ha, rb, hb, e1, e2, fun ic kc i k a2 a3 a4 a6 =>
    ⟨_, v1 ic kc i k a2 a3 a4 a6, (v2 kc ic k i a3 a2 a6 a4).trans ?_⟩⟩
  congr 1
  refine congrArg₂ (· * ·) (mul_comm _ _) ?_
  unfold contract2
  rw [Finset.sum_comm]
  refine Finset.sum_congr rfl fun kp _ => Finset.sum_congr rfl fun ip _ => ?_
  refine congrArg₂ (· * ·) (mul_comm _ _) ?_
  dsimp only
  by_cases hk : Kept2c s ip kp
  · rw [if_pos hk, if_pos (kept2c_swap.2 hk)]
    exact repulsion_comm _ _ _
  · rw [if_neg hk, if_neg (fun h => hk (kept2c_swap.1 h))]

/-- the call with another `env[PTR_RANGE_OMEGA]` -/
def withOmega2c {α : Type} (s : Call2c α) (omega : α) : Call2c α := { s with omega := omega }

/-- **C38** range separation for two-centre integrals: when no short-range integral is screened, the integrals with
`omega = -w` are those with `omega = 0` minus those with `omega = w`. -/
theorem C38_two_centre {s : Call2c ℝ} {R : Rys2 ℝ} {w : ℝ} (hw : 0 < w)
    (A : CartMem2c eriInt (withOmega2c s (-w))) (B : CartMem2c eriInt (withOmega2c s 0)) (C : CartMem2c eriInt (withOmega2c s w))
    (hkA : AllKept2c (withOmega2c s (-w))) (hp : PosExp2c s) (hRA : RootsOK2c R (withOmega2c s (-w)))
    (hRB : RootsOK2c R (withOmega2c s 0)) (hRC : RootsOK2c R (withOmega2c s w)) (h15 : LOK2c s) :
    ∃ ra ha rb hb rc hc, CartEnds2c A R realK ra ha ∧ CartEnds2c B R realK rb hb ∧ CartEnds2c C R realK rc hc ∧
      ∀ ic kc i k, ic < s.si.nctr → kc < s.sk.nctr → i < ncart s.si.l → k < ncart s.sk.l →
        ∃ full long, B.elem hb 0 ic i kc k = .val full ∧ C.elem hc 0 ic i kc k = .val long ∧
          A.elem ha 0 ic i kc k = .val (full - long) := by
  have hp' : ∀ o, PosExp2c (withOmega2c s o) := fun o => ⟨hp.i, hp.k⟩
  obtain ⟨ra, ha, e1, v1⟩ := C46_two_centre_exact A hkA (hp' _) hRA h15
  obtain ⟨rb, hb, e2, v2⟩ := C46_two_centre_full_or_long B (le_refl _) (hp' _) hRB h15
  obtain ⟨rc, hc, e3, v3⟩ := C46_two_centre_full_or_long C hw.le (hp' _) hRC h15
  refine ⟨ra, ha, rb, hb, rc, hc, e1, e2, e3, fun ic kc i k a2 a3 a4 a6 =>
    ⟨_, _, v2 ic kc i k a2 a3 a4 a6, v3 ic kc i k a2 a3 a4 a6, (v1 ic kc i k a2 a3 a4 a6).trans ?_⟩⟩
  congr 1
  refine Eq.trans ?_ (mul_sub _ _ _)
  refine congrArg₂ _ rfl ?_
  exact repulsion_split hw (repulsion_cfun2c hp 0 ic kc i k).1 (repulsion_cfun2c hp w ic kc i k).1

/-! ### The hypotheses can be met -/
namespace Eri2cDemo
open OvlpDemo SphDemo EriDemo

/-- p and f shells with two primitives and two contractions each -/
noncomputable def call2c (omega : ℝ) : Call2c ℝ where
  si := { nprim := 2, nctr := 2, l := 1, a := fun _ => 1, c := fun _ => 1, r := fun _ => 0 }
  sk := { nprim := 2, nctr := 2, l := 3, a := fun p => 1 + p, c := fun _ => 1, r := fun c => c/2 }
  envCut := 0
  omega := omega

theorem posExp2c (o : ℝ) : PosExp2c (call2c o) :=
  ⟨fun _ _ => by show (0:ℝ) < 1; norm_num, fun p _ => by show (0:ℝ) < 1 + p; positivity⟩

theorem allKept2c (o : ℝ) : AllKept2c (call2c o) := by
  intro ip kp hi hk _
  have h1 : srExp2c (call2c o) ip kp ≤ 5/4 := by
    unfold srExp2c call2c centre
    dsimp only
    have hq : (0:ℝ) < 1 + kp := by positivity
    have hr0 : (0:ℝ) < 1 * (1+(kp:ℝ))/(1+(1+kp)) := by positivity
    have hr1 : 1 * (1+(kp:ℝ))/(1+(1+kp)) ≤ 1 := by
      rw [div_le_one (by positivity)]; linarith
    have ho : (0:ℝ) ≤ o^2 := sq_nonneg o
    have ht1 : o^2/(o^2 + 1 * (1+(kp:ℝ))/(1+(1+kp))) ≤ 1 := by
      rw [div_le_one (by positivity)]; linarith
    have ht0 : 0 ≤ o^2/(o^2 + 1 * (1+(kp:ℝ))/(1+(1+kp))) := by positivity
    have hs : ∑ c : Fin 3, ((0:ℝ) - ((c:ℕ):ℝ)/2)^2 = 5/4 := by
      rw [Fin.sum_univ_three]
      simp only [Fin.val_zero, Fin.val_one, Fin.val_two]
      norm_num
    rw [hs]
    have := mul_le_mul ht1 (mul_le_mul_of_nonneg_right hr1 (by norm_num : (0:ℝ) ≤ 5/4)) (by positivity) (by norm_num)
    linarith
  have hc : cutoff2c2e (call2c o).envCut = 60 := if_pos rfl
  rw [hc]
  constructor <;> linarith

theorem lok2c (o : ℝ) : LOK2c (call2c o) := (lok2c_iff _).2 ⟨by show 1 ≤ 15; omega, by show 3 ≤ 15; omega⟩

theorem ctr_pos2c (o : ℝ) : ∀ t, t < 4 → 0 < Call2c.nctrs (call2c o) t := by
  show ∀ t, t < 4 → 0 < four 2 2 1 1 t
  decide

noncomputable def cartMem2c (s : Call2c ℝ) (h : ∀ t, t < 4 → 0 < Call2c.nctrs s t) : CartMem2c eriInt s := blankMem2c eriInt s h

/-- the short-range integral of p_y (second contraction) and the fifth f function -/
example : ∃ R has h', CartEnds2c (cartMem2c (call2c (-1/2)) (ctr_pos2c _)) R realK has h' ∧
    (cartMem2c (call2c (-1/2)) (ctr_pos2c _)).elem h' 0 1 1 1 4 = .val (spNorm 1 * spNorm 3 *
      repulsion (interaction (-1/2)) (cfun (call2c (-1/2)).si 1 1) (cfun (call2c (-1/2)).sk 1 4)) := by
  obtain ⟨R, hR⟩ := exists_rys2
  obtain ⟨has, h', h1, h2⟩ := C46_two_centre_exact (R := R) (cartMem2c (call2c (-1/2)) (ctr_pos2c _)) (allKept2c _)
    (posExp2c _) (hR _) (lok2c _)
  exact ⟨R, has, h', h1, h2 1 1 1 4 (by show 1 < 2; omega) (by show 1 < 2; omega)
    (by show 1 < ncart 1; decide) (by show 4 < ncart 3; decide)⟩

/-- range separation for the same shells -/
example : ∃ R ra ha rb hb rc hc, CartEnds2c (cartMem2c (call2c (-(1/2))) (ctr_pos2c _)) R realK ra ha ∧
    CartEnds2c (cartMem2c (call2c 0) (ctr_pos2c _)) R realK rb hb ∧
    CartEnds2c (cartMem2c (call2c (1/2)) (ctr_pos2c _)) R realK rc hc := by
  obtain ⟨R, hR⟩ := exists_rys2
  obtain ⟨ra, ha, rb, hb, rc, hc, e1, e2, e3, _⟩ := C38_two_centre (R := R) (s := call2c 0) (w := 1/2)
    (by norm_num) (cartMem2c (call2c (-(1/2))) (ctr_pos2c _)) (cartMem2c (call2c 0) (ctr_pos2c _))
    (cartMem2c (call2c (1/2)) (ctr_pos2c _)) (allKept2c _) (posExp2c _) (hR _) (hR _) (hR _) (lok2c _)
  exact ⟨R, ra, ha, rb, hb, rc, hc, e1, e2, e3⟩

/-- the permutation theorem applies to it -/
example : ∃ R ra ha rb hb, CartEnds2c (cartMem2c (call2c (-1/2)) (ctr_pos2c _)) R realK ra ha ∧
    CartEnds2c (cartMem2c (swap2c (call2c (-1/2))) (ctr_pos2c (-1/2))) R realK rb hb := by
  obtain ⟨R, hR⟩ := exists_rys2
  obtain ⟨ra, ha, rb, hb, e1, e2, _⟩ := C29_two_centre_swap (R := R) (s := call2c (-1/2))
    (cartMem2c (call2c (-1/2)) (ctr_pos2c _)) (cartMem2c (swap2c (call2c (-1/2))) (ctr_pos2c (-1/2))) (posExp2c _) (hR _) (lok2c _)
  exact ⟨R, ra, ha, rb, hb, e1, e2⟩

/-- memory for a call with spherical output -/
noncomputable def sphMem2c (s : Call2c ℝ) (h : ∀ t, t < 4 → 0 < Call2c.nctrs s t) : SphMem2c eriInt s where
  fpd := 1
  buf := 0
  size := cacheSize2c2e eriInt s
  empty := ⟨4, 0⟩
  fl := ⟨1, 0⟩
  loc := ⟨2, 0⟩
  counts := ⟨3, 0⟩
  out := ⟨5, 7⟩
  dims := none
  nd := fun t => nsph (Call2c.ls s) t * Call2c.nctrs s t
  h := memR
  hs := ⟨Or.inl rfl, fun t _ => Nat.succ_pos _, fun t ht => h t ht, fun t a b => by
    obtain rfl | rfl : t = 2 ∨ t = 3 := by omega
    · exact ⟨rfl, rfl, rfl⟩
    · exact ⟨rfl, rfl, rfl⟩, fun t _ => le_refl _⟩
  M := ⟨by omega, fun k _ => by simp [memR], fun k _ => by simp [memR], by simp [memR], fun k _ => by simp [memR],
    fun k _ => by simp [memR], fun k _ => by simp [memR], by decide, by decide, by decide, by decide, by decide⟩
  hsize := le_refl _
  O := { h_dims := fun t _ => rfl
         h_dbuf := fun d hd => nomatch hd
         h_out := fun m _ => by simp [memR]
         h_obuf := by decide }
  hd2 := fun d hd => nomatch hd
  tab := ⟨9, 0⟩
  hT := tabR
  htb := by decide
  hto := by decide

example : ∃ R has h', SphEnds2c (sphMem2c (call2c (1/3)) (ctr_pos2c _)) R realK has h' ∧
    (sphMem2c (call2c (1/3)) (ctr_pos2c _)).elem h' 0 1 1 1 6 = .val (repulsion (interaction (1/3))
      (sgto (call2c (1/3)).si 1 1) (sgto (call2c (1/3)).sk 1 6)) := by
  obtain ⟨R, hR⟩ := exists_rys2
  obtain ⟨has, h', h1, h2⟩ := C46_two_centre_spherical (R := R) (sphMem2c (call2c (1/3)) (ctr_pos2c _)) (allKept2c _)
    (posExp2c _) (hR _) (lok2c _)
  exact ⟨R, has, h', h1, h2 1 1 1 6 (by show 1 < 2; omega) (by show 1 < 2; omega)
    (by show 1 < 1*2+1; omega) (by show 6 < 3*2+1; omega)⟩

/-- the loop theorem: its hypotheses hold for these shells -/
example : ∃ R : Rys2 ℝ, ∃ isI : Nat → Prop, ∀ h : Heap ℝ, CacheMem h 2 0 (cacheSize2c2e eriInt (call2c (-1))) isI →
    h.I ⟨4, 0⟩ = .val 1 → (∀ k, k < 3 → h.I ((⟨1, 0⟩ : Ptr) + k) ≠ .oob) → (∀ k, k < 12*136 → h.I ((⟨2, 0⟩ : Ptr) + k) ≠ .oob) →
    ∃ res h', run (loop2c2eRun eriInt (call2c (-1)) R realK 2 ⟨0, 0⟩ ⟨4, 0⟩ 0
        (2 * (((call2c (-1)).env eriInt).nf * 2 * 2 * 1)) ⟨1, 0⟩ ⟨2, 0⟩) h = some (res, h') := by
  obtain ⟨R, hR⟩ := exists_rys2
  exact ⟨R, C14_2c2e_loop (eri_eval2c (posExp2c _) (hR _)) (by omega) (le_refl 1) (ctr_pos2c _) (lok2c _)
    ⟨by decide, by decide, by decide⟩ (by decide) (by decide)⟩
end Eri2cDemo

end Verif.Props
