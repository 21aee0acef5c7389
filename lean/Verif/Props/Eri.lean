import Verif.Lemmas.DrvOut2
import Verif.Props.Nuc

/-!
C15 — the queried cache size suffices (four-centre two-electron integrals).
C29 — permutation symmetries of electron repulsion integrals.
C38 — short-range integrals are the difference of full and long-range integrals.
C44 — electron repulsion integrals are the integrals over the selected interaction.
-/
namespace Verif.Props
open Verif Verif.Model Verif.Prog Verif.Lemmas Verif.Spec MeasureTheory

section
variable {α : Type} [Field α] [LinearOrder α]

/-- Where and with what memory a four-centre integral is called: `d t` functions per contraction of shell `t`.  The cache has
at least the queried size. -/
structure Mem4 (X : Int2e α) (s : Call2 α) (d : Nat → Nat) where
  fpd : Nat
  buf : Nat
  size : Nat
  empty : Ptr
  fl : Ptr
  loc : Ptr
  counts : Ptr
  out : Ptr
  dims : Option Ptr
  nd : Nat → Nat
  h : Heap α
  hs : Sizes 4 d (Call2.nctrs s) nd
  M : CallMem2 h fpd buf size empty fl loc counts
  hsize : cacheSize2e X s ≤ size
  O : OutArg2 4 h nd (fun t => d t * Call2.nctrs s t) X.nComp out dims buf empty fl loc counts

/-- content of the output array: component `n`, function `i` of contraction `ic` of the first shell and so on -/
def Mem4.elem {X : Int2e α} {s : Call2 α} {d : Nat → Nat} (A : Mem4 X s d) (h' : Heap α)
    (n ic i jc j kc k lc l : Nat) : Cell α :=
  h'.D (A.out + outAt A.nd n (ic*d 0+i) (jc*d 1+j) (kc*d 2+k) (lc*d 3+l))

/-- memory of a call with Cartesian output -/
abbrev CartMem4 (X : Int2e α) (s : Call2 α) := Mem4 X s (ncar (Call2.ls s))

/-- memory of a call with spherical output; the transformation table is stored at `tab` -/
structure SphMem4 (X : Int2e α) (s : Call2 α) extends Mem4 X s (nsph (Call2.ls s)) where
  tab : Ptr
  hT : HoldsTab h tab
  htb : tab.buf ≠ buf
  hto : out.buf ≠ tab.buf

/-- the Cartesian call returns `has` and ends with memory `h'` -/
def CartEnds4 {X : Int2e α} {s : Call2 α} (A : CartMem4 X s) (R : Rys2 α) (K : Consts α) (L : MathLib α) (has : Bool)
    (h' : Heap α) : Prop :=
  run (drv2e X s R K L A.fpd (fun _ _ => pure) (ncar (Call2.ls s)) A.out A.dims A.buf 0 A.empty A.fl A.loc A.counts) A.h
    = some (has, h')

/-- the spherical call returns `has` and ends with memory `h'` -/
def SphEnds4 {X : Int2e α} {s : Call2 α} (B : SphMem4 X s) (R : Rys2 α) (K : Consts α) (L : MathLib α) (has : Bool)
    (h' : Heap α) : Prop :=
  run (drv2e X s R K L B.fpd (sphTrans2e B.tab B.fpd s.si.l s.sj.l s.sk.l s.sl.l) (nsph (Call2.ls s)) B.out B.dims B.buf 0
    B.empty B.fl B.loc B.counts) B.h = some (has, h')

variable {R : Rys2 α} {K : Consts α} {L : MathLib α} {X : Int2e α} {s : Call2 α}
  {keep : Nat → Nat → Nat → Nat → Bool} {w : Nat → Nat → Nat → Nat → Nat → α}

/-- **C15**, Cartesian output: with a cache of (at least) the queried size the call completes without undefined behaviour,
whatever the cache and the output array contain, for every four-centre integral whose integrand evaluates correctly. -/
theorem C15_cart (A : CartMem4 X s) (hK : EvalOK2 R K L X s keep w) (hnc : 1 ≤ X.nComp)
    (hl : ∀ t, t < 4 → Call2.ls s t ≤ 15) : ∃ has h', CartEnds4 A R K L has h' := by
  obtain ⟨has, h', hr, _⟩ := drv2e_cart A.M A.hsize A.hs A.O hK hnc hl
  exact ⟨has, h', hr⟩

/-- **C15**, spherical output. -/
theorem C15_sph (B : SphMem4 X s) (hK : EvalOK2 R K L X s keep w) (hnc : 1 ≤ X.nComp)
    (hl : ∀ t, t < 4 → Call2.ls s t ≤ 15) : ∃ has h', SphEnds4 B R K L has h' := by
  obtain ⟨has, h', hr, _⟩ := drv2e_sph B.M B.hsize B.hs B.O B.hT B.htb B.hto hK hnc hl
  exact ⟨has, h', hr⟩

/-- **C15**, inside the primitive loop.  The cache has the queried size.  There is a fixed division of its doubles into doubles
used as `double` and doubles used as `FINT`s (`fpd` each) such that the loop runs without leaving the cache and without using
any part of it both ways, whatever the shells and whatever the cache contains. -/
theorem C15_loop {fpd buf : Nat} {empty fl loc : Ptr} (hK : EvalOK2 R K L X s keep w) (hf : 0 < fpd) (hnc : 1 ≤ X.nComp)
    (hc : ∀ t, t < 4 → 1 ≤ Call2.nctrs s t) (hl : ∀ t, t < 4 → Call2.ls s t ≤ 15)
    (he : empty.buf ≠ buf ∧ empty.buf ≠ fl.buf ∧ empty.buf ≠ loc.buf) (hfl : fl.buf ≠ buf) (hloc : loc.buf ≠ buf) :
    ∃ isI : Nat → Prop, ∀ h : Heap α, CacheMem h fpd buf (cacheSize2e X s) isI → h.I empty = .val 1 →
      (∀ k, k < 5 → h.I (fl + k) ≠ .oob) → (∀ k, k < 12*136 → h.I (loc + k) ≠ .oob) →
      ∃ res h', run (loop2eRun X s R K L fpd ⟨buf, 0⟩ empty buf
        (fpd * ((s.env X).nf * s.si.nctr * s.sj.nctr * s.sk.nctr * s.sl.nctr * X.nComp)) fl loc) h = some (res, h') := by
  refine ⟨intSlots2 X s fpd ((s.env X).nf * s.si.nctr * s.sj.nctr * s.sk.nctr * s.sl.nctr * X.nComp),
    fun h hm h0 h1 h2 => ?_⟩
  obtain ⟨res, h', hr, _⟩ := run_of_wp (loop2eRun_wp (o0 := 0)
    ⟨hf, hm, used2_le_cacheSize X s hf (hc 1 (by omega)) (hc 2 (by omega)) (hc 3 (by omega)),
      le_of_eq (by unfold Call2.nctr; ring), h0, h1, h2, he.1, he.2.1, he.2.2, hfl, hloc⟩ hK (hc 0 (by omega)) (hc 1 (by omega)) (hc 2 (by omega)) (hc 3 (by omega)) hnc
      (hl 0 (by omega)) (hl 1 (by omega)) (hl 2 (by omega)) (hl 3 (by omega)))
  exact ⟨res, h', hr⟩

/-- **C18**, four-centre calls with Cartesian output: when 0 is returned the block is zero; in any case every element of the
block is overwritten, no double outside the block and the cache changes, and the new contents do not depend on the contents of
memory (`A` and `A'` differ in nothing but the memory). -/
theorem C18_four_centre_cart (A : CartMem4 X s) (hK : EvalOK2 R K L X s keep w) (hnc : 1 ≤ X.nComp)
    (hl : ∀ t, t < 4 → Call2.ls s t ≤ 15) :
    ∃ v : Nat → α, ∀ A' : CartMem4 X s, A'.nd = A.nd →
      ∃ has h', CartEnds4 A' R K L has h' ∧
        (∀ m, InBlock A.nd (fun t => ncar (Call2.ls s) t * Call2.nctrs s t) X.nComp m → h'.D (A'.out + m) = .val (v m)) ∧
        (has = false → ∀ m, InBlock A.nd (fun t => ncar (Call2.ls s) t * Call2.nctrs s t) X.nComp m → v m = 0) ∧
        (∀ q, q.buf ≠ A'.buf → (∀ m, InBlock A.nd (fun t => ncar (Call2.ls s) t * Call2.nctrs s t) X.nComp m →
          q ≠ A'.out + m) → h'.D q = A'.h.D q) := by
  obtain ⟨r0, h0, _, v0, _⟩ := drv2e_cart A.M A.hsize A.hs A.O hK hnc hl
  refine ⟨fun m => match h0.D (A.out + m) with | .val x => x | _ => 0, fun B hn => ?_⟩
  obtain ⟨r1, h1, e1, v1, z1, f1, _⟩ := drv2e_cart B.M B.hsize B.hs B.O hK hnc hl
  rw [hn] at v1 z1 f1
  have hv : ∀ m, InBlock A.nd (fun t => ncar (Call2.ls s) t * Call2.nctrs s t) X.nComp m →
      h1.D (B.out + m) = .val (match h0.D (A.out + m) with | .val x => x | _ => 0) := by
    intro m hm
    obtain ⟨n, ic, jc, kc, lc, i, j, k, x, a1, a2, a3, a4, a5, a6, a7, a8, a9, rfl⟩ := inBlock_digits A.hs.nf_pos hm
    have b0 := v0 n ic jc kc lc i j k x a1 a2 a3 a4 a5 a6 a7 a8 a9
    have b1 := v1 n ic jc kc lc i j k x a1 a2 a3 a4 a5 a6 a7 a8 a9
    refine b1.trans ?_
    have e : h0.D (A.out + outAt A.nd n (ic * ncar (Call2.ls s) 0 + i) (jc * ncar (Call2.ls s) 1 + j)
      (kc * ncar (Call2.ls s) 2 + k) (lc * ncar (Call2.ls s) 3 + x)) = _ := b0
    rw [e]
  refine ⟨r1, h1, e1, hv, fun hf m hm => ?_, f1.1⟩
  exact Cell.val.inj ((hv m hm).symm.trans (z1 hf m hm))

/-- **C18**, four-centre calls with spherical output. -/
theorem C18_four_centre_sph (A : SphMem4 X s) (hK : EvalOK2 R K L X s keep w) (hnc : 1 ≤ X.nComp)
    (hl : ∀ t, t < 4 → Call2.ls s t ≤ 15) :
    ∃ v : Nat → α, ∀ A' : SphMem4 X s, A'.nd = A.nd →
      ∃ has h', SphEnds4 A' R K L has h' ∧
        (∀ m, InBlock A.nd (fun t => nsph (Call2.ls s) t * Call2.nctrs s t) X.nComp m → h'.D (A'.out + m) = .val (v m)) ∧
        (has = false → ∀ m, InBlock A.nd (fun t => nsph (Call2.ls s) t * Call2.nctrs s t) X.nComp m → v m = 0) ∧
        (∀ q, q.buf ≠ A'.buf → (∀ m, InBlock A.nd (fun t => nsph (Call2.ls s) t * Call2.nctrs s t) X.nComp m →
          q ≠ A'.out + m) → h'.D q = A'.h.D q) := by
  obtain ⟨r0, h0, _, v0, _⟩ := drv2e_sph A.M A.hsize A.hs A.O A.hT A.htb A.hto hK hnc hl
  refine ⟨fun m => match h0.D (A.out + m) with | .val x => x | _ => 0, fun B hn => ?_⟩
  obtain ⟨r1, h1, e1, v1, z1, f1, _⟩ := drv2e_sph B.M B.hsize B.hs B.O B.hT B.htb B.hto hK hnc hl
  rw [hn] at v1 z1 f1
  have hv : ∀ m, InBlock A.nd (fun t => nsph (Call2.ls s) t * Call2.nctrs s t) X.nComp m →
      h1.D (B.out + m) = .val (match h0.D (A.out + m) with | .val x => x | _ => 0) := by
    intro m hm
    obtain ⟨n, ic, jc, kc, lc, i, j, k, x, a1, a2, a3, a4, a5, a6, a7, a8, a9, rfl⟩ := inBlock_digits A.hs.nf_pos hm
    have b0 := v0 n ic jc kc lc i j k x a1 a2 a3 a4 a5 a6 a7 a8 a9
    have b1 := v1 n ic jc kc lc i j k x a1 a2 a3 a4 a5 a6 a7 a8 a9
    refine b1.trans ?_
    have e : h0.D (A.out + outAt A.nd n (ic * nsph (Call2.ls s) 0 + i) (jc * nsph (Call2.ls s) 1 + j)
      (kc * nsph (Call2.ls s) 2 + k) (lc * nsph (Call2.ls s) 3 + x)) = _ := b0
    rw [e]
  refine ⟨r1, h1, e1, hv, fun hf m hm => ?_, f1.1⟩
  exact Cell.val.inj ((hv m hm).symm.trans (z1 hf m hm))

/-- **C19**, four-centre calls: the spherical integrals are the Cartesian ones transformed by the table on all four indices.
The memory of the two calls need not have anything in common. -/
theorem C19_four_centre (A : CartMem4 X s) (B : SphMem4 X s) (hK : EvalOK2 R K L X s keep w) (hnc : 1 ≤ X.nComp)
    (hl : ∀ t, t < 4 → Call2.ls s t ≤ 15) :
    ∃ ra ha rb hb, CartEnds4 A R K L ra ha ∧ SphEnds4 B R K L rb hb ∧
      ∃ x : Nat → Nat → Nat → Nat → Nat → Nat → Nat → Nat → Nat → α,
        (∀ n ic jc kc lc a b c d, n < X.nComp → ic < s.si.nctr → jc < s.sj.nctr → kc < s.sk.nctr → lc < s.sl.nctr →
          a < ncart s.si.l → b < ncart s.sj.l → c < ncart s.sk.l → d < ncart s.sl.l →
          A.elem ha n ic a jc b kc c lc d = .val (x n ic a jc b kc c lc d)) ∧
        (∀ n ic jc kc lc i j k l, n < X.nComp → ic < s.si.nctr → jc < s.sj.nctr → kc < s.sk.nctr → lc < s.sl.nctr →
          i < s.si.l*2+1 → j < s.sj.l*2+1 → k < s.sk.l*2+1 → l < s.sl.l*2+1 →
          B.elem hb n ic i jc j kc k lc l = .val (∑ a ∈ Finset.range (ncart s.si.l), ∑ b ∈ Finset.range (ncart s.sj.l),
            ∑ c ∈ Finset.range (ncart s.sk.l), ∑ d ∈ Finset.range (ncart s.sl.l),
            c2sCoef s.si.l i a * c2sCoef s.sj.l j b * c2sCoef s.sk.l k c * c2sCoef s.sl.l l d *
              x n ic a jc b kc c lc d)) := by
  obtain ⟨ra, ha, r1, v1, _⟩ := drv2e_cart A.M A.hsize A.hs A.O hK hnc hl
  obtain ⟨rb, hb, r2, v2, _⟩ := drv2e_sph B.M B.hsize B.hs B.O B.hT B.htb B.hto hK hnc hl
  refine ⟨ra, ha, rb, hb, r1, r2, fun n ic a jc b kc c lc d =>
    loopVal2 R K L X s keep w n ic jc kc lc (pos4c (ncar (Call2.ls s)) a b c d), ?_, ?_⟩
  · intro n ic jc kc lc a b c d a1 a2 a3 a4 a5 a6 a7 a8 a9
    exact v1 n ic jc kc lc a b c d a1 a2 a3 a4 a5 a6 a7 a8 a9
  · intro n ic jc kc lc a b c d a1 a2 a3 a4 a5 a6 a7 a8 a9
    exact v2 n ic jc kc lc a b c d a1 a2 a3 a4 a5 a6 a7 a8 a9
end

/-! ### Values -/

/-- all exponents are positive in pairs -/
structure PosExp (s : Call2 ℝ) : Prop where
  ij : ∀ ip jp, ip < s.si.nprim → jp < s.sj.nprim → 0 < s.si.a ip + s.sj.a jp
  kl : ∀ kp lp, kp < s.sk.nprim → lp < s.sl.nprim → 0 < s.sk.a kp + s.sl.a lp

/-- the root finder returns the roots and weights of Rys quadrature for the numbers of roots this call needs -/
def RootsOK (R : Rys2 ℝ) (s : Call2 ℝ) : Prop := Rys2OK R (s.env eriInt).nrys_roots

theorem pw_sum {l i : Nat} (hi : i < ncart l) : ∑ c : Fin 3, pw l c i = l := by
  rw [Fin.sum_univ_three]
  exact psum hi

open Classical in
/-- the evaluator, for any data of a primitive quartet -/
theorem eri_kernel2 {s : Call2 ℝ} {R : Rys2 ℝ} (hR : RootsOK R s) {d : G2 ℝ} {cutoff : ℝ} (ha : 0 < d.ai+d.aj)
    (hb : 0 < d.ak+d.al) {g idx : Ptr} {T : Ptr → Option Int}
    (hT : IdxT T idx (s.env (eriInt : Int2e ℝ)).nf (adr4 (s.env (eriInt : Int2e ℝ)) (i4 (s.env (eriInt : Int2e ℝ)))
      (j4 (s.env (eriInt : Int2e ℝ))) (k4 (s.env (eriInt : Int2e ℝ))) (l4 (s.env (eriInt : Int2e ℝ))))) :
    KernelSpec T (g0_2e R realK (s.env eriInt) d cutoff g)
      (fun _ gout em => (eriInt : Int2e ℝ).gout (s.env eriInt) d idx g gout em) (Blk g (s.leng eriInt))
      ((s.env eriInt).nf * (eriInt : Int2e ℝ).nComp) (decide (G2.kept d cutoff))
      (fun n => eriW d (fun c => i4 (s.env eriInt) c n) (fun c => j4 (s.env eriInt) c n)
        (fun c => k4 (s.env eriInt) c n) (fun c => l4 (s.env eriInt) c n)) := by
  have hnf : (s.env (eriInt : Int2e ℝ)).nf = ncart s.sj.l * ncart s.sl.l * ncart s.sk.l * ncart s.si.l := by
    show lenCart s.si.l * lenCart s.sk.l * lenCart s.sl.l * lenCart s.sj.l = _
    simp only [lenCart_eq]; ring
  have dig : ∀ n, n < (s.env (eriInt : Int2e ℝ)).nf → n % ncart s.si.l < ncart s.si.l ∧ n / ncart s.si.l % ncart s.sk.l < ncart s.sk.l ∧
      n / ncart s.si.l / ncart s.sk.l % ncart s.sl.l < ncart s.sl.l ∧
      n / ncart s.si.l / ncart s.sk.l / ncart s.sl.l < ncart s.sj.l := by
    intro n hn
    rw [hnf] at hn
    refine ⟨Nat.mod_lt _ (ncart_pos _), Nat.mod_lt _ (ncart_pos _), Nat.mod_lt _ (ncart_pos _), ?_⟩
    rw [Nat.div_lt_iff_lt_mul (ncart_pos _), Nat.div_lt_iff_lt_mul (ncart_pos _), Nat.div_lt_iff_lt_mul (ncart_pos _)]
    exact hn
  have key := eri_kernel (R := R) (e := s.env eriInt) (d := d)
    (cutoff := cutoff)
    (g := g) (idx := idx) (leng := s.leng eriInt) (nf := (s.env eriInt).nf) (T := T)
    (I := i4 (s.env eriInt)) (J := j4 (s.env eriInt)) (K := k4 (s.env eriInt)) (L := l4 (s.env eriInt))
    (shape4_int2e _ _ _ _ _ _) (by
      show 3 * (s.env eriInt).g_size ≤ (s.env eriInt).g_size * 3 * (2^0+1)
      omega) rfl (by
      show srRoots _ _ = _ ∨ srRoots _ _ = 2 * _
      unfold srRoots
      split
      · right
        exact Nat.mul_comm _ 2
      · left; rfl) hR ha hb (by
      intro n c hn hc
      obtain ⟨d1, d2, d3, d4⟩ := dig n hn
      exact ⟨pw_le d1, pw_le d4, pw_le d2, pw_le d3⟩) (by
      intro n hn
      obtain ⟨d1, d2, d3, d4⟩ := dig n hn
      simp only [Finset.sum_add_distrib]
      have e1 : ∑ c : Fin 3, i4 (s.env eriInt) c n = s.si.l := pw_sum d1
      have e2 : ∑ c : Fin 3, j4 (s.env eriInt) c n = s.sj.l := pw_sum d4
      have e3 : ∑ c : Fin 3, k4 (s.env eriInt) c n = s.sk.l := pw_sum d2
      have e4 : ∑ c : Fin 3, l4 (s.env eriInt) c n = s.sl.l := pw_sum d3
      rw [e1, e2, e3, e4]
      show _ < 2 * ((s.si.l + 0 + (s.sj.l + 0) + (s.sk.l + 0) + (s.sl.l + 0))/2 + 1)
      omega) hT
  show KernelSpec T _ (fun _ gout em => gout2e (s.env eriInt).nf _ idx g gout em) _ ((s.env eriInt).nf * 1) _ _
  rw [Nat.mul_one]
  exact key

open Classical in
theorem eri_eval {L : MathLib ℝ} {s : Call2 ℝ} {R : Rys2 ℝ} (hp : PosExp s) (hR : RootsOK R s) :
    EvalOK2 R realK L eriInt s
      (fun ip jp kp lp => decide (G2.kept (s.g2 eriInt L ip jp kp lp)
        (s.eijcutoff eriInt L kp lp - pairVal L (s.pairArgs eriInt) ip jp 4)))
      (fun ip jp kp lp n => eriW (s.g2 eriInt L ip jp kp lp) (fun c => i4 (s.env eriInt) c n) (fun c => j4 (s.env eriInt) c n)
        (fun c => k4 (s.env eriInt) c n) (fun c => l4 (s.env eriInt) c n)) := by
  intro ip jp kp lp g idx T hip hjp hkp hlp hT
  exact eri_kernel2 hR (hp.ij ip jp hip hjp) (hp.kl kp lp hkp hlp) hT

/-- estimate for the primitive pair of the first electron -/
noncomputable def estIJ (L : MathLib ℝ) (s : Call2 ℝ) (mi mj : Nat → ℝ) (ip jp : Nat) : ℝ :=
  est L s.si s.sj mi mj (rr2 s.si.r s.sj.r) s.omega (s.si.l + s.sj.l) ip jp

/-- estimate for the primitive pair of the second electron; `mk`, `ml` are the largest absolute values of the contraction
coefficients -/
noncomputable def estKL (L : MathLib ℝ) (s : Call2 ℝ) (mk ml : Nat → ℝ) (kp lp : Nat) : ℝ :=
  prodExponent (s.sk.a kp) (s.sl.a lp) (rr2 s.sk.r s.sl.r) - s.logRRkl eriInt L - L.log (mk kp) - L.log (ml lp)

/-- `θ ρ |P-Q|²` with `ρ = pq/(p+q)`, `θ = ω²/(ω²+ρ)`: the exponent of the short-range integral -/
noncomputable def srExp (s : Call2 ℝ) (ip jp kp lp : Nat) : ℝ :=
  let p := s.si.a ip + s.sj.a jp
  let q := s.sk.a kp + s.sl.a lp
  let P := fun c : Fin 3 => (s.si.a ip * s.si.r c + s.sj.a jp * s.sj.r c)/p
  let Q := fun c : Fin 3 => (s.sk.a kp * s.sk.r c + s.sl.a lp * s.sl.r c)/q
  s.omega^2/(s.omega^2 + p*q/(p+q)) * (p*q/(p+q) * ∑ c, (P c - Q c)^2)

/-- The primitive quartet survives the screening: the estimates for the two pairs and, for the short-range interaction,
the exponent of the integral stay below the cutoffs in force. -/
structure Kept4 (L : MathLib ℝ) (s : Call2 ℝ) (mi mj mk ml : Nat → ℝ) (ip jp kp lp : Nat) : Prop where
  pair : estIJ L s mi mj ip jp < cutoff2e s.envCut
  kl : estKL L s mk ml kp lp ≤ s.cutoff eriInt L
  ij : estIJ L s mi mj ip jp ≤ s.cutoff eriInt L - estKL L s mk ml kp lp
  sr : s.omega < 0 → srExp s ip jp kp lp ≤ 40 ∧
    srExp s ip jp kp lp ≤ s.cutoff eriInt L - estKL L s mk ml kp lp - estIJ L s mi mj ip jp

section
variable {L : MathLib ℝ} {s : Call2 ℝ} {mi mj mk ml : Nat → ℝ} {ip jp kp lp : Nat}

theorem ccekl_eq (hk : MaxCoeff s.sk mk) (hl : MaxCoeff s.sl ml) (hkp : kp < s.sk.nprim) (hlp : lp < s.sl.nprim) :
    s.ccekl eriInt L kp lp = estKL L s mk ml kp lp := by
  unfold Call2.ccekl estKL logMaxC Call2.expKL prodExponent
  rw [isMaxAbs_unique (maxAbsC_spec s.sk kp) (hk kp hkp), isMaxAbs_unique (maxAbsC_spec s.sl lp) (hl lp hlp)]
  ring

theorem pair2 (hL : L.exp = Real.exp) (hi : MaxCoeff s.si mi) (hj : MaxCoeff s.sj mj)
    (hip : ip < s.si.nprim) (hjp : jp < s.sj.nprim) (h0 : 0 < s.si.a ip + s.sj.a jp) :
    pairVal L (s.pairArgs eriInt) ip jp 4 = estIJ L s mi mj ip jp ∧
    (estIJ L s mi mj ip jp < cutoff2e s.envCut →
      pairVal L (s.pairArgs eriInt) ip jp 3 = Real.exp (-(s.si.a ip * s.sj.a jp/(s.si.a ip + s.sj.a jp)) *
        ∑ k, (centre s.si k - centre s.sj k)^2) ∧
      ∀ c, c < 3 → pairVal L (s.pairArgs eriInt) ip jp c =
        (s.si.a ip * s.si.r c + s.sj.a jp * s.sj.r c)/(s.si.a ip + s.sj.a jp)) ∧
    (¬ estIJ L s mi mj ip jp < cutoff2e s.envCut → pairVal L (s.pairArgs eriInt) ip jp 3 = 0) := by
  have hE : pairCC L (s.pairArgs eriInt) ip jp = estIJ L s mi mj ip jp := pairCC_eq (p := s.pairArgs eriInt) hi hj hip hjp
  have hcut : (s.pairArgs eriInt).cutoff = cutoff2e s.envCut := rfl
  obtain ⟨h1, h2, _⟩ := pairVal_entry (L := L) (p := s.pairArgs eriInt) hi hj hip hjp h0.ne'
  refine ⟨h1, fun hk => ?_, fun hk => ?_⟩
  · obtain ⟨h3, h4⟩ := h2 hk
    refine ⟨?_, fun c hc => h3 c hc⟩
    dsimp only at h4
    rw [h4, hL]
    congr 1
    unfold prodExponent centre
    show -(s.si.a ip * s.sj.a jp / (s.si.a ip + s.sj.a jp) * rr2 s.si.r s.sj.r) = _
    rw [Fin.sum_univ_three]
    unfold rr2
    simp only [Fin.val_zero, Fin.val_one, Fin.val_two]
    ring
  · have hk' : ¬ pairCC L (s.pairArgs eriInt) ip jp < (s.pairArgs eriInt).cutoff := by rw [hE, hcut]; exact hk
    unfold pairVal; simp [hk']

theorem kept_g2 (hL : L.exp = Real.exp) (hi : MaxCoeff s.si mi) (hj : MaxCoeff s.sj mj)
    (hip : ip < s.si.nprim) (hjp : jp < s.sj.nprim) (h0 : 0 < s.si.a ip + s.sj.a jp)
    (hv : estIJ L s mi mj ip jp < cutoff2e s.envCut) (c : ℝ) :
    G2.kept (s.g2 eriInt L ip jp kp lp) c ↔ (s.omega < 0 → srExp s ip jp kp lp ≤ 40 ∧ srExp s ip jp kp lp ≤ c) := by
  have hc := ((pair2 hL hi hj hip hjp h0).2.1 hv).2
  have hx : G2.theta (s.g2 eriInt L ip jp kp lp) * G2.x (s.g2 eriInt L ip jp kp lp) = srExp s ip jp kp lp := by
    unfold G2.theta G2.x G2.a0 Call2.g2 srExp
    dsimp only
    rw [hc 0 (by omega), hc 1 (by omega), hc 2 (by omega), Fin.sum_univ_three]
    simp only [Fin.val_zero, Fin.val_one, Fin.val_two]
    ring
  unfold G2.kept
  rw [hx]
  show ¬ (s.omega < 0 ∧ _) ↔ _
  rw [not_and]
  refine imp_congr_right fun _ => ?_
  rw [not_or, not_lt, not_lt, and_comm]
end

theorem repulsion_smul (V : (Fin 3 → ℝ) → (Fin 3 → ℝ) → ℝ) (x y : ℝ) (f g : (Fin 3 → ℝ) → ℝ) :
    repulsion V (fun r => x * f r) (fun r => y * g r) = x * y * repulsion V f g := by
  unfold repulsion
  rw [← integral_const_mul]
  congr 1
  funext z
  ring

/-- product of two primitives -/
noncomputable def gg (a : ℝ) (A : Fin 3 → ℝ) (n : Fin 3 → ℕ) (b : ℝ) (B : Fin 3 → ℝ) (m : Fin 3 → ℕ) (r : Fin 3 → ℝ) : ℝ :=
  gto a A n r * gto b B m r

/-- the repulsion integral of four primitives -/
noncomputable def primERI (s : Call2 ℝ) (ip jp kp lp : Nat) (n m p q : Fin 3 → ℕ) : ℝ :=
  repulsion (interaction s.omega) (fun r => gto (s.si.a ip) (centre s.si) n r * gto (s.sj.a jp) (centre s.sj) m r)
    (fun r => gto (s.sk.a kp) (centre s.sk) p r * gto (s.sl.a lp) (centre s.sl) q r)

theorem eri_loopVal {L : MathLib ℝ} {s : Call2 ℝ} {R : Rys2 ℝ} {mi mj mk ml : Nat → ℝ} (hL : L.exp = Real.exp)
    (hi : MaxCoeff s.si mi) (hj : MaxCoeff s.sj mj) (hk : MaxCoeff s.sk mk) (hl : MaxCoeff s.sl ml) (hp : PosExp s)
    {ic jc kc lc i j k l : Nat} (h1 : i < ncart s.si.l) (h2 : j < ncart s.sj.l) (h3 : k < ncart s.sk.l) (h4 : l < ncart s.sl.l) :
    loopVal2 R realK L eriInt s
      (fun ip jp kp lp => open Classical in decide (G2.kept (s.g2 eriInt L ip jp kp lp)
        (s.eijcutoff eriInt L kp lp - pairVal L (s.pairArgs eriInt) ip jp 4)))
      (fun ip jp kp lp n => eriW (s.g2 eriInt L ip jp kp lp) (fun c => i4 (s.env eriInt) c n) (fun c => j4 (s.env eriInt) c n)
        (fun c => k4 (s.env eriInt) c n) (fun c => l4 (s.env eriInt) c n)) 0 ic jc kc lc (pos4c (ncar (Call2.ls s)) i j k l) =
    spNorm s.si.l * spNorm s.sj.l * spNorm s.sk.l * spNorm s.sl.l *
      contract4 s.si.nprim s.sj.nprim s.sk.nprim s.sl.nprim s.si.c s.sj.c s.sk.c s.sl.c (fun ip jp kp lp =>
        open Classical in if Kept4 L s mi mj mk ml ip jp kp lp then
          primERI s ip jp kp lp (powers s.si.l i) (powers s.sj.l j) (powers s.sk.l k) (powers s.sl.l l) else 0) ic jc kc lc := by
  classical
  have hpi : (2 / Real.sqrt Real.pi * Real.pi^3) ≠ 0 := by positivity
  unfold loopVal2 expected
  have hcom : (s.quartet eriInt R realK L ⟨⟨0,0⟩,⟨0,0⟩,⟨0,0⟩,⟨0,0⟩,⟨0,0⟩⟩).common =
      (2 / Real.sqrt Real.pi * Real.pi^3) * (spNorm s.si.l * spNorm s.sj.l * spNorm s.sk.l * spNorm s.sl.l) := by
    show 1 * (Real.pi * Real.pi * Real.pi * 2 / Real.sqrt Real.pi * commonFacSp s.si.l * commonFacSp s.sj.l *
      commonFacSp s.sk.l * commonFacSp s.sl.l) = _
    rw [spNorm_eq, spNorm_eq, spNorm_eq, spNorm_eq]
    ring
  rw [hcom, mul_comm (2 / Real.sqrt Real.pi * Real.pi^3), mul_assoc]
  congr 1
  unfold contract4
  rw [Finset.mul_sum]
  refine Finset.sum_congr rfl (fun lp hlp => ?_)
  rw [Finset.mul_sum]
  refine Finset.sum_congr rfl (fun kp hkp => ?_)
  rw [Finset.mul_sum]
  refine Finset.sum_congr rfl (fun jp hjp => ?_)
  rw [Finset.mul_sum]
  refine Finset.sum_congr rfl (fun ip hip => ?_)
  have hip : ip < s.si.nprim := Finset.mem_range.1 hip
  have hjp : jp < s.sj.nprim := Finset.mem_range.1 hjp
  have hkp : kp < s.sk.nprim := Finset.mem_range.1 hkp
  have hlp : lp < s.sl.nprim := Finset.mem_range.1 hlp
  rw [mul_comm (2 / Real.sqrt Real.pi * Real.pi^3), mul_assoc]
  show s.sl.c (s.sl.nprim*lc+lp) * s.sk.c (s.sk.nprim*kc+kp) * s.sj.c (s.sj.nprim*jc+jp) * s.si.c (s.si.nprim*ic+ip) * _ = _
  congr 1
  obtain ⟨p4, pv, pd⟩ := pair2 hL hi hj hip hjp (hp.ij ip jp hip hjp)
  have ckl := ccekl_eq (L := L) hk hl hkp hlp
  -- digits of the position
  have hx : pos4c (ncar (Call2.ls s)) i j k l = ((j*ncart s.sl.l + l)*ncart s.sk.l + k)*ncart s.si.l + i := by
    unfold pos4c ncar
    show i + ncart s.si.l * (k + ncart s.sk.l * (l + ncart s.sl.l * j)) = _
    ring
  have qi : ∀ c, i4 (s.env (eriInt : Int2e ℝ)) c (pos4c (ncar (Call2.ls s)) i j k l * 1 + 0) = pw s.si.l c i := by
    intro c
    rw [Nat.mul_one, Nat.add_zero, hx]
    show pw s.si.l c (_ % ncart s.si.l) = _
    rw [(digit h1).2]
  have qk : ∀ c, k4 (s.env (eriInt : Int2e ℝ)) c (pos4c (ncar (Call2.ls s)) i j k l * 1 + 0) = pw s.sk.l c k := by
    intro c
    rw [Nat.mul_one, Nat.add_zero, hx]
    show pw s.sk.l c (_ / ncart s.si.l % ncart s.sk.l) = _
    rw [(digit h1).1, (digit h3).2]
  have ql : ∀ c, l4 (s.env (eriInt : Int2e ℝ)) c (pos4c (ncar (Call2.ls s)) i j k l * 1 + 0) = pw s.sl.l c l := by
    intro c
    rw [Nat.mul_one, Nat.add_zero, hx]
    show pw s.sl.l c (_ / ncart s.si.l / ncart s.sk.l % ncart s.sl.l) = _
    rw [(digit h1).1, (digit h3).1, (digit h4).2]
  have qj : ∀ c, j4 (s.env (eriInt : Int2e ℝ)) c (pos4c (ncar (Call2.ls s)) i j k l * 1 + 0) = pw s.sj.l c j := by
    intro c
    rw [Nat.mul_one, Nat.add_zero, hx]
    show pw s.sj.l c (_ / ncart s.si.l / ncart s.sk.l / ncart s.sl.l) = _
    rw [(digit h1).1, (digit h3).1, (digit h4).1]
  show (if survives (s.quartet eriInt R realK L _) _ ip jp kp lp then pairVal L (s.pairArgs eriInt) ip jp 3 *
    L.exp (-s.expKL kp lp) * eriW (s.g2 eriInt L ip jp kp lp)
      (fun c => i4 (s.env eriInt) c (pos4c (ncar (Call2.ls s)) i j k l * 1 + 0))
      (fun c => j4 (s.env eriInt) c (pos4c (ncar (Call2.ls s)) i j k l * 1 + 0))
      (fun c => k4 (s.env eriInt) c (pos4c (ncar (Call2.ls s)) i j k l * 1 + 0))
      (fun c => l4 (s.env eriInt) c (pos4c (ncar (Call2.ls s)) i j k l * 1 + 0)) else 0) * (2 / Real.sqrt Real.pi * Real.pi^3) = _
  simp only [qi, qj, qk, ql]
  have hsur : ∀ A, survives (s.quartet eriInt R realK L A) (fun ip jp kp lp => decide (G2.kept (s.g2 eriInt L ip jp kp lp)
        (s.eijcutoff eriInt L kp lp - pairVal L (s.pairArgs eriInt) ip jp 4))) ip jp kp lp = true ↔
      (estKL L s mk ml kp lp ≤ s.cutoff eriInt L ∧ estIJ L s mi mj ip jp ≤ s.cutoff eriInt L - estKL L s mk ml kp lp ∧
        G2.kept (s.g2 eriInt L ip jp kp lp) (s.cutoff eriInt L - estKL L s mk ml kp lp - estIJ L s mi mj ip jp)) := by
    intro A
    unfold survives
    show (!decide (s.ccekl eriInt L kp lp > s.cutoff eriInt L) &&
      (!decide (pairVal L (s.pairArgs eriInt) ip jp 4 > s.eijcutoff eriInt L kp lp) &&
        decide (G2.kept _ (s.eijcutoff eriInt L kp lp - pairVal L (s.pairArgs eriInt) ip jp 4)))) = true ↔ _
    unfold Call2.eijcutoff
    rw [p4, ckl]
    simp only [Bool.and_eq_true, Bool.not_eq_true', decide_eq_false_iff_not, decide_eq_true_eq, not_lt, gt_iff_lt]
  by_cases hv : estIJ L s mi mj ip jp < cutoff2e s.envCut
  · obtain ⟨pe, pc⟩ := pv hv
    have hiff : survives (s.quartet eriInt R realK L ⟨⟨0,0⟩,⟨0,0⟩,⟨0,0⟩,⟨0,0⟩,⟨0,0⟩⟩)
        (fun ip jp kp lp => decide (G2.kept (s.g2 eriInt L ip jp kp lp)
        (s.eijcutoff eriInt L kp lp - pairVal L (s.pairArgs eriInt) ip jp 4))) ip jp kp lp = true ↔ Kept4 L s mi mj mk ml ip jp kp lp := by
      rw [hsur, kept_g2 hL hi hj hip hjp (hp.ij ip jp hip hjp) hv]
      exact ⟨fun ⟨a, b, c⟩ => ⟨hv, a, b, c⟩, fun ⟨_, a, b, c⟩ => ⟨a, b, c⟩⟩
    by_cases hkp' : Kept4 L s mi mj mk ml ip jp kp lp
    · rw [if_pos (hiff.2 hkp'), if_pos hkp']
      have ekl : L.exp (-s.expKL kp lp) = Real.exp (-(s.sk.a kp * s.sl.a lp/(s.sk.a kp + s.sl.a lp)) *
          ∑ k, (centre s.sk k - centre s.sl k)^2) := by
        rw [hL]
        congr 1
        unfold Call2.expKL centre rr2
        rw [Fin.sum_univ_three]
        simp only [Fin.val_zero, Fin.val_one, Fin.val_two]
        ring
      have g1 := fun r => gto_mul_eq (hp.ij ip jp hip hjp).ne' (centre s.si) (centre s.sj) (powers s.si.l i) (powers s.sj.l j) r
      have g2 := fun r => gto_mul_eq (hp.kl kp lp hkp hlp).ne' (centre s.sk) (centre s.sl) (powers s.sk.l k) (powers s.sl.l l) r
      unfold primERI
      simp only [g1, g2]
      rw [repulsion_smul, pe, ekl, mul_assoc]
      congr 1
      unfold eriW
      rw [div_mul_cancel₀ _ hpi]
      have hP : (fun k : Fin 3 => (s.g2 eriInt L ip jp kp lp).rij k) = fun k =>
          (s.si.a ip * centre s.si k + s.sj.a jp * centre s.sj k)/(s.si.a ip + s.sj.a jp) := by
        funext k
        exact pc k k.isLt
      rw [hP]
      rfl
    · rw [if_neg (fun x => hkp' (hiff.1 x)), if_neg hkp', zero_mul]
  · rw [if_neg (fun x : Kept4 L s mi mj mk ml ip jp kp lp => hv x.pair), pd hv]
    simp

end Verif.Props
