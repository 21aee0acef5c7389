import Verif.Lemmas.Drv3c
import Verif.Props.EriExact

/-!
C16 — the queried cache size suffices (three-centre two-electron integrals).
C45 — three-centre electron repulsion integrals are the integrals over the selected interaction.
-/
namespace Verif.Props
open Verif Verif.Model Verif.Prog Verif.Lemmas Verif.Spec MeasureTheory

section
variable {α : Type} [Field α] [LinearOrder α]

/-- Where and with what memory a three-centre integral is called: `d t` functions per contraction of shell `t` (1 for the
absent fourth).  The cache has at least the queried size. -/
structure Mem3 (X : Int2e α) (s : Call3 α) (d : Nat → Nat) where
  fpd : Nat
  buf : Nat
  size : Nat
  empty : Ptr
  fl : Ptr
  loc : Ptr
  counts : Ptr
  out : Ptr
  dims : Option Ptr
  nd : Nat → Nat
  h : Heap α
  hs : Sizes 3 d (Call3.nctrs s) nd
  M : CallMem3 h fpd buf size empty fl loc counts
  hsize : cacheSize3c2e X s ≤ size
  O : OutArg2 3 h nd (fun t => d t * Call3.nctrs s t) X.nComp out dims buf empty fl loc counts

/-- content of the output array: component `n`, function `i` of contraction `ic` of the first shell and so on -/
def Mem3.elem {X : Int2e α} {s : Call3 α} {d : Nat → Nat} (A : Mem3 X s d) (h' : Heap α)
    (n ic i jc j kc k : Nat) : Cell α :=
  h'.D (A.out + outAt A.nd n (ic*d 0+i) (jc*d 1+j) (kc*d 2+k) 0)

/-- memory of a call with Cartesian output -/
abbrev CartMem3 (X : Int2e α) (s : Call3 α) := Mem3 X s (ncar (Call3.ls s))

/-- memory of a call with spherical output; the transformation table is stored at `tab` -/
structure SphMem3 (X : Int2e α) (s : Call3 α) extends Mem3 X s (nsph (Call3.ls s)) where
  tab : Ptr
  hT : HoldsTab h tab
  htb : tab.buf ≠ buf
  hto : out.buf ≠ tab.buf

/-- the Cartesian call returns `has` and ends with memory `h'` -/
def CartEnds3 {X : Int2e α} {s : Call3 α} (A : CartMem3 X s) (R : Rys2 α) (K : Consts α) (L : MathLib α) (has : Bool)
    (h' : Heap α) : Prop :=
  run (drv3c2e X s R K L A.fpd (fun _ _ => pure) (ncar (Call3.ls s)) A.out A.dims A.buf 0 A.empty A.fl A.loc A.counts) A.h
    = some (has, h')

/-- the spherical call returns `has` and ends with memory `h'` -/
def SphEnds3 {X : Int2e α} {s : Call3 α} (B : SphMem3 X s) (R : Rys2 α) (K : Consts α) (L : MathLib α) (has : Bool)
    (h' : Heap α) : Prop :=
  run (drv3c2e X s R K L B.fpd (sphTrans3c B.tab B.fpd s.si.l s.sj.l s.sk.l) (nsph (Call3.ls s)) B.out B.dims B.buf 0
    B.empty B.fl B.loc B.counts) B.h = some (has, h')

variable {R : Rys2 α} {K : Consts α} {L : MathLib α} {X : Int2e α} {s : Call3 α}
  {keep : Nat → Nat → Nat → Bool} {w : Nat → Nat → Nat → Nat → α}

/-- **C16**, three-centre two-electron integrals with Cartesian output: with a cache of (at least) the queried size the call
completes without undefined behaviour, whatever the cache and the output array contain, for every integral whose integrand
evaluates correctly. -/
theorem C16_3c2e_cart (A : CartMem3 X s) (hK : EvalOK3 R K L X s keep w) (hnc : 1 ≤ X.nComp)
    (hl : ∀ t, t < 4 → Call3.ls s t ≤ 15) : ∃ has h', CartEnds3 A R K L has h' := by
  obtain ⟨has, h', hr, _⟩ := drv3c2e_cart A.M A.hsize A.hs A.O hK hnc hl
  exact ⟨has, h', hr⟩

/-- **C16**, three-centre two-electron integrals with spherical output. -/
theorem C16_3c2e_sph (B : SphMem3 X s) (hK : EvalOK3 R K L X s keep w) (hnc : 1 ≤ X.nComp)
    (hl : ∀ t, t < 4 → Call3.ls s t ≤ 15) : ∃ has h', SphEnds3 B R K L has h' := by
  obtain ⟨has, h', hr, _⟩ := drv3c2e_sph B.M B.hsize B.hs B.O B.hT B.htb B.hto hK hnc hl
  exact ⟨has, h', hr⟩

/-- **C16**, inside the primitive loop of the three-centre two-electron integrals.  The cache has the queried size.  There is a
fixed division of its doubles into doubles used as `double` and doubles used as `FINT`s (`fpd` each) such that the loop runs
without leaving the cache and without using any part of it both ways, whatever the shells and whatever the cache contains. -/
theorem C16_3c2e_loop {fpd buf : Nat} {empty fl loc : Ptr} (hK : EvalOK3 R K L X s keep w) (hf : 0 < fpd) (hnc : 1 ≤ X.nComp)
    (hc : ∀ t, t < 4 → 1 ≤ Call3.nctrs s t) (hl : ∀ t, t < 4 → Call3.ls s t ≤ 15)
    (he : empty.buf ≠ buf ∧ empty.buf ≠ fl.buf ∧ empty.buf ≠ loc.buf) (hfl : fl.buf ≠ buf) (hloc : loc.buf ≠ buf) :
    ∃ isI : Nat → Prop, ∀ h : Heap α, CacheMem h fpd buf (cacheSize3c2e X s) isI → h.I empty = .val 1 →
      (∀ k, k < 4 → h.I (fl + k) ≠ .oob) → (∀ k, k < 12*136 → h.I (loc + k) ≠ .oob) →
      ∃ res h', run (loop3c2eRun X s R K L fpd ⟨buf, 0⟩ empty buf
        (fpd * ((s.env X).nf * s.si.nctr * s.sj.nctr * s.sk.nctr * X.nComp)) fl loc) h = some (res, h') := by
  refine ⟨intSlots3 X s fpd ((s.env X).nf * s.si.nctr * s.sj.nctr * s.sk.nctr * X.nComp),
    fun h hm h0 h1 h2 => ?_⟩
  obtain ⟨res, h', hr, _⟩ := run_of_wp (loop3c2eRun_wp (o0 := 0)
    ⟨hf, hm, used3_le_cacheSize X s hf (hc 1 (by omega)) (hc 2 (by omega)),
      le_of_eq (by unfold Call3.nctr; ring), h0, h1, h2, he.1, he.2.1, he.2.2, hfl, hloc⟩ hK (hc 0 (by omega)) (hc 1 (by omega))
      (hc 2 (by omega)) hnc (hl 0 (by omega)) (hl 1 (by omega)) (hl 2 (by omega)))
  exact ⟨res, h', hr⟩

/-- **C18**, three-centre calls with Cartesian output: when 0 is returned the block is zero; in any case every element of the
block is overwritten, no double outside the block and the cache changes, and the new contents do not depend on the contents of
memory (`A` and `A'` differ in nothing but the memory). -/
theorem C18_three_centre_cart (A : CartMem3 X s) (hK : EvalOK3 R K L X s keep w) (hnc : 1 ≤ X.nComp)
    (hl : ∀ t, t < 4 → Call3.ls s t ≤ 15) :
    ∃ v : Nat → α, ∀ A' : CartMem3 X s, A'.nd = A.nd →
      ∃ has h', CartEnds3 A' R K L has h' ∧
        (∀ m, InBlock A.nd (fun t => ncar (Call3.ls s) t * Call3.nctrs s t) X.nComp m → h'.D (A'.out + m) = .val (v m)) ∧
        (has = false → ∀ m, InBlock A.nd (fun t => ncar (Call3.ls s) t * Call3.nctrs s t) X.nComp m → v m = 0) ∧
        (∀ q, q.buf ≠ A'.buf → (∀ m, InBlock A.nd (fun t => ncar (Call3.ls s) t * Call3.nctrs s t) X.nComp m →
          q ≠ A'.out + m) → h'.D q = A'.h.D q) := by
  obtain ⟨r0, h0, _, v0, _⟩ := drv3c2e_cart A.M A.hsize A.hs A.O hK hnc hl
  refine ⟨fun m => match h0.D (A.out + m) with | .val x => x | _ => 0, fun B hn => ?_⟩
  obtain ⟨r1, h1, e1, v1, z1, f1, _⟩ := drv3c2e_cart B.M B.hsize B.hs B.O hK hnc hl
  rw [hn] at v1 z1 f1
  have hv : ∀ m, InBlock A.nd (fun t => ncar (Call3.ls s) t * Call3.nctrs s t) X.nComp m →
      h1.D (B.out + m) = .val (match h0.D (A.out + m) with | .val x => x | _ => 0) := by
    intro m hm
    obtain ⟨n, ic, jc, kc, lc, i, j, k, x, a1, a2, a3, a4, a5, a6, a7, a8, a9, rfl⟩ := inBlock_digits A.hs.nf_pos hm
    obtain ⟨t1, t2, _⟩ := A.hs.trivial 3 (by omega) (by omega)
    rw [t2] at a5
    rw [t1] at a9
    obtain rfl : lc = 0 := by omega
    obtain rfl : x = 0 := by omega
    rw [Nat.zero_mul]
    have b0 := v0 n ic jc kc i j k a1 a2 a3 a4 a6 a7 a8
    have b1 := v1 n ic jc kc i j k a1 a2 a3 a4 a6 a7 a8
    refine b1.trans ?_
    have e : h0.D (A.out + outAt A.nd n (ic * ncar (Call3.ls s) 0 + i) (jc * ncar (Call3.ls s) 1 + j)
      (kc * ncar (Call3.ls s) 2 + k) (0 + 0)) = _ := b0
    rw [e]
  refine ⟨r1, h1, e1, hv, fun hf m hm => ?_, f1.1⟩
  exact Cell.val.inj ((hv m hm).symm.trans (z1 hf m hm))

/-- **C18**, three-centre calls with spherical output: when 0 is returned the block is zero; in any case every element of the
block is overwritten, no double outside the block and the cache changes, and the new contents do not depend on the contents of
memory (`A` and `A'` differ in nothing but the memory). -/
theorem C18_three_centre_sph (A : SphMem3 X s) (hK : EvalOK3 R K L X s keep w) (hnc : 1 ≤ X.nComp)
    (hl : ∀ t, t < 4 → Call3.ls s t ≤ 15) :
    ∃ v : Nat → α, ∀ A' : SphMem3 X s, A'.nd = A.nd →
      ∃ has h', SphEnds3 A' R K L has h' ∧
        (∀ m, InBlock A.nd (fun t => nsph (Call3.ls s) t * Call3.nctrs s t) X.nComp m → h'.D (A'.out + m) = .val (v m)) ∧
        (has = false → ∀ m, InBlock A.nd (fun t => nsph (Call3.ls s) t * Call3.nctrs s t) X.nComp m → v m = 0) ∧
        (∀ q, q.buf ≠ A'.buf → (∀ m, InBlock A.nd (fun t => nsph (Call3.ls s) t * Call3.nctrs s t) X.nComp m →
          q ≠ A'.out + m) → h'.D q = A'.h.D q) := by
  obtain ⟨r0, h0, _, v0, _⟩ := drv3c2e_sph A.M A.hsize A.hs A.O A.hT A.htb A.hto hK hnc hl
  refine ⟨fun m => match h0.D (A.out + m) with | .val x => x | _ => 0, fun B hn => ?_⟩
  obtain ⟨r1, h1, e1, v1, z1, f1, _⟩ := drv3c2e_sph B.M B.hsize B.hs B.O B.hT B.htb B.hto hK hnc hl
  rw [hn] at v1 z1 f1
  have hv : ∀ m, InBlock A.nd (fun t => nsph (Call3.ls s) t * Call3.nctrs s t) X.nComp m →
      h1.D (B.out + m) = .val (match h0.D (A.out + m) with | .val x => x | _ => 0) := by
    intro m hm
    obtain ⟨n, ic, jc, kc, lc, i, j, k, x, a1, a2, a3, a4, a5, a6, a7, a8, a9, rfl⟩ := inBlock_digits A.hs.nf_pos hm
    obtain ⟨t1, t2, _⟩ := A.hs.trivial 3 (by omega) (by omega)
    rw [t2] at a5
    rw [t1] at a9
    obtain rfl : lc = 0 := by omega
    obtain rfl : x = 0 := by omega
    rw [Nat.zero_mul]
    have b0 := v0 n ic jc kc i j k a1 a2 a3 a4 a6 a7 a8
    have b1 := v1 n ic jc kc i j k a1 a2 a3 a4 a6 a7 a8
    refine b1.trans ?_
    have e : h0.D (A.out + outAt A.nd n (ic * nsph (Call3.ls s) 0 + i) (jc * nsph (Call3.ls s) 1 + j)
      (kc * nsph (Call3.ls s) 2 + k) (0 + 0)) = _ := b0
    rw [e]
  refine ⟨r1, h1, e1, hv, fun hf m hm => ?_, f1.1⟩
  exact Cell.val.inj ((hv m hm).symm.trans (z1 hf m hm))

/-- **C19**, three-centre calls: the spherical integrals are the Cartesian ones transformed by the table on all three indices.
The memory of the two calls need not have anything in common. -/
theorem C19_three_centre (A : CartMem3 X s) (B : SphMem3 X s) (hK : EvalOK3 R K L X s keep w) (hnc : 1 ≤ X.nComp)
    (hl : ∀ t, t < 4 → Call3.ls s t ≤ 15) :
    ∃ ra ha rb hb, CartEnds3 A R K L ra ha ∧ SphEnds3 B R K L rb hb ∧
      ∃ x : Nat → Nat → Nat → Nat → Nat → Nat → Nat → α,
        (∀ n ic jc kc a b c, n < X.nComp → ic < s.si.nctr → jc < s.sj.nctr → kc < s.sk.nctr →
          a < ncart s.si.l → b < ncart s.sj.l → c < ncart s.sk.l →
          A.elem ha n ic a jc b kc c = .val (x n ic a jc b kc c)) ∧
        (∀ n ic jc kc i j k, n < X.nComp → ic < s.si.nctr → jc < s.sj.nctr → kc < s.sk.nctr →
          i < s.si.l*2+1 → j < s.sj.l*2+1 → k < s.sk.l*2+1 →
          B.elem hb n ic i jc j kc k = .val (∑ a ∈ Finset.range (ncart s.si.l), ∑ b ∈ Finset.range (ncart s.sj.l),
            ∑ c ∈ Finset.range (ncart s.sk.l),
            c2sCoef s.si.l i a * c2sCoef s.sj.l j b * c2sCoef s.sk.l k c * x n ic a jc b kc c)) := by
  obtain ⟨ra, ha, r1, v1, _⟩ := drv3c2e_cart A.M A.hsize A.hs A.O hK hnc hl
  obtain ⟨rb, hb, r2, v2, _⟩ := drv3c2e_sph B.M B.hsize B.hs B.O B.hT B.htb B.hto hK hnc hl
  refine ⟨ra, ha, rb, hb, r1, r2, fun n ic a jc b kc c =>
    loopVal3 R K L X s keep w n ic jc kc (pos4c (ncar (Call3.ls s)) a b c 0), ?_, ?_⟩
  · intro n ic jc kc a b c a1 a2 a3 a4 a6 a7 a8
    exact v1 n ic jc kc a b c a1 a2 a3 a4 a6 a7 a8
  · intro n ic jc kc a b c a1 a2 a3 a4 a6 a7 a8
    exact v2 n ic jc kc a b c a1 a2 a3 a4 a6 a7 a8
end

/-! ### Values -/

/-- the exponents are positive: in pairs for the first electron, one by one for the third shell -/
structure PosExp3 (s : Call3 ℝ) : Prop where
  ij : ∀ ip jp, ip < s.si.nprim → jp < s.sj.nprim → 0 < s.si.a ip + s.sj.a jp
  k : ∀ kp, kp < s.sk.nprim → 0 < s.sk.a kp

/-- the root finder returns the roots and weights of Rys quadrature for the numbers of roots this call needs -/
def RootsOK3 (R : Rys2 ℝ) (s : Call3 ℝ) : Prop := Rys2OK R (s.env eriInt).nrys_roots

open Classical in
theorem eri_eval3 {L : MathLib ℝ} {s : Call3 ℝ} {R : Rys2 ℝ} (hp : PosExp3 s) (hR : RootsOK3 R s) :
    EvalOK3 R realK L eriInt s
      (fun ip jp kp => decide (G2.kept (s.g3r eriInt L ip jp kp) (s.cutoff eriInt L - pairVal L (s.pairArgs eriInt) ip jp 4)))
      (fun ip jp kp n => eriW (s.g3r eriInt L ip jp kp) (fun c => i4 (s.env eriInt) c n) (fun c => j4 (s.env eriInt) c n)
        (fun c => l4 (s.env eriInt) c n) (fun c => k4 (s.env eriInt) c n)) := by
  intro ip jp kp g idx T hip hjp hkp hT
  have hnf : (s.env (eriInt : Int2e ℝ)).nf = ncart s.sj.l * ncart s.sk.l * ncart s.si.l := by
    show lenCart s.si.l * lenCart s.sk.l * lenCart s.sj.l = _
    simp only [lenCart_eq]; ring
  have dig : ∀ n, n < (s.env (eriInt : Int2e ℝ)).nf → n % ncart s.si.l < ncart s.si.l ∧ n / ncart s.si.l % ncart s.sk.l < ncart s.sk.l ∧
      n / ncart s.si.l / ncart s.sk.l % 1 < ncart 0 ∧
      n / ncart s.si.l / ncart s.sk.l / 1 < ncart s.sj.l := by
    intro n hn
    rw [hnf] at hn
    refine ⟨Nat.mod_lt _ (ncart_pos _), Nat.mod_lt _ (ncart_pos _), Nat.mod_lt _ Nat.one_pos, ?_⟩
    rw [Nat.div_one, Nat.div_lt_iff_lt_mul (ncart_pos _), Nat.div_lt_iff_lt_mul (ncart_pos _)]
    exact hn
  have key := eri_kernel (R := R) (e := s.env eriInt) (d := s.g3r eriInt L ip jp kp)
    (cutoff := s.cutoff eriInt L - pairVal L (s.pairArgs eriInt) ip jp 4)
    (g := g) (idx := idx) (leng := s.leng eriInt) (nf := (s.env eriInt).nf) (T := T)
    (I := i4 (s.env eriInt)) (J := j4 (s.env eriInt)) (K := l4 (s.env eriInt)) (L := k4 (s.env eriInt))
    (shape4_int3c2e _ _ _ _ _) (by
      show 3 * (s.env eriInt).g_size ≤ (s.env eriInt).g_size * 3 * (2^0+1)
      omega) (by
      show (s.si.l + 0 + (s.sj.l + 0) + (s.sk.l + 0))/2 + 1 = (s.si.l + 0 + (s.sj.l + 0) + 0 + (s.sk.l + 0))/2 + 1
      omega) (by
      show srRoots _ _ = _ ∨ srRoots _ _ = 2 * _
      unfold srRoots
      split
      · right
        exact Nat.mul_comm _ 2
      · left; rfl) hR (hp.ij ip jp hip hjp) (by
      show 0 < s.sk.a kp + 0
      rw [add_zero]
      exact hp.k kp hkp) (by
      intro n c hn hc
      obtain ⟨d1, d2, d3, d4⟩ := dig n hn
      exact ⟨pw_le d1, pw_le d4, pw_le d3, pw_le d2⟩) (by
      intro n hn
      obtain ⟨d1, d2, d3, d4⟩ := dig n hn
      simp only [Finset.sum_add_distrib]
      have e1 : ∑ c : Fin 3, i4 (s.env eriInt) c n = s.si.l := pw_sum d1
      have e2 : ∑ c : Fin 3, j4 (s.env eriInt) c n = s.sj.l := pw_sum d4
      have e3 : ∑ c : Fin 3, k4 (s.env eriInt) c n = s.sk.l := pw_sum d2
      have e4 : ∑ c : Fin 3, l4 (s.env eriInt) c n = 0 := pw_sum d3
      rw [e1, e2, e3, e4]
      show _ < 2 * ((s.si.l + 0 + (s.sj.l + 0) + (s.sk.l + 0))/2 + 1)
      omega) hT
  show KernelSpec T _ (fun _ gout em => gout2e (s.env eriInt).nf _ idx g gout em) _ ((s.env eriInt).nf * 1) _ _
  rw [Nat.mul_one]
  exact key

/-- estimate for the primitive pair of the first electron -/
noncomputable def estIJ3 (L : MathLib ℝ) (s : Call3 ℝ) (mi mj : Nat → ℝ) (ip jp : Nat) : ℝ :=
  est L s.si s.sj mi mj (rr2 s.si.r s.sj.r) s.omega (s.si.l + s.sj.l) ip jp

/-- `θ ρ |P-C|²` with `ρ = pq/(p+q)`, `θ = ω²/(ω²+ρ)`, `q` and `C` exponent and centre of the third primitive: the exponent of
the short-range integral -/
noncomputable def srExp3 (s : Call3 ℝ) (ip jp kp : Nat) : ℝ :=
  let p := s.si.a ip + s.sj.a jp
  let q := s.sk.a kp
  let P := fun c : Fin 3 => (s.si.a ip * s.si.r c + s.sj.a jp * s.sj.r c)/p
  s.omega^2/(s.omega^2 + p*q/(p+q)) * (p*q/(p+q) * ∑ c, (P c - centre s.sk c)^2)

/-- The primitive triple survives the screening: the estimate for the pair and, for the short-range interaction, the exponent
of the integral stay below the cutoffs in force. -/
structure Kept3 (L : MathLib ℝ) (s : Call3 ℝ) (mi mj : Nat → ℝ) (ip jp kp : Nat) : Prop where
  pair : estIJ3 L s mi mj ip jp < cutoff3c2e s.envCut
  ij : estIJ3 L s mi mj ip jp ≤ s.cutoff eriInt L
  sr : s.omega < 0 → srExp3 s ip jp kp ≤ 40 ∧ srExp3 s ip jp kp ≤ s.cutoff eriInt L - estIJ3 L s mi mj ip jp

section
variable {L : MathLib ℝ} {s : Call3 ℝ} {mi mj : Nat → ℝ} {ip jp kp : Nat}

theorem pair3 (hL : L.exp = Real.exp) (hi : MaxCoeff s.si mi) (hj : MaxCoeff s.sj mj)
    (hip : ip < s.si.nprim) (hjp : jp < s.sj.nprim) (h0 : 0 < s.si.a ip + s.sj.a jp) :
    pairVal L (s.pairArgs eriInt) ip jp 4 = estIJ3 L s mi mj ip jp ∧
    (estIJ3 L s mi mj ip jp < cutoff3c2e s.envCut →
      pairVal L (s.pairArgs eriInt) ip jp 3 = Real.exp (-(s.si.a ip * s.sj.a jp/(s.si.a ip + s.sj.a jp)) *
        ∑ k, (centre s.si k - centre s.sj k)^2) ∧
      ∀ c, c < 3 → pairVal L (s.pairArgs eriInt) ip jp c =
        (s.si.a ip * s.si.r c + s.sj.a jp * s.sj.r c)/(s.si.a ip + s.sj.a jp)) ∧
    (¬ estIJ3 L s mi mj ip jp < cutoff3c2e s.envCut → pairVal L (s.pairArgs eriInt) ip jp 3 = 0) := by
  have hE : pairCC L (s.pairArgs eriInt) ip jp = estIJ3 L s mi mj ip jp := pairCC_eq (p := s.pairArgs eriInt) hi hj hip hjp
  have hcut : (s.pairArgs eriInt).cutoff = cutoff3c2e s.envCut := rfl
  obtain ⟨h1, h2, _⟩ := pairVal_entry (L := L) (p := s.pairArgs eriInt) hi hj hip hjp h0.ne'
  refine ⟨h1, fun hk => ?_, fun hk => ?_⟩
  · obtain ⟨h3, h4⟩ := h2 hk
    refine ⟨?_, fun c hc => h3 c hc⟩
    dsimp only at h4
    rw [h4, hL]
    congr 1
    unfold prodExponent centre
    show -(s.si.a ip * s.sj.a jp / (s.si.a ip + s.sj.a jp) * rr2 s.si.r s.sj.r) = _
    rw [Fin.sum_univ_three]
    unfold rr2
    simp only [Fin.val_zero, Fin.val_one, Fin.val_two]
    ring
  · have hk' : ¬ pairCC L (s.pairArgs eriInt) ip jp < (s.pairArgs eriInt).cutoff := by rw [hE, hcut]; exact hk
    unfold pairVal; simp [hk']

theorem kept_g3 (hL : L.exp = Real.exp) (hi : MaxCoeff s.si mi) (hj : MaxCoeff s.sj mj)
    (hip : ip < s.si.nprim) (hjp : jp < s.sj.nprim) (h0 : 0 < s.si.a ip + s.sj.a jp)
    (hv : estIJ3 L s mi mj ip jp < cutoff3c2e s.envCut) (c : ℝ) :
    G2.kept (s.g3r eriInt L ip jp kp) c ↔ (s.omega < 0 → srExp3 s ip jp kp ≤ 40 ∧ srExp3 s ip jp kp ≤ c) := by
  have hc := ((pair3 hL hi hj hip hjp h0).2.1 hv).2
  have hx : G2.theta (s.g3r eriInt L ip jp kp) * G2.x (s.g3r eriInt L ip jp kp) = srExp3 s ip jp kp := by
    unfold G2.theta G2.x G2.a0 Call3.g3r Call3.g3 srExp3 centre
    dsimp only
    rw [hc 0 (by omega), hc 1 (by omega), hc 2 (by omega), Fin.sum_univ_three]
    simp only [Fin.val_zero, Fin.val_one, Fin.val_two, add_zero]
    ring
  unfold G2.kept
  rw [hx]
  show ¬ (s.omega < 0 ∧ _) ↔ _
  rw [not_and]
  refine imp_congr_right fun _ => ?_
  rw [not_or, not_lt, not_lt, and_comm]
end

/-- a primitive, as the recursion sees the third shell -/
theorem gto_pg {a : ℝ} (ha : 0 < a) (A : Fin 3 → ℝ) (n : Fin 3 → ℕ) (r : Fin 3 → ℝ) :
    gto a A n r = pg (a+0) A (fun k => pq 0 (A k) 0 (n k)) r := by
  have h := gto_mul_eq (a := 0) (b := a) (by rw [zero_add]; exact ha.ne') (fun _ => 0) A (fun _ => 0) n r
  have h1 : gto 0 (fun _ => 0) (fun _ => 0) r = 1 := by unfold gto; simp
  rw [h1, one_mul] at h
  rw [h]
  have h2 : (fun k => (0 * (0:ℝ) + a * A k)/(0+a)) = A := by
    funext k
    rw [zero_mul, zero_add, zero_add, mul_div_cancel_left₀ _ ha.ne']
  rw [h2, zero_mul, zero_div, neg_zero, zero_mul, Real.exp_zero, one_mul, zero_add, add_zero]

theorem eri_loopVal3 {L : MathLib ℝ} {s : Call3 ℝ} {R : Rys2 ℝ} {mi mj : Nat → ℝ} (hL : L.exp = Real.exp)
    (hi : MaxCoeff s.si mi) (hj : MaxCoeff s.sj mj) (hp : PosExp3 s)
    {ic jc kc i j k : Nat} (h1 : i < ncart s.si.l) (h2 : j < ncart s.sj.l) (h3 : k < ncart s.sk.l) :
    loopVal3 R realK L eriInt s
      (fun ip jp kp => open Classical in decide (G2.kept (s.g3r eriInt L ip jp kp)
        (s.cutoff eriInt L - pairVal L (s.pairArgs eriInt) ip jp 4)))
      (fun ip jp kp n => eriW (s.g3r eriInt L ip jp kp) (fun c => i4 (s.env eriInt) c n) (fun c => j4 (s.env eriInt) c n)
        (fun c => l4 (s.env eriInt) c n) (fun c => k4 (s.env eriInt) c n)) 0 ic jc kc (pos4c (ncar (Call3.ls s)) i j k 0) =
    spNorm s.si.l * spNorm s.sj.l * spNorm s.sk.l *
      contract3 s.si.nprim s.sj.nprim s.sk.nprim s.si.c s.sj.c s.sk.c (fun ip jp kp =>
        open Classical in if Kept3 L s mi mj ip jp kp then
          repulsion (interaction s.omega)
            (fun r => gto (s.si.a ip) (centre s.si) (powers s.si.l i) r * gto (s.sj.a jp) (centre s.sj) (powers s.sj.l j) r)
            (gto (s.sk.a kp) (centre s.sk) (powers s.sk.l k)) else 0) ic jc kc := by
  classical
  have hpi : (2 / Real.sqrt Real.pi * Real.pi^3) ≠ 0 := by positivity
  unfold loopVal3 expected3
  have hcom : (s.triple eriInt R realK L ⟨⟨0,0⟩,⟨0,0⟩,⟨0,0⟩,⟨0,0⟩,⟨0,0⟩⟩).common =
      (2 / Real.sqrt Real.pi * Real.pi^3) * (spNorm s.si.l * spNorm s.sj.l * spNorm s.sk.l) := by
    show 1 * (Real.pi * Real.pi * Real.pi * 2 / Real.sqrt Real.pi * commonFacSp s.si.l * commonFacSp s.sj.l *
      commonFacSp s.sk.l) = _
    rw [spNorm_eq, spNorm_eq, spNorm_eq]
    ring
  rw [hcom, mul_comm (2 / Real.sqrt Real.pi * Real.pi^3), mul_assoc]
  congr 1
  unfold contract3
  rw [Finset.mul_sum]
  refine Finset.sum_congr rfl (fun kp hkp => ?_)
  rw [Finset.mul_sum]
  refine Finset.sum_congr rfl (fun jp hjp => ?_)
  rw [Finset.mul_sum]
  refine Finset.sum_congr rfl (fun ip hip => ?_)
  have hip : ip < s.si.nprim := Finset.mem_range.1 hip
  have hjp : jp < s.sj.nprim := Finset.mem_range.1 hjp
  have hkp : kp < s.sk.nprim := Finset.mem_range.1 hkp
  rw [mul_comm (2 / Real.sqrt Real.pi * Real.pi^3), mul_assoc]
  show s.sk.c (s.sk.nprim*kc+kp) * s.sj.c (s.sj.nprim*jc+jp) * s.si.c (s.si.nprim*ic+ip) * _ = _
  congr 1
  obtain ⟨p4, pv, pd⟩ := pair3 hL hi hj hip hjp (hp.ij ip jp hip hjp)
  -- digits of the position
  have hx : pos4c (ncar (Call3.ls s)) i j k 0 = (j*ncart s.sk.l + k)*ncart s.si.l + i := by
    unfold pos4c ncar
    show i + ncart s.si.l * (k + ncart s.sk.l * (0 + ncart 0 * j)) = _
    rw [ncart_zero]
    ring
  have qi : ∀ c, i4 (s.env (eriInt : Int2e ℝ)) c (pos4c (ncar (Call3.ls s)) i j k 0 * 1 + 0) = pw s.si.l c i := by
    intro c
    rw [Nat.mul_one, Nat.add_zero, hx]
    show pw s.si.l c (_ % ncart s.si.l) = _
    rw [(digit h1).2]
  have qk : ∀ c, k4 (s.env (eriInt : Int2e ℝ)) c (pos4c (ncar (Call3.ls s)) i j k 0 * 1 + 0) = pw s.sk.l c k := by
    intro c
    rw [Nat.mul_one, Nat.add_zero, hx]
    show pw s.sk.l c (_ / ncart s.si.l % ncart s.sk.l) = _
    rw [(digit h1).1, (digit h3).2]
  have ql : ∀ c, l4 (s.env (eriInt : Int2e ℝ)) c (pos4c (ncar (Call3.ls s)) i j k 0 * 1 + 0) = 0 := by
    intro c
    refine Nat.le_zero.1 (pw_le (l := 0) ?_)
    rw [ncart_zero]
    exact Nat.mod_lt _ Nat.one_pos
  have qj : ∀ c, j4 (s.env (eriInt : Int2e ℝ)) c (pos4c (ncar (Call3.ls s)) i j k 0 * 1 + 0) = pw s.sj.l c j := by
    intro c
    rw [Nat.mul_one, Nat.add_zero, hx]
    show pw s.sj.l c (_ / ncart s.si.l / ncart s.sk.l / 1) = _
    rw [(digit h1).1, (digit h3).1, Nat.div_one]
  show (if (s.triple eriInt R realK L ⟨⟨0,0⟩,⟨0,0⟩,⟨0,0⟩,⟨0,0⟩,⟨0,0⟩⟩).skip ip jp kp = false ∧
      decide (G2.kept (s.g3r eriInt L ip jp kp) (s.cutoff eriInt L - pairVal L (s.pairArgs eriInt) ip jp 4)) = true then
    pairVal L (s.pairArgs eriInt) ip jp 3 * eriW (s.g3r eriInt L ip jp kp)
      (fun c => i4 (s.env eriInt) c (pos4c (ncar (Call3.ls s)) i j k 0 * 1 + 0))
      (fun c => j4 (s.env eriInt) c (pos4c (ncar (Call3.ls s)) i j k 0 * 1 + 0))
      (fun c => l4 (s.env eriInt) c (pos4c (ncar (Call3.ls s)) i j k 0 * 1 + 0))
      (fun c => k4 (s.env eriInt) c (pos4c (ncar (Call3.ls s)) i j k 0 * 1 + 0)) else 0) * (2 / Real.sqrt Real.pi * Real.pi^3) = _
  simp only [qi, qj, qk, ql]
  have hsur : ((s.triple eriInt R realK L ⟨⟨0,0⟩,⟨0,0⟩,⟨0,0⟩,⟨0,0⟩,⟨0,0⟩⟩).skip ip jp kp = false ∧
      decide (G2.kept (s.g3r eriInt L ip jp kp) (s.cutoff eriInt L - pairVal L (s.pairArgs eriInt) ip jp 4)) = true) ↔
      (estIJ3 L s mi mj ip jp ≤ s.cutoff eriInt L ∧
        G2.kept (s.g3r eriInt L ip jp kp) (s.cutoff eriInt L - estIJ3 L s mi mj ip jp)) := by
    show (decide (pairVal L (s.pairArgs eriInt) ip jp 4 > s.cutoff eriInt L) = false ∧ _) ↔ _
    rw [p4]
    simp only [decide_eq_false_iff_not, decide_eq_true_eq, not_lt, gt_iff_lt]
  by_cases hv : estIJ3 L s mi mj ip jp < cutoff3c2e s.envCut
  · obtain ⟨pe, pc⟩ := pv hv
    rw [kept_g3 hL hi hj hip hjp (hp.ij ip jp hip hjp) hv (s.cutoff eriInt L - estIJ3 L s mi mj ip jp)] at hsur
    by_cases hkp' : Kept3 L s mi mj ip jp kp
    · rw [if_pos (hsur.2 ⟨hkp'.ij, hkp'.sr⟩), if_pos hkp']
      have g1 := fun r => gto_mul_eq (hp.ij ip jp hip hjp).ne' (centre s.si) (centre s.sj) (powers s.si.l i) (powers s.sj.l j) r
      have g2 : gto (s.sk.a kp) (centre s.sk) (powers s.sk.l k) = fun r => 1 * pg (s.sk.a kp+0) (centre s.sk)
          (fun c => pq 0 (centre s.sk c) 0 (powers s.sk.l k c)) r := by
        funext r
        rw [one_mul]
        exact gto_pg (hp.k kp hkp) _ _ r
      rw [g2]
      simp only [g1]
      rw [repulsion_smul, pe, mul_one, mul_assoc]
      congr 1
      unfold eriW
      rw [div_mul_cancel₀ _ hpi]
      have hP : (fun k : Fin 3 => (s.g3r eriInt L ip jp kp).rij k) = fun k =>
          (s.si.a ip * centre s.si k + s.sj.a jp * centre s.sj k)/(s.si.a ip + s.sj.a jp) := by
        funext k
        exact pc k k.isLt
      rw [hP]
      rfl
    · rw [if_neg (fun x => hkp' ⟨hv, (hsur.1 x).1, (hsur.1 x).2⟩), if_neg hkp', zero_mul]
  · rw [if_neg (fun x : Kept3 L s mi mj ip jp kp => hv x.pair), pd hv]
    simp

/-! ### The integral of contracted functions

The third function is multiplied by the constant function 1, an s function with exponent 0, so that the facts about four
functions apply. -/

/-- the constant function 1 -/
def unitShell : PShell ℝ := { nprim := 1, nctr := 1, l := 0, a := fun _ => 0, c := fun _ => 1, r := fun _ => 0 }

/-- the call with a fourth shell consisting of the constant function 1 -/
def withUnit (s : Call3 ℝ) : Call2 ℝ := { si := s.si, sj := s.sj, sk := s.sk, sl := unitShell, envCut := s.envCut, omega := s.omega }

theorem gto_unit (r : Fin 3 → ℝ) : gto 0 (centre unitShell) (powers 0 0) r = 1 := by
  have h : powers 0 0 = fun _ => 0 := by
    funext k
    exact Nat.le_zero.1 (pw_le (by rw [ncart_zero]; exact Nat.one_pos))
  unfold gto
  rw [h]
  simp

theorem cfun_unit (r : Fin 3 → ℝ) : cfun unitShell 0 0 r = 1 := by
  unfold cfun cgto
  show ∑ ip ∈ Finset.range 1, 1 * gto 0 (centre unitShell) (powers 0 0) r = 1
  rw [gto_unit]
  simp

theorem posExp_unit {s : Call3 ℝ} (hp : PosExp3 s) : PosExp (withUnit s) :=
  ⟨hp.ij, fun kp _ h _ => by show 0 < s.sk.a kp + 0; rw [add_zero]; exact hp.k kp h⟩

theorem repulsion_cfun3 {s : Call3 ℝ} (hp : PosExp3 s) (omega : ℝ) (ic jc kc i j k : Nat) :
    (Integrable fun z : (Fin 3 → ℝ) × (Fin 3 → ℝ) => (cfun s.si ic i z.1 * cfun s.sj jc j z.1) * interaction omega z.1 z.2 *
      cfun s.sk kc k z.2) ∧
    repulsion (interaction omega) (fun r => cfun s.si ic i r * cfun s.sj jc j r) (cfun s.sk kc k) =
      contract3 s.si.nprim s.sj.nprim s.sk.nprim s.si.c s.sj.c s.sk.c (fun ip jp kp =>
        repulsion (interaction omega)
          (fun r => gto (s.si.a ip) (centre s.si) (powers s.si.l i) r * gto (s.sj.a jp) (centre s.sj) (powers s.sj.l j) r)
          (gto (s.sk.a kp) (centre s.sk) (powers s.sk.l k))) ic jc kc := by
  obtain ⟨h1, h2⟩ := repulsion_cfun (posExp_unit hp) omega ic jc kc 0 i j k 0
  have e : (fun r => cfun (withUnit s).sk kc k r * cfun (withUnit s).sl 0 0 r) = cfun s.sk kc k := by
    funext r
    show cfun s.sk kc k r * cfun unitShell 0 0 r = _
    rw [cfun_unit, mul_one]
  rw [e] at h2
  refine ⟨?_, h2.trans ?_⟩
  · refine h1.congr (Filter.Eventually.of_forall fun z => ?_)
    exact congrArg (_ * ·) (congrFun e z.2)
  · unfold contract4 contract3
    show ∑ lp ∈ Finset.range 1, _ = _
    rw [Finset.sum_range_one]
    refine Finset.sum_congr rfl fun kp _ => Finset.sum_congr rfl fun jp _ => Finset.sum_congr rfl fun ip _ => ?_
    show 1 * s.sk.c (s.sk.nprim*kc+kp) * _ * _ * repulsion _ _ (fun r => gto (s.sk.a kp) (centre s.sk) (powers s.sk.l k) r *
      gto 0 (centre unitShell) (powers 0 0) r) = _
    simp only [gto_unit, mul_one]
    rw [one_mul]
    rfl

theorem sgto_eq (t : PShell ℝ) (ic i : Nat) : sgto t ic i = fun r =>
    ∑ a ∈ Finset.range (ncart t.l), (spNorm t.l * c2sCoef t.l i a) * cfun t ic a r := rfl

theorem repulsion_sgto3 {s : Call3 ℝ} (hp : PosExp3 s) (omega : ℝ) (ic jc kc i j k : Nat) :
    repulsion (interaction omega) (fun r => sgto s.si ic i r * sgto s.sj jc j r) (sgto s.sk kc k) =
      ∑ a ∈ Finset.range (ncart s.si.l), ∑ b ∈ Finset.range (ncart s.sj.l), ∑ c ∈ Finset.range (ncart s.sk.l),
        c2sCoef s.si.l i a * c2sCoef s.sj.l j b * c2sCoef s.sk.l k c *
          (spNorm s.si.l * spNorm s.sj.l * spNorm s.sk.l * repulsion (interaction omega)
            (fun r => cfun s.si ic a r * cfun s.sj jc b r) (cfun s.sk kc c)) := by
  rw [sgto_eq s.sk]
  simp_rw [sgto_mul]
  refine (repulsion_sum (V := interaction omega) _ _ _ _ (fun a _ b _ => (repulsion_cfun3 hp omega ic jc kc a.1 a.2 b).1)).2.trans ?_
  rw [Finset.sum_product]
  refine Finset.sum_congr rfl fun a _ => Finset.sum_congr rfl fun b _ => Finset.sum_congr rfl fun c _ => ?_
  ring

/-- The shells are as tall as the library supports. -/
def LOK3 (s : Call3 ℝ) : Prop := ∀ t, t < 4 → Call3.ls s t ≤ 15

/-- **C45** int3c2e_cart: each element is, up to the normalisation of s and p functions, the contraction of the repulsion
integrals of the primitive triples that survive the screening, over the interaction selected by `env[PTR_RANGE_OMEGA]`. -/
theorem C45_three_centre {L : MathLib ℝ} {s : Call3 ℝ} {R : Rys2 ℝ} {mi mj : Nat → ℝ} (A : CartMem3 eriInt s)
    (hL : L.exp = Real.exp) (hi : MaxCoeff s.si mi) (hj : MaxCoeff s.sj mj)
    (hp : PosExp3 s) (hR : RootsOK3 R s) (h15 : LOK3 s) :
    ∃ has h', CartEnds3 A R realK L has h' ∧
      ∀ ic jc kc i j k, ic < s.si.nctr → jc < s.sj.nctr → kc < s.sk.nctr →
        i < ncart s.si.l → j < ncart s.sj.l → k < ncart s.sk.l →
        A.elem h' 0 ic i jc j kc k = .val (spNorm s.si.l * spNorm s.sj.l * spNorm s.sk.l *
          contract3 s.si.nprim s.sj.nprim s.sk.nprim s.si.c s.sj.c s.sk.c (fun ip jp kp =>
            open Classical in if Kept3 L s mi mj ip jp kp then
              repulsion (interaction s.omega)
                (fun r => gto (s.si.a ip) (centre s.si) (powers s.si.l i) r * gto (s.sj.a jp) (centre s.sj) (powers s.sj.l j) r)
                (gto (s.sk.a kp) (centre s.sk) (powers s.sk.l k))
            else 0) ic jc kc) := by
  obtain ⟨has, h', hr, hv, _⟩ := drv3c2e_cart A.M A.hsize A.hs A.O (eri_eval3 (L := L) hp hR) (le_refl 1) h15
  refine ⟨has, h', hr, fun ic jc kc i j k a2 a3 a4 a6 a7 a8 => ?_⟩
  refine (hv 0 ic jc kc i j k Nat.zero_lt_one a2 a3 a4 a6 a7 a8).trans ?_
  exact congrArg Cell.val (eri_loopVal3 hL hi hj hp a6 a7 a8)

/-- no primitive triple of the call is screened -/
def AllKept3 (L : MathLib ℝ) (s : Call3 ℝ) : Prop :=
  ∃ mi mj, MaxCoeff s.si mi ∧ MaxCoeff s.sj mj ∧
    ∀ ip jp kp, ip < s.si.nprim → jp < s.sj.nprim → kp < s.sk.nprim → Kept3 L s mi mj ip jp kp

/-- **C45** int3c2e_cart, nothing screened: exactly the repulsion integral of the product of the first two contracted functions
with the third. -/
theorem C45_three_centre_exact {L : MathLib ℝ} {s : Call3 ℝ} {R : Rys2 ℝ} (A : CartMem3 eriInt s) (hL : L.exp = Real.exp)
    (hkept : AllKept3 L s) (hp : PosExp3 s) (hR : RootsOK3 R s) (h15 : LOK3 s) :
    ∃ has h', CartEnds3 A R realK L has h' ∧
      ∀ ic jc kc i j k, ic < s.si.nctr → jc < s.sj.nctr → kc < s.sk.nctr →
        i < ncart s.si.l → j < ncart s.sj.l → k < ncart s.sk.l →
        A.elem h' 0 ic i jc j kc k = .val (spNorm s.si.l * spNorm s.sj.l * spNorm s.sk.l *
          repulsion (interaction s.omega) (fun r => cfun s.si ic i r * cfun s.sj jc j r) (cfun s.sk kc k)) := by
  obtain ⟨mi, mj, hi, hj, hkp⟩ := hkept
  obtain ⟨has, h', hr, hv⟩ := C45_three_centre (L := L) A hL hi hj hp hR h15
  refine ⟨has, h', hr, fun ic jc kc i j k a2 a3 a4 a6 a7 a8 => ?_⟩
  rw [hv ic jc kc i j k a2 a3 a4 a6 a7 a8, (repulsion_cfun3 hp _ _ _ _ _ _ _).2]
  congr 2
  unfold contract3
  refine Finset.sum_congr rfl fun kp b2 => Finset.sum_congr rfl fun jp b3 => Finset.sum_congr rfl fun ip b4 => ?_
  rw [Finset.mem_range] at b2 b3 b4
  dsimp only
  rw [if_pos (hkp ip jp kp b4 b3 b2)]

/-- a Cartesian call in memory that is allocated but not initialised -/
def blankMem3 {α : Type} [Field α] [LinearOrder α] (X : Int2e α) (s : Call3 α) (h : ∀ t, t < 4 → 0 < Call3.nctrs s t) :
    CartMem3 X s where
  fpd := 1
  buf := 0
  size := cacheSize3c2e X s
  empty := ⟨4, 0⟩
  fl := ⟨1, 0⟩
  loc := ⟨2, 0⟩
  counts := ⟨3, 0⟩
  out := ⟨5, 7⟩
  dims := none
  nd := fun t => ncar (Call3.ls s) t * Call3.nctrs s t
  h := ⟨fun _ => .undef, fun _ => .undef⟩
  hs := ⟨Or.inr (Or.inl rfl), fun t _ => ncart_pos _, fun t ht => h t ht, fun t a b => by
    obtain rfl : t = 3 := by omega
    exact ⟨ncart_zero, rfl, by show ncart 0 * 1 = 1; rw [ncart_zero]⟩, fun t _ => le_refl _⟩
  M := ⟨by omega, fun k _ => by simp, fun k _ => by simp, by simp, fun k _ => by simp, fun k _ => by simp,
    fun k _ => by simp, by decide, by decide, by decide, by decide, by decide⟩
  hsize := le_refl _
  O := { h_dims := fun t _ => rfl
         h_dbuf := fun d hd => nomatch hd
         h_out := fun m _ => by simp
         h_obuf := by decide }

/-- **C45** int3c2e_sph, nothing screened: exactly the repulsion integral of the spherical functions. -/
theorem C45_three_centre_spherical {L : MathLib ℝ} {s : Call3 ℝ} {R : Rys2 ℝ} (B : SphMem3 eriInt s) (hL : L.exp = Real.exp)
    (hkept : AllKept3 L s) (hp : PosExp3 s) (hR : RootsOK3 R s) (h15 : LOK3 s) :
    ∃ has h', SphEnds3 B R realK L has h' ∧
      ∀ ic jc kc i j k, ic < s.si.nctr → jc < s.sj.nctr → kc < s.sk.nctr →
        i < s.si.l*2+1 → j < s.sj.l*2+1 → k < s.sk.l*2+1 →
        B.elem h' 0 ic i jc j kc k = .val (repulsion (interaction s.omega)
          (fun r => sgto s.si ic i r * sgto s.sj jc j r) (sgto s.sk kc k)) := by
  let A := blankMem3 eriInt s B.hs.nctr_pos
  obtain ⟨ra, ha, rb, hb, eA, eB, x, vA, vB⟩ := C19_three_centre A B (eri_eval3 (L := L) hp hR) (le_refl 1) h15
  obtain ⟨rc, hc, eC, vC⟩ := C45_three_centre_exact (R := R) A hL hkept hp hR h15
  have hAC : ha = hc := by
    have e : some (ra, ha) = some (rc, hc) := eA.symm.trans eC
    simp only [Option.some.injEq, Prod.mk.injEq] at e
    exact e.2
  refine ⟨rb, hb, eB, fun ic jc kc i j k a2 a3 a4 a6 a7 a8 => ?_⟩
  rw [vB 0 ic jc kc i j k Nat.zero_lt_one a2 a3 a4 a6 a7 a8, repulsion_sgto3 hp]
  congr 1
  refine Finset.sum_congr rfl fun a b1 => Finset.sum_congr rfl fun b b2 => Finset.sum_congr rfl fun c b3 => ?_
  rw [Finset.mem_range] at b1 b2 b3
  congr 1
  have c1 := vA 0 ic jc kc a b c Nat.zero_lt_one a2 a3 a4 b1 b2 b3
  have c2 := vC ic jc kc a b c a2 a3 a4 b1 b2 b3
  rw [← hAC] at c2
  exact Cell.val.inj (c1.symm.trans c2)

/-! ### Symmetry and range separation -/

/-- the call with the first two shells exchanged -/
def swapIJ3 {α : Type} (s : Call3 α) : Call3 α := { s with si := s.sj, sj := s.si }

theorem estIJ3_swap (L : MathLib ℝ) (s : Call3 ℝ) (mi mj : Nat → ℝ) (ip jp : Nat) :
    estIJ3 L (swapIJ3 s) mj mi jp ip = estIJ3 L s mi mj ip jp := estIJ_swap L (withUnit s) mi mj ip jp

theorem order_eq3 (s : Call3 ℝ) : (s.env eriInt).rys_order = (s.si.l + s.sj.l + s.sk.l)/2 + 1 := rfl

theorem cutoff_swapIJ3 (L : MathLib ℝ) (s : Call3 ℝ) : (swapIJ3 s).cutoff eriInt L = s.cutoff eriInt L := by
  unfold Call3.cutoff
  dsimp only
  have e1 : ((swapIJ3 s).env eriInt).rys_order = (s.env eriInt).rys_order := by
    rw [order_eq3, order_eq3]
    show (s.sj.l + s.si.l + s.sk.l)/2 + 1 = _
    rw [Nat.add_comm s.sj.l]
  have e2 : ((swapIJ3 s).env eriInt).li_ceil + ((swapIJ3 s).env eriInt).lj_ceil = (s.env eriInt).li_ceil + (s.env eriInt).lj_ceil :=
    Nat.add_comm _ _
  have e3 : ((swapIJ3 s).env eriInt).lk_ceil = (s.env eriInt).lk_ceil := rfl
  rw [e1, e2, e3]
  simp only [swapIJ3]
  rw [rr2_comm s.sj.r, add_comm (s.sj.a (s.sj.nprim-1))]
  congr

theorem srExp3_swap (s : Call3 ℝ) (ip jp kp : Nat) : srExp3 (swapIJ3 s) jp ip kp = srExp3 s ip jp kp := by
  unfold srExp3
  simp only [swapIJ3]
  rw [add_comm (s.sj.a jp)]
  simp only [add_comm (s.sj.a jp * _)]

theorem kept3_swap {L : MathLib ℝ} {s : Call3 ℝ} {mi mj : Nat → ℝ} {ip jp kp : Nat} :
    Kept3 L (swapIJ3 s) mj mi jp ip kp ↔ Kept3 L s mi mj ip jp kp := by
  constructor
  · rintro ⟨h1, h2, h3⟩
    rw [estIJ3_swap] at h1 h2 h3
    rw [cutoff_swapIJ3] at h2 h3
    rw [srExp3_swap] at h3
    exact ⟨h1, h2, h3⟩
  · rintro ⟨h1, h2, h3⟩
    refine ⟨?_, ?_, ?_⟩
    · rw [estIJ3_swap]; exact h1
    · rw [cutoff_swapIJ3, estIJ3_swap]; exact h2
    · rw [cutoff_swapIJ3, estIJ3_swap, srExp3_swap]; exact h3

theorem posExp3_swap {s : Call3 ℝ} (hp : PosExp3 s) : PosExp3 (swapIJ3 s) :=
  ⟨fun ip jp h1 h2 => by rw [add_comm]; exact hp.ij jp ip h2 h1, hp.k⟩

theorem roots_eq3 (s : Call3 ℝ) : (s.env eriInt).nrys_roots =
    srRoots (decide (s.omega < 0)) ((s.si.l + s.sj.l + s.sk.l)/2 + 1) := rfl

theorem rootsOK3_swap {s : Call3 ℝ} {R : Rys2 ℝ} (h : RootsOK3 R s) : RootsOK3 R (swapIJ3 s) := by
  unfold RootsOK3 at *
  rw [roots_eq3] at *
  rwa [show (swapIJ3 s).si.l + (swapIJ3 s).sj.l = s.si.l + s.sj.l from Nat.add_comm _ _]

theorem lok3_iff (s : Call3 ℝ) : LOK3 s ↔ s.si.l ≤ 15 ∧ s.sj.l ≤ 15 ∧ s.sk.l ≤ 15 := by
  constructor
  · intro h
    exact ⟨h 0 (by omega), h 1 (by omega), h 2 (by omega)⟩
  · rintro ⟨h0, h1, h2⟩ t ht
    obtain rfl | rfl | rfl | rfl : t = 0 ∨ t = 1 ∨ t = 2 ∨ t = 3 := by omega
    · exact h0
    · exact h1
    · exact h2
    · exact Nat.zero_le _

theorem contract3_swap (ni nj nk : ℕ) (ci cj ck : ℕ → ℝ) (f : ℕ → ℕ → ℕ → ℝ) (ic jc kc : ℕ) :
    contract3 nj ni nk cj ci ck (fun jp ip kp => f ip jp kp) jc ic kc = contract3 ni nj nk ci cj ck f ic jc kc := by
  unfold contract3
  refine Finset.sum_congr rfl fun _ _ => ?_
  rw [Finset.sum_comm]
  refine Finset.sum_congr rfl fun _ _ => Finset.sum_congr rfl fun _ _ => ?_
  ring

/-- **C29** three-centre integrals: exchanging the first two shells transposes the block, whatever is screened. -/
theorem C29_three_centre_swap {L : MathLib ℝ} {s : Call3 ℝ} {R : Rys2 ℝ} (A : CartMem3 eriInt s) (B : CartMem3 eriInt (swapIJ3 s))
    (hL : L.exp = Real.exp) (hp : PosExp3 s) (hR : RootsOK3 R s) (h15 : LOK3 s) :
    ∃ ra ha rb hb, CartEnds3 A R realK L ra ha ∧ CartEnds3 B R realK L rb hb ∧
      ∀ ic jc kc i j k, ic < s.si.nctr → jc < s.sj.nctr → kc < s.sk.nctr →
        i < ncart s.si.l → j < ncart s.sj.l → k < ncart s.sk.l →
        ∃ x, A.elem ha 0 ic i jc j kc k = .val x ∧ B.elem hb 0 jc j ic i kc k = .val x := by
  obtain ⟨ra, ha, e1, v1⟩ := C45_three_centre (L := L) A hL (maxCoeff_exists s.si) (maxCoeff_exists s.sj) hp hR h15
  have h15' : LOK3 (swapIJ3 s) := by
    obtain ⟨a, b, c⟩ := (lok3_iff s).1 h15
    exact (lok3_iff _).2 ⟨b, a, c⟩
  obtain ⟨rb, hb, e2, v2⟩ := C45_three_centre (L := L) B hL (maxCoeff_exists s.sj) (maxCoeff_exists s.si)
    (posExp3_swap hp) (rootsOK3_swap hR) h15'
  refine ⟨ra, ha, rb, hb, e1, e2, fun ic jc kc i j k a2 a3 a4 a6 a7 a8 =>
    ⟨_, v1 ic jc kc i j k a2 a3 a4 a6 a7 a8, (v2 jc ic kc j i k a3 a2 a4 a7 a6 a8).trans ?_⟩⟩
  congr 1
  refine congrArg₂ (· * ·) (by show spNorm s.sj.l * spNorm s.si.l * spNorm s.sk.l = _; ring) ?_
  refine Eq.trans ?_ (contract3_swap s.si.nprim s.sj.nprim s.sk.nprim s.si.c s.sj.c s.sk.c _ ic jc kc)
  refine congrArg (fun f => contract3 _ _ _ _ _ _ f jc ic kc) ?_
  funext jp ip kp
  by_cases hkp : Kept3 L s (fun ip => maxAbsC s.si.c s.si.nprim ip s.si.nctr) (fun ip => maxAbsC s.sj.c s.sj.nprim ip s.sj.nctr)
      ip jp kp
  · rw [if_pos (kept3_swap.2 hkp), if_pos hkp]
    refine congrArg₂ (repulsion _) ?_ rfl
    funext r
    exact mul_comm _ _
  · rw [if_neg (fun h => hkp (kept3_swap.1 h)), if_neg hkp]

/-- the call with another `env[PTR_RANGE_OMEGA]` -/
def withOmega3 {α : Type} (s : Call3 α) (omega : α) : Call3 α := { s with omega := omega }

/-- **C38** range separation for three-centre integrals: when nothing is screened, the integrals with `omega = -w` are those
with `omega = 0` minus those with `omega = w`. -/
theorem C38_three_centre {L : MathLib ℝ} {s : Call3 ℝ} {R : Rys2 ℝ} {w : ℝ} (hw : 0 < w)
    (A : CartMem3 eriInt (withOmega3 s (-w))) (B : CartMem3 eriInt (withOmega3 s 0)) (C : CartMem3 eriInt (withOmega3 s w))
    (hL : L.exp = Real.exp) (hkA : AllKept3 L (withOmega3 s (-w))) (hkB : AllKept3 L (withOmega3 s 0))
    (hkC : AllKept3 L (withOmega3 s w)) (hp : PosExp3 s) (hRA : RootsOK3 R (withOmega3 s (-w)))
    (hRB : RootsOK3 R (withOmega3 s 0)) (hRC : RootsOK3 R (withOmega3 s w)) (h15 : LOK3 s) :
    ∃ ra ha rb hb rc hc, CartEnds3 A R realK L ra ha ∧ CartEnds3 B R realK L rb hb ∧ CartEnds3 C R realK L rc hc ∧
      ∀ ic jc kc i j k, ic < s.si.nctr → jc < s.sj.nctr → kc < s.sk.nctr →
        i < ncart s.si.l → j < ncart s.sj.l → k < ncart s.sk.l →
        ∃ full long, B.elem hb 0 ic i jc j kc k = .val full ∧ C.elem hc 0 ic i jc j kc k = .val long ∧
          A.elem ha 0 ic i jc j kc k = .val (full - long) := by
  have hp' : ∀ o, PosExp3 (withOmega3 s o) := fun o => ⟨hp.ij, hp.k⟩
  obtain ⟨ra, ha, e1, v1⟩ := C45_three_centre_exact (L := L) A hL hkA (hp' _) hRA h15
  obtain ⟨rb, hb, e2, v2⟩ := C45_three_centre_exact (L := L) B hL hkB (hp' _) hRB h15
  obtain ⟨rc, hc, e3, v3⟩ := C45_three_centre_exact (L := L) C hL hkC (hp' _) hRC h15
  refine ⟨ra, ha, rb, hb, rc, hc, e1, e2, e3, fun ic jc kc i j k a2 a3 a4 a6 a7 a8 =>
    ⟨_, _, v2 ic jc kc i j k a2 a3 a4 a6 a7 a8, v3 ic jc kc i j k a2 a3 a4 a6 a7 a8,
      (v1 ic jc kc i j k a2 a3 a4 a6 a7 a8).trans ?_⟩⟩
  congr 1
  refine Eq.trans ?_ (mul_sub _ _ _)
  refine congrArg₂ _ rfl ?_
  exact repulsion_split hw (repulsion_cfun3 hp 0 ic jc kc i j k).1 (repulsion_cfun3 hp w ic jc kc i j k).1

/-! ### The hypotheses can be met -/
namespace Eri3Demo
open OvlpDemo SphDemo EriDemo

/-- p, d and f shells with two primitives and two contractions each -/
noncomputable def call3 (omega : ℝ) : Call3 ℝ where
  si := { nprim := 2, nctr := 2, l := 1, a := fun _ => 1, c := fun _ => 1, r := fun _ => 0 }
  sj := { nprim := 2, nctr := 2, l := 2, a := fun _ => 1, c := fun _ => 1, r := fun _ => 0 }
  sk := { nprim := 2, nctr := 2, l := 3, a := fun _ => 1, c := fun _ => 1, r := fun _ => 0 }
  envCut := 0
  omega := omega

theorem estIJ3_nonpos (o : ℝ) (ip jp : Nat) : estIJ3 lib (call3 o) (fun _ => 1) (fun _ => 1) ip jp ≤ 0 := estIJ_nonpos o ip jp

theorem cutoff3_ge (o : ℝ) : 60 ≤ (call3 o).cutoff eriInt lib := by
  have hl := log_shift (o := o) (a := 1+1) (by norm_num)
  have hc : cutoff3c2e (call3 o).envCut = 60 := if_pos rfl
  have hk : ((call3 o).env eriInt).lk_ceil = 0 := rfl
  have hl' : (0:ℝ) ≤ lib.log ((lib.sqrt (rr2 (call3 o).si.r (call3 o).sj.r) + o*o/(o*o + (1+1))*8 + 1)/
      (lib.sqrt (rr2 (call3 o).si.r (call3 o).sj.r) + 1)) := by
    unfold rr2 lib call3
    simp only [sub_zero, mul_zero, add_zero, Real.sqrt_zero, zero_add, div_one] at *
    exact hl
  unfold Call3.cutoff
  dsimp only
  rw [hc, hk]
  split
  · rw [if_neg (by omega)]
    split
    · have : (0:ℝ) ≤ ((Call3.env eriInt (call3 o)).li_ceil + (Call3.env eriInt (call3 o)).lj_ceil : ℕ) := Nat.cast_nonneg _
      have h := mul_nonneg this hl'
      refine le_trans ?_ (add_le_add_right h 60)
      rw [add_zero]
    · exact le_refl _
  · exact le_refl _

theorem allKept3 (o : ℝ) : AllKept3 lib (call3 o) := by
  refine ⟨fun _ => 1, fun _ => 1, one_max 1, one_max 2, fun ip jp kp _ _ _ => ?_⟩
  have h1 := estIJ3_nonpos o ip jp
  have h3 := cutoff3_ge o
  have hc : cutoff3c2e (call3 o).envCut = 60 := if_pos rfl
  have hs : srExp3 (call3 o) ip jp kp = 0 := by
    unfold srExp3 call3 centre
    simp
  refine ⟨by rw [hc]; linarith, by linarith, fun _ => ⟨by rw [hs]; norm_num, by rw [hs]; linarith⟩⟩

theorem posExp3 (o : ℝ) : PosExp3 (call3 o) :=
  ⟨fun _ _ _ _ => by show (0:ℝ) < 1 + 1; norm_num, fun _ _ => by show (0:ℝ) < 1; norm_num⟩

theorem lok3 (o : ℝ) : LOK3 (call3 o) :=
  (lok3_iff _).2 ⟨by show 1 ≤ 15; omega, by show 2 ≤ 15; omega, by show 3 ≤ 15; omega⟩

theorem ctr_pos3 (o : ℝ) : ∀ t, t < 4 → 0 < Call3.nctrs (call3 o) t := by
  show ∀ t, t < 4 → 0 < four 2 2 2 1 t
  decide

noncomputable def cartMem3 (s : Call3 ℝ) (h : ∀ t, t < 4 → 0 < Call3.nctrs s t) : CartMem3 eriInt s := blankMem3 eriInt s h

/-- the short-range integral of p_y (second contraction), d_xz and the fifth f function -/
example : ∃ R has h', CartEnds3 (cartMem3 (call3 (-1/2)) (ctr_pos3 _)) R realK lib has h' ∧
    (cartMem3 (call3 (-1/2)) (ctr_pos3 _)).elem h' 0 1 1 0 2 1 4 = .val (spNorm 1 * spNorm 2 * spNorm 3 *
      repulsion (interaction (-1/2)) (fun r => cfun (call3 (-1/2)).si 1 1 r * cfun (call3 (-1/2)).sj 0 2 r)
        (cfun (call3 (-1/2)).sk 1 4)) := by
  obtain ⟨R, hR⟩ := exists_rys2
  obtain ⟨has, h', h1, h2⟩ := C45_three_centre_exact (L := lib) (R := R) (cartMem3 (call3 (-1/2)) (ctr_pos3 _)) rfl (allKept3 _)
    (posExp3 _) (hR _) (lok3 _)
  exact ⟨R, has, h', h1, h2 1 0 1 1 2 4 (by show 1 < 2; omega) (by show 0 < 2; omega) (by show 1 < 2; omega)
    (by show 1 < ncart 1; decide) (by show 2 < ncart 2; decide) (by show 4 < ncart 3; decide)⟩

/-- range separation for the same shells -/
example : ∃ R ra ha rb hb rc hc, CartEnds3 (cartMem3 (call3 (-(1/2))) (ctr_pos3 _)) R realK lib ra ha ∧
    CartEnds3 (cartMem3 (call3 0) (ctr_pos3 _)) R realK lib rb hb ∧
    CartEnds3 (cartMem3 (call3 (1/2)) (ctr_pos3 _)) R realK lib rc hc := by
  obtain ⟨R, hR⟩ := exists_rys2
  obtain ⟨ra, ha, rb, hb, rc, hc, e1, e2, e3, _⟩ := C38_three_centre (L := lib) (R := R) (s := call3 0) (w := 1/2)
    (by norm_num) (cartMem3 (call3 (-(1/2))) (ctr_pos3 _)) (cartMem3 (call3 0) (ctr_pos3 _)) (cartMem3 (call3 (1/2)) (ctr_pos3 _))
    rfl (allKept3 _) (allKept3 _) (allKept3 _) (posExp3 _) (hR _) (hR _) (hR _) (lok3 _)
  exact ⟨R, ra, ha, rb, hb, rc, hc, e1, e2, e3⟩

/-- the permutation theorem applies to it -/
example : ∃ R ra ha rb hb, CartEnds3 (cartMem3 (call3 (-1/2)) (ctr_pos3 _)) R realK lib ra ha ∧
    CartEnds3 (cartMem3 (swapIJ3 (call3 (-1/2))) (ctr_pos3 (-1/2))) R realK lib rb hb := by
  obtain ⟨R, hR⟩ := exists_rys2
  obtain ⟨ra, ha, rb, hb, e1, e2, _⟩ := C29_three_centre_swap (L := lib) (R := R) (s := call3 (-1/2))
    (cartMem3 (call3 (-1/2)) (ctr_pos3 _)) (cartMem3 (swapIJ3 (call3 (-1/2))) (ctr_pos3 (-1/2))) rfl (posExp3 _) (hR _) (lok3 _)
  exact ⟨R, ra, ha, rb, hb, e1, e2⟩

/-- memory for a call with spherical output -/
noncomputable def sphMem3 (s : Call3 ℝ) (h : ∀ t, t < 4 → 0 < Call3.nctrs s t) : SphMem3 eriInt s where
  fpd := 1
  buf := 0
  size := cacheSize3c2e eriInt s
  empty := ⟨4, 0⟩
  fl := ⟨1, 0⟩
  loc := ⟨2, 0⟩
  counts := ⟨3, 0⟩
  out := ⟨5, 7⟩
  dims := none
  nd := fun t => nsph (Call3.ls s) t * Call3.nctrs s t
  h := memR
  hs := ⟨Or.inr (Or.inl rfl), fun t _ => Nat.succ_pos _, fun t ht => h t ht, fun t a b => by
    obtain rfl : t = 3 := by omega
    exact ⟨rfl, rfl, rfl⟩, fun t _ => le_refl _⟩
  M := ⟨by omega, fun k _ => by simp [memR], fun k _ => by simp [memR], by simp [memR], fun k _ => by simp [memR],
    fun k _ => by simp [memR], fun k _ => by simp [memR], by decide, by decide, by decide, by decide, by decide⟩
  hsize := le_refl _
  O := { h_dims := fun t _ => rfl
         h_dbuf := fun d hd => nomatch hd
         h_out := fun m _ => by simp [memR]
         h_obuf := by decide }
  tab := ⟨9, 0⟩
  hT := tabR
  htb := by decide
  hto := by decide

example : ∃ R has h', SphEnds3 (sphMem3 (call3 (1/3)) (ctr_pos3 _)) R realK lib has h' ∧
    (sphMem3 (call3 (1/3)) (ctr_pos3 _)).elem h' 0 1 1 0 4 1 6 = .val (repulsion (interaction (1/3))
      (fun r => sgto (call3 (1/3)).si 1 1 r * sgto (call3 (1/3)).sj 0 4 r) (sgto (call3 (1/3)).sk 1 6)) := by
  obtain ⟨R, hR⟩ := exists_rys2
  obtain ⟨has, h', h1, h2⟩ := C45_three_centre_spherical (L := lib) (R := R) (sphMem3 (call3 (1/3)) (ctr_pos3 _)) rfl (allKept3 _)
    (posExp3 _) (hR _) (lok3 _)
  exact ⟨R, has, h', h1, h2 1 0 1 1 4 6 (by show 1 < 2; omega) (by show 0 < 2; omega) (by show 1 < 2; omega)
    (by show 1 < 1*2+1; omega) (by show 4 < 2*2+1; omega) (by show 6 < 3*2+1; omega)⟩

/-- the loop theorem: its hypotheses hold for these shells -/
example : ∃ R : Rys2 ℝ, ∃ isI : Nat → Prop, ∀ h : Heap ℝ, CacheMem h 2 0 (cacheSize3c2e eriInt (call3 (-1))) isI →
    h.I ⟨4, 0⟩ = .val 1 → (∀ k, k < 4 → h.I ((⟨1, 0⟩ : Ptr) + k) ≠ .oob) → (∀ k, k < 12*136 → h.I ((⟨2, 0⟩ : Ptr) + k) ≠ .oob) →
    ∃ res h', run (loop3c2eRun eriInt (call3 (-1)) R realK lib 2 ⟨0, 0⟩ ⟨4, 0⟩ 0
        (2 * (((call3 (-1)).env eriInt).nf * 2 * 2 * 2 * 1)) ⟨1, 0⟩ ⟨2, 0⟩) h = some (res, h') := by
  obtain ⟨R, hR⟩ := exists_rys2
  exact ⟨R, C16_3c2e_loop (eri_eval3 (L := lib) (posExp3 _) (hR _)) (by omega) (le_refl 1) (ctr_pos3 _) (lok3 _)
    ⟨by decide, by decide, by decide⟩ (by decide) (by decide)⟩
end Eri3Demo

end Verif.Props
