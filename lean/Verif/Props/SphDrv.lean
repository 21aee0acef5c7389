import Verif.Lemmas.DrvSph
import Verif.Props.OvlpSym
import Verif.Props.Oper
import Verif.Props.Sph

/-!
C14, C17, C18, C19, C21, C22, C43 for spherical one-electron integrals.
-/
namespace Verif.Props
open Verif Verif.Model Verif.Prog Verif.Lemmas Verif.Spec MeasureTheory

section
variable {α : Type} [Field α] [LinearOrder α]

/-- Where and with what memory a one-electron integral is called: `di`, `dj` functions per contraction.  The cache has at
least the queried size. -/
structure Mem1e (X : Int1e α) (s : Call α) (di dj : Nat) where
  fpd : Nat
  buf : Nat
  size : Nat
  fl : Ptr
  loc : Ptr
  counts : Ptr
  out : Ptr
  dims : Option Ptr
  nd : Nat → Nat
  h : Heap α
  hs : Sizes 2 (two di dj) (two s.si.nctr s.sj.nctr) nd
  M : CallMem h fpd buf size fl loc counts
  hsize : cacheSize1e X s ≤ size
  O : OutArg h nd (fun t => two di dj t * two s.si.nctr s.sj.nctr t) X.nComp out dims buf fl loc counts

/-- content of the output array: component `n`, function `i` of contraction `ic`, function `j` of contraction `jc` -/
def Mem1e.elem {X : Int1e α} {s : Call α} {di dj : Nat} (A : Mem1e X s di dj) (h' : Heap α) (n ic i jc j : Nat) : Cell α :=
  h'.D (A.out + outAt A.nd n (ic*di+i) (jc*dj+j) 0 0)

/-- memory of a call with Cartesian output -/
abbrev CartMem (X : Int1e α) (s : Call α) := Mem1e X s (ncart s.si.l) (ncart s.sj.l)

/-- memory of a call with spherical output; the transformation table is stored at `tab` -/
structure SphMem (X : Int1e α) (s : Call α) extends Mem1e X s (s.si.l*2+1) (s.sj.l*2+1) where
  tab : Ptr
  hT : HoldsTab h tab
  htb : tab.buf ≠ buf
  hto : out.buf ≠ tab.buf

/-- the Cartesian call returns `has` and ends with memory `h'` -/
def CartEnds {X : Int1e α} {s : Call α} (A : CartMem X s) (K : Consts α) (L : MathLib α) (has : Bool) (h' : Heap α) : Prop :=
  run (drv1e X s K L A.fpd (fun _ _ => pure) (two (ncart s.si.l) (ncart s.sj.l)) A.out A.dims A.buf 0 A.fl A.loc A.counts) A.h
    = some (has, h')

/-- the spherical call returns `has` and ends with memory `h'` -/
def SphEnds {X : Int1e α} {s : Call α} (B : SphMem X s) (K : Consts α) (L : MathLib α) (has : Bool) (h' : Heap α) : Prop :=
  run (drv1e X s K L B.fpd (sphTrans1e B.tab B.fpd s.si.l s.sj.l) (two (s.si.l*2+1) (s.sj.l*2+1)) B.out B.dims B.buf 0
    B.fl B.loc B.counts) B.h = some (has, h')

/-- **C19**, whole calls: for every one-electron integral whose integrand evaluates correctly, the spherical integrals are the
Cartesian ones transformed by the table on both indices.  The memory of the two calls need not have anything in common. -/
theorem C19_one_electron {K : Consts α} {L : MathLib α} {X : Int1e α} {s : Call α} {w : Nat → Nat → Nat → α}
    (A : CartMem X s) (B : SphMem X s) (hK : EvalOK K L X s w) (hnc : 1 ≤ X.nComp) (hli : s.si.l ≤ 15) (hlj : s.sj.l ≤ 15) :
    ∃ ra ha rb hb, CartEnds A K L ra ha ∧ SphEnds B K L rb hb ∧
      ∃ x : Nat → Nat → Nat → Nat → Nat → α,
        (∀ n ic jc a b, n < X.nComp → ic < s.si.nctr → jc < s.sj.nctr → a < ncart s.si.l → b < ncart s.sj.l →
          A.elem ha n ic a jc b = .val (x n ic a jc b)) ∧
        (∀ n ic jc i j, n < X.nComp → ic < s.si.nctr → jc < s.sj.nctr → i < s.si.l*2+1 → j < s.sj.l*2+1 →
          B.elem hb n ic i jc j = .val (∑ a ∈ Finset.range (ncart s.si.l), ∑ b ∈ Finset.range (ncart s.sj.l),
            c2sCoef s.si.l i a * c2sCoef s.sj.l j b * x n ic a jc b)) := by
  obtain ⟨ra, ha, r1, v1, _⟩ := drv1e_cart A.M A.hsize A.hs A.O hK hnc hli hlj
  obtain ⟨rb, hb, r2, v2, _⟩ := drv1e_sph B.M B.hsize B.hs B.O B.hT B.htb B.hto hK hnc hli hlj
  refine ⟨ra, ha, rb, hb, r1, r2, fun n ic a jc b => loopVal K L X s w n ic jc (b*ncart s.si.l+a), ?_, ?_⟩
  · intro n ic jc a b h1 h2 h3 h4 h5
    exact v1 n ic jc a b h1 h2 h3 h4 h5
  · intro n ic jc i j h1 h2 h3 h4 h5
    exact v2 n ic jc i j h1 h2 h3 h4 h5

/-- **C14**, spherical one-electron integrals: with a cache of (at least) the queried size the call completes without
undefined behaviour, whatever the cache and the output array contain. -/
theorem C14_sph {K : Consts α} {L : MathLib α} {X : Int1e α} {s : Call α} {w : Nat → Nat → Nat → α}
    (B : SphMem X s) (hK : EvalOK K L X s w) (hnc : 1 ≤ X.nComp) (hli : s.si.l ≤ 15) (hlj : s.sj.l ≤ 15) :
    ∃ has h', SphEnds B K L has h' := by
  obtain ⟨rb, hb, r2, _⟩ := drv1e_sph B.M B.hsize B.hs B.O B.hT B.htb B.hto hK hnc hli hlj
  exact ⟨rb, hb, r2⟩

/-- **C18**, one-electron calls with spherical output: when 0 is returned the block is zero; in any case every element of the
block is overwritten, no double outside the block and the cache changes, and the new contents do not depend on the contents of
memory (`B` and `B'` differ in nothing but the memory). -/
theorem C18_one_electron_sph {K : Consts α} {L : MathLib α} {X : Int1e α} {s : Call α} {w : Nat → Nat → Nat → α}
    (B : SphMem X s) (hK : EvalOK K L X s w) (hnc : 1 ≤ X.nComp) (hli : s.si.l ≤ 15) (hlj : s.sj.l ≤ 15) :
    ∃ v : Nat → α, ∀ B' : SphMem X s, B'.nd = B.nd →
      ∃ has h', SphEnds B' K L has h' ∧
        (∀ m, InBlock B.nd (fun t => two (s.si.l*2+1) (s.sj.l*2+1) t * two s.si.nctr s.sj.nctr t) X.nComp m →
          h'.D (B'.out + m) = .val (v m)) ∧
        (has = false → ∀ m, InBlock B.nd (fun t => two (s.si.l*2+1) (s.sj.l*2+1) t * two s.si.nctr s.sj.nctr t) X.nComp m →
          v m = 0) ∧
        (∀ q, q.buf ≠ B'.buf → (∀ m, InBlock B.nd (fun t => two (s.si.l*2+1) (s.sj.l*2+1) t *
          two s.si.nctr s.sj.nctr t) X.nComp m → q ≠ B'.out + m) → h'.D q = B'.h.D q) := by
  obtain ⟨r0, h0, _, v0, _⟩ := drv1e_sph B.M B.hsize B.hs B.O B.hT B.htb B.hto hK hnc hli hlj
  refine ⟨fun m => match h0.D (B.out + m) with | .val x => x | _ => 0, fun B' hn => ?_⟩
  obtain ⟨r1, h1, e1, v1, z1, f1, _⟩ := drv1e_sph B'.M B'.hsize B'.hs B'.O B'.hT B'.htb B'.hto hK hnc hli hlj
  rw [hn] at v1 z1 f1
  have hv : ∀ m, InBlock B.nd (fun t => two (s.si.l*2+1) (s.sj.l*2+1) t * two s.si.nctr s.sj.nctr t) X.nComp m →
      h1.D (B'.out + m) = .val (match h0.D (B.out + m) with | .val x => x | _ => 0) := by
    intro m hm
    obtain ⟨n, ic, jc, kc, lc, i, j, k, x, a1, a2, a3, a4, a5, a6, a7, a8, a9, rfl⟩ :=
      inBlock_digits B.hs.nf_pos hm
    have hk : kc * two (s.si.l*2+1) (s.sj.l*2+1) 2 + k = 0 := by
      simp only [two] at a4 a8
      simp at a4 a8
      simp [a4, a8]
    have hx : lc * two (s.si.l*2+1) (s.sj.l*2+1) 3 + x = 0 := by
      simp only [two] at a5 a9
      simp at a5 a9
      simp [a5, a9]
    rw [hk, hx]
    have b1 := v1 n ic jc i j a1 a2 a3 a6 a7
    have b0 := v0 n ic jc i j a1 a2 a3 a6 a7
    exact b1.trans (by
      have e : h0.D (B.out + outAt B.nd n (ic * two (s.si.l*2+1) (s.sj.l*2+1) 0 + i) (jc * two (s.si.l*2+1) (s.sj.l*2+1) 1 + j) 0 0)
        = _ := b0
      rw [e])
  refine ⟨r1, h1, e1, hv, fun hf m hm => ?_, f1⟩
  have := (hv m hm).symm.trans (z1 hf m hm)
  exact Cell.val.inj this
end

/-- A function of a spherical basis: the transformed contracted Gaussian. -/
noncomputable def sgto (t : PShell ℝ) (ic i : Nat) : (Fin 3 → ℝ) → ℝ := fun r =>
  ∑ a ∈ Finset.range (ncart t.l), spNorm t.l * c2sCoef t.l i a * cgto t.nprim t.a t.c (centre t) ic (powers t.l a) r

/-- a Cartesian call in memory that is allocated but not initialised -/
def blankMem {α : Type} [Field α] [LinearOrder α] (X : Int1e α) (s : Call α) (h1 : 0 < s.si.nctr) (h2 : 0 < s.sj.nctr) : CartMem X s where
  fpd := 1
  buf := 0
  size := cacheSize1e X s
  fl := ⟨1, 0⟩
  loc := ⟨2, 0⟩
  counts := ⟨3, 0⟩
  out := ⟨5, 7⟩
  dims := none
  nd := fun t => two (ncart s.si.l) (ncart s.sj.l) t * two s.si.nctr s.sj.nctr t
  h := ⟨fun _ => .undef, fun _ => .undef⟩
  hs := by
    refine ⟨Or.inl rfl, fun t _ => ?_, fun t _ => ?_, fun t a b => ?_, fun t _ => le_refl _⟩
    · unfold two; split
      · exact ncart_pos _
      · split
        · exact ncart_pos _
        · omega
    · unfold two; split
      · exact h1
      · split
        · exact h2
        · omega
    · unfold two; simp [show t ≠ 0 by omega, show t ≠ 1 by omega]
  M := ⟨by omega, fun k _ => by simp, fun k _ => by simp, fun k _ => by simp,
    fun k _ => by simp, fun k _ => by simp, by decide, by decide⟩
  hsize := le_refl _
  O := { h_dims := fun t _ => rfl
         h_dims2 := fun d hd => nomatch hd
         h_dbuf := fun d hd => nomatch hd
         h_out := fun m _ => by simp
         h_obuf := by decide }

theorem integrable_cgto {si sj : PShell ℝ} (hpos : ∀ ip jp, ip < si.nprim → jp < sj.nprim → 0 < si.a ip + sj.a jp)
    (ic jc : Nat) (n m : Fin 3 → ℕ) : Integrable fun r => cgto si.nprim si.a si.c (centre si) ic n r *
      cgto sj.nprim sj.a sj.c (centre sj) jc m r := by
  unfold cgto
  simp_rw [Finset.sum_mul_sum]
  refine integrable_finset_sum _ fun ip hip => integrable_finset_sum _ fun jp hjp => ?_
  have := (integrable_gto_mul (hpos ip jp (Finset.mem_range.1 hip) (Finset.mem_range.1 hjp)) (centre si) (centre sj) n m).const_mul
    (si.c (si.nprim*ic+ip) * sj.c (sj.nprim*jc+jp))
  refine this.congr (Filter.Eventually.of_forall fun r => ?_)
  ring

theorem braket_sgto {si sj : PShell ℝ} (hpos : ∀ ip jp, ip < si.nprim → jp < sj.nprim → 0 < si.a ip + sj.a jp)
    (ic jc i j : Nat) : braket (sgto si ic i) (sgto sj jc j) =
      ∑ a ∈ Finset.range (ncart si.l), ∑ b ∈ Finset.range (ncart sj.l), c2sCoef si.l i a * c2sCoef sj.l j b *
        (spNorm si.l * spNorm sj.l * braket (cgto si.nprim si.a si.c (centre si) ic (powers si.l a))
          (cgto sj.nprim sj.a sj.c (centre sj) jc (powers sj.l b))) := by
  unfold braket sgto
  simp_rw [← integral_const_mul]
  have hint : ∀ a ∈ Finset.range (ncart si.l), ∀ b ∈ Finset.range (ncart sj.l), Integrable fun r =>
      c2sCoef si.l i a * c2sCoef sj.l j b * (spNorm si.l * spNorm sj.l *
        (cgto si.nprim si.a si.c (centre si) ic (powers si.l a) r *
          cgto sj.nprim sj.a sj.c (centre sj) jc (powers sj.l b) r)) := fun a _ b _ =>
    ((integrable_cgto hpos ic jc _ _).const_mul _).const_mul _
  have h2 : ∀ a ∈ Finset.range (ncart si.l), (∑ b ∈ Finset.range (ncart sj.l), ∫ r, 
      c2sCoef si.l i a * c2sCoef sj.l j b * (spNorm si.l * spNorm sj.l *
        (cgto si.nprim si.a si.c (centre si) ic (powers si.l a) r *
          cgto sj.nprim sj.a sj.c (centre sj) jc (powers sj.l b) r))) = ∫ r, ∑ b ∈ Finset.range (ncart sj.l),
      c2sCoef si.l i a * c2sCoef sj.l j b * (spNorm si.l * spNorm sj.l *
        (cgto si.nprim si.a si.c (centre si) ic (powers si.l a) r *
          cgto sj.nprim sj.a sj.c (centre sj) jc (powers sj.l b) r)) := fun a ha => (integral_finset_sum _ (hint a ha)).symm
  rw [Finset.sum_congr rfl h2, ← integral_finset_sum _ (fun a ha => integrable_finset_sum _ (hint a ha))]
  congr 1
  funext r
  rw [Finset.sum_mul_sum]
  refine Finset.sum_congr rfl (fun a _ => Finset.sum_congr rfl (fun b _ => ?_))
  ring

/-- **C21** int1e_ovlp_sph, no primitive pair screened: exactly the overlap of the two spherical functions. -/
theorem C21_overlap_spherical {L : MathLib ℝ} {s : Call ℝ} {mi mj : Nat → ℝ} (B : SphMem ovlpInt s) (hL : L.exp = Real.exp)
    (hi : MaxCoeff s.si mi) (hj : MaxCoeff s.sj mj)
    (hpos : ∀ ip jp, ip < s.si.nprim → jp < s.sj.nprim → 0 < s.si.a ip + s.sj.a jp)
    (hkept : ∀ ip jp, ip < s.si.nprim → jp < s.sj.nprim → Kept L s mi mj (s.si.l + s.sj.l) ip jp)
    (hli : s.si.l ≤ 15) (hlj : s.sj.l ≤ 15) :
    ∃ has h', SphEnds B realK L has h' ∧
      ∀ ic jc i j, ic < s.si.nctr → jc < s.sj.nctr → i < s.si.l*2+1 → j < s.sj.l*2+1 →
        B.elem h' 0 ic i jc j = .val (braket (sgto s.si ic i) (sgto s.sj jc j)) := by
  have n1 : 0 < s.si.nctr := B.hs.nctr_pos 0 (by omega)
  have n2 : 0 < s.sj.nctr := B.hs.nctr_pos 1 (by omega)
  let A := blankMem ovlpInt s n1 n2
  obtain ⟨ra, ha, rb, hb, eA, eB, x, vA, vB⟩ := C19_one_electron A B (ovlp_eval (L := L) hpos) (le_refl 1) hli hlj
  obtain ⟨rc, hc, eC, vC⟩ := C21_overlap_exact hL hi hj hpos hkept hli hlj A.hs A.M A.hsize A.O
  have hAC : ha = hc := by
    have e : some (ra, ha) = some (rc, hc) := eA.symm.trans eC
    simp only [Option.some.injEq, Prod.mk.injEq] at e
    exact e.2
  refine ⟨rb, hb, eB, fun ic jc i j h1 h2 h3 h4 => ?_⟩
  rw [vB 0 ic jc i j Nat.zero_lt_one h1 h2 h3 h4, braket_sgto hpos]
  congr 1
  refine Finset.sum_congr rfl fun a ha' => Finset.sum_congr rfl fun b hb' => ?_
  congr 1
  have c1 := vA 0 ic jc a b Nat.zero_lt_one h1 h2 (Finset.mem_range.1 ha') (Finset.mem_range.1 hb')
  have c2 := vC ic jc a b h1 h2 (Finset.mem_range.1 ha') (Finset.mem_range.1 hb')
  rw [← hAC] at c2
  exact Cell.val.inj (c1.symm.trans c2)

/-- **C22** int1e_ovlp_sph of shells (j,i) is the transpose of that of (i,j). -/
theorem C22_symmetric_spherical {L : MathLib ℝ} {s : Call ℝ} (A : SphMem ovlpInt s) (B : SphMem ovlpInt (swapCall s))
    (hL : L.exp = Real.exp)
    (hpos : ∀ ip jp, ip < s.si.nprim → jp < s.sj.nprim → 0 < s.si.a ip + s.sj.a jp)
    (hli : s.si.l ≤ 15) (hlj : s.sj.l ≤ 15) :
    ∃ ra rb h1 h2, SphEnds A realK L ra h1 ∧ SphEnds B realK L rb h2 ∧
      ∀ ic jc i j, ic < s.si.nctr → jc < s.sj.nctr → i < s.si.l*2+1 → j < s.sj.l*2+1 →
        ∃ x, A.elem h1 0 ic i jc j = .val x ∧ B.elem h2 0 jc j ic i = .val x := by
  have n1 : 0 < s.si.nctr := A.hs.nctr_pos 0 (by omega)
  have n2 : 0 < s.sj.nctr := A.hs.nctr_pos 1 (by omega)
  have hpos' : ∀ ip jp, ip < (swapCall s).si.nprim → jp < (swapCall s).sj.nprim → 0 < (swapCall s).si.a ip + (swapCall s).sj.a jp :=
    fun ip jp h1 h2 => by
      have := hpos jp ip h2 h1
      show 0 < s.sj.a ip + s.si.a jp
      rw [add_comm]; exact this
  let C := blankMem ovlpInt s n1 n2
  let D := blankMem ovlpInt (swapCall s) n2 n1
  obtain ⟨rc, hc, ra, h1, eC, eA, x, vC, vA⟩ := C19_one_electron C A (ovlp_eval (L := L) hpos) (le_refl 1) hli hlj
  obtain ⟨rd, hd, rb, h2, eD, eB, y, vD, vB⟩ := C19_one_electron D B (ovlp_eval (L := L) hpos') (le_refl 1) hlj hli
  obtain ⟨hc', hd', ⟨_, e1⟩, ⟨_, e2⟩, v⟩ := C22_symmetric
    (⟨C.fpd, C.buf, C.size, C.fl, C.loc, C.counts, C.out, C.dims, C.nd, C.h, C.hs, C.M, C.hsize, C.O⟩ : OvlpCall s)
    (⟨D.fpd, D.buf, D.size, D.fl, D.loc, D.counts, D.out, D.dims, D.nd, D.h, D.hs, D.M, D.hsize, D.O⟩ : OvlpCall (swapCall s))
    hL hpos hli hlj
  have f1 : hc = hc' := by
    have e := eC.symm.trans e1
    simp only [Option.some.injEq, Prod.mk.injEq] at e
    exact e.2
  have f2 : hd = hd' := by
    have e := eD.symm.trans e2
    simp only [Option.some.injEq, Prod.mk.injEq] at e
    exact e.2
  subst f1 f2
  refine ⟨ra, rb, h1, h2, eA, eB, fun ic jc i j a b c d => ⟨_, vA 0 ic jc i j Nat.zero_lt_one a b c d, ?_⟩⟩
  rw [vB 0 jc ic j i Nat.zero_lt_one b a d c, Finset.sum_comm]
  congr 1
  refine Finset.sum_congr rfl fun p hp => Finset.sum_congr rfl fun q hq => ?_
  have hp' := Finset.mem_range.1 hp
  have hq' := Finset.mem_range.1 hq
  obtain ⟨z, z1, z2⟩ := v ic jc p q a b hp' hq'
  have c1 := Cell.val.inj ((vC 0 ic jc p q Nat.zero_lt_one a b hp' hq').symm.trans z1)
  have c2 := Cell.val.inj ((vD 0 jc ic q p Nat.zero_lt_one b a hq' hp').symm.trans z2)
  show c2sCoef s.sj.l j q * c2sCoef s.si.l i p * y 0 jc q ic p = _
  rw [c1, c2]
  ring

/-- **C43**, spherical output, no primitive pair screened. -/
theorem C43_operators_spherical {name : String} {G : Gen1e} {D : Def1e} (hG : (name, G) ∈ Auto.all1e) (hD : (name, D) ∈ defs1e)
    {L : MathLib ℝ} {s : Call ℝ} {mi mj : Nat → ℝ} {O : Nat → ℝ} (B : SphMem (G.int O) s) (hL : L.exp = Real.exp)
    (hi : MaxCoeff s.si mi) (hj : MaxCoeff s.sj mj)
    (hpos : ∀ ip jp, ip < s.si.nprim → jp < s.sj.nprim → 0 < s.si.a ip + s.sj.a jp)
    (hkept : ∀ ip jp, ip < s.si.nprim → jp < s.sj.nprim →
      Kept L s mi mj (s.si.l + G.ng.i + (s.sj.l + G.ng.j)) ip jp)
    (hli : s.si.l ≤ 15) (hlj : s.sj.l ≤ 15) :
    ∃ has h', SphEnds B realK L has h' ∧
      ∀ comp ic jc i j (hc : comp < D.out.length), ic < s.si.nctr → jc < s.sj.nctr → i < s.si.l*2+1 → j < s.sj.l*2+1 →
        ∃ v : ℝ, B.elem h' comp ic i jc j = .val v ∧
          (v : ℂ) = ((D.num : ℂ) / (D.den : ℂ)) * ∑ a ∈ Finset.range (ncart s.si.l), ∑ b ∈ Finset.range (ncart s.sj.l),
            ((spNorm s.si.l * c2sCoef s.si.l i a : ℝ) : ℂ) * ((spNorm s.sj.l * c2sCoef s.sj.l j b : ℝ) : ℂ) *
            Op.val (fun k => O k) (centre s.si) (centre s.sj)
              (cgto s.si.nprim s.si.a s.si.c (centre s.si) ic (powers s.si.l a))
              (cgto s.sj.nprim s.sj.a s.sj.c (centre s.sj) jc (powers s.sj.l b)) D.out[comp] := by
  have n1 : 0 < s.si.nctr := B.hs.nctr_pos 0 (by omega)
  have n2 : 0 < s.sj.nctr := B.hs.nctr_pos 1 (by omega)
  obtain ⟨ws, hOK, hnum, hden, hd0, hnc, hcomp⟩ := matches_unfold (matches_of hG hD)
  let A := blankMem (G.int O) s n1 n2
  have AO := A.O
  have hnc' : (G.int O).nComp = D.out.length := hnc
  rw [hnc'] at AO
  obtain ⟨ra, ha, rb, hb, eA, eB, x, vA, vB⟩ := C19_one_electron A B (gen_eval hOK (L := L) hpos)
    (Nat.pos_of_ne_zero hOK.pos) hli hlj
  obtain ⟨rc, hc, eC, vC⟩ := C43_operators_exact hG hD (O := O) hL hi hj hpos hkept hli hlj A.hs A.M A.hsize AO
  have hAC : ha = hc := by
    have e : some (ra, ha) = some (rc, hc) := eA.symm.trans eC
    simp only [Option.some.injEq, Prod.mk.injEq] at e
    exact e.2
  refine ⟨rb, hb, eB, fun comp ic jc i j hc' h1 h2 h3 h4 => ⟨_, vB comp ic jc i j (by rw [hnc']; exact hc') h1 h2 h3 h4, ?_⟩⟩
  push_cast
  rw [Finset.mul_sum]
  refine Finset.sum_congr rfl fun a ha' => ?_
  rw [Finset.mul_sum]
  refine Finset.sum_congr rfl fun b hb' => ?_
  have c1 := vA comp ic jc a b (by rw [hnc']; exact hc') h1 h2 (Finset.mem_range.1 ha') (Finset.mem_range.1 hb')
  obtain ⟨v, c2, c3⟩ := vC comp ic jc a b hc' h1 h2 (Finset.mem_range.1 ha') (Finset.mem_range.1 hb')
  rw [← hAC] at c2
  have := Cell.val.inj (c1.symm.trans c2)
  rw [this, c3]
  push_cast
  ring

/-! ### The hypotheses can be met -/
namespace SphDemo
open OvlpDemo

/-- everything allocated; the table in buffer 9 -/
noncomputable def memR : Heap ℝ where
  D q := if q.buf = 9 then .val (flat q.off : ℚ) else .undef
  I _ := .undef

theorem c2sCoef_cast (l m k : Nat) : ((c2sCoef l m k : ℚ) : ℝ) = c2sCoef l m k := by
  unfold c2sCoef
  generalize (c2sRows.getD l []).getD m [] = r
  induction r with
  | nil => simp [rowCoef]
  | cons e r ih =>
    unfold rowCoef
    split
    · unfold decVal; push_cast; rfl
    · exact ih

theorem tabR : HoldsTab memR ⟨9, 0⟩ := by
  intro l hl x hx
  show memR.D ⟨9, 0 + c2sOff.getD l 0 + x⟩ = _
  have e := level_eq hx 15 (by omega) (by omega)
  rw [Nat.zero_add]
  show Cell.val ((flat (c2sOff.getD l 0 + x) : ℚ) : ℝ) = _
  unfold flat
  rw [e, Nat.add_sub_cancel_left, c2sCoef_cast]

noncomputable def sphMem (X : Int1e ℝ) (s : Call ℝ) (h1 : 0 < s.si.nctr) (h2 : 0 < s.sj.nctr) : SphMem X s where
  fpd := 1
  buf := 0
  size := cacheSize1e X s
  fl := ⟨1, 0⟩
  loc := ⟨2, 0⟩
  counts := ⟨3, 0⟩
  out := ⟨5, 7⟩
  dims := none
  nd := fun t => two (s.si.l*2+1) (s.sj.l*2+1) t * two s.si.nctr s.sj.nctr t
  h := memR
  hs := by
    refine ⟨Or.inl rfl, fun t _ => ?_, fun t _ => ?_, fun t a b => ?_, fun t _ => le_refl _⟩
    · unfold two; split
      · omega
      · split <;> omega
    · unfold two; split
      · exact h1
      · split
        · exact h2
        · omega
    · unfold two; simp [show t ≠ 0 by omega, show t ≠ 1 by omega]
  M := ⟨by omega, fun k _ => by simp [memR], fun k _ => by simp [memR], fun k _ => by simp [memR],
    fun k _ => by simp [memR], fun k _ => by simp [memR], by decide, by decide⟩
  hsize := le_refl _
  O := { h_dims := fun t _ => rfl
         h_dims2 := fun d hd => nomatch hd
         h_dbuf := fun d hd => nomatch hd
         h_out := fun m _ => by simp [memR]
         h_obuf := by decide }
  tab := ⟨9, 0⟩
  hT := tabR
  htb := by decide
  hto := by decide

/-- the second contraction of p_y with the first contraction of the last d function -/
example : ∃ has h', SphEnds (sphMem ovlpInt call (by decide) (by decide)) realK lib has h' ∧
    (sphMem ovlpInt call (by decide) (by decide)).elem h' 0 1 1 0 4 = .val (braket (sgto call.si 1 1) (sgto call.sj 0 4)) := by
  obtain ⟨has, h', h1, h2⟩ := C21_overlap_spherical (L := lib) (s := call) (sphMem ovlpInt call (by decide) (by decide)) rfl
    maxc.1 maxc.2 (fun _ _ _ _ => by show (0:ℝ) < 1 + 1; norm_num) (fun ip jp _ _ => kept ip jp) (by decide) (by decide)
  exact ⟨has, h', h1, h2 1 0 1 4 (by decide) (by decide) (by decide) (by decide)⟩

example : ∃ ra rb h1 h2, SphEnds (sphMem ovlpInt call (by decide) (by decide)) realK lib ra h1 ∧
    SphEnds (sphMem ovlpInt (swapCall call) (by decide) (by decide)) realK lib rb h2 ∧
    ∃ x, (sphMem ovlpInt call (by decide) (by decide)).elem h1 0 1 1 0 4 = .val x ∧
      (sphMem ovlpInt (swapCall call) (by decide) (by decide)).elem h2 0 0 4 1 1 = .val x := by
  obtain ⟨ra, rb, h1, h2, a, b, c⟩ := C22_symmetric_spherical (L := lib) (s := call) (sphMem ovlpInt call (by decide) (by decide))
    (sphMem ovlpInt (swapCall call) (by decide) (by decide)) rfl
    (fun _ _ _ _ => by show (0:ℝ) < 1 + 1; norm_num) (by decide) (by decide)
  exact ⟨ra, rb, h1, h2, a, b, c 1 0 1 4 (by decide) (by decide) (by decide) (by decide)⟩
end SphDemo

end Verif.Props
