import Verif.Spec.Quad
import Verif.Lemmas.Drv4c1e
import Verif.Props.EriExact
import Verif.Props.Int3c1e

/-!
C16 — cache of the one-electron integrals over four functions: what is needed, and that the queried size is not always enough.
C53 — the values of the one-electron integrals over four functions.
-/
namespace Verif.Props
open Verif Verif.Model Verif.Prog Verif.Lemmas Verif.Spec MeasureTheory

section
variable {α : Type} [Field α] [LinearOrder α]

/-- Where and with what memory an integral over four functions is called: `d t` functions per contraction of shell `t`.  The
cache has at least the queried size (`hquery`) and also at least the size the loop function uses (`hneed`): the first does not
imply the second, see `C16_4c1e_overrun` and `C16_4c1e_fits`. -/
structure Mem41 (s : Call2 α) (d : Nat → Nat) where
  fpd : Nat
  buf : Nat
  size : Nat
  empty : Ptr
  fl : Ptr
  loc : Ptr
  counts : Ptr
  out : Ptr
  dims : Option Ptr
  nd : Nat → Nat
  h : Heap α
  hs : Sizes 4 d (Call2.nctrs s) nd
  M : CallMem2 h fpd buf size empty fl loc counts
  hneed : need4c1e fpd s ≤ size
  hquery : cacheSize4c1e s ≤ size
  O : OutArg2 4 h nd (fun t => d t * Call2.nctrs s t) 1 out dims buf empty fl loc counts

/-- content of the output array: function `i` of contraction `ic` of the first shell and so on -/
def Mem41.elem {s : Call2 α} {d : Nat → Nat} (A : Mem41 s d) (h' : Heap α)
    (ic i jc j kc k lc l : Nat) : Cell α :=
  h'.D (A.out + outAt A.nd 0 (ic*d 0+i) (jc*d 1+j) (kc*d 2+k) (lc*d 3+l))

/-- memory of a call with Cartesian output -/
abbrev CartMem41 (s : Call2 α) := Mem41 s (ncar (Call2.ls s))

/-- memory of a call with spherical output; the transformation table is stored at `tab` -/
structure SphMem41 (s : Call2 α) extends Mem41 s (nsph (Call2.ls s)) where
  tab : Ptr
  hT : HoldsTab h tab
  htb : tab.buf ≠ buf
  hto : out.buf ≠ tab.buf

/-- the Cartesian call returns `has` and ends with memory `h'` -/
def CartEnds41 {s : Call2 α} (A : CartMem41 s) (K : Consts α) (L : MathLib α) (has : Bool) (h' : Heap α) : Prop :=
  run (drv4c1e s K L A.fpd (fun _ _ => pure) (ncar (Call2.ls s)) A.out A.dims A.buf 0 A.empty A.fl A.loc A.counts) A.h
    = some (has, h')

/-- the spherical call returns `has` and ends with memory `h'` -/
def SphEnds41 {s : Call2 α} (B : SphMem41 s) (K : Consts α) (L : MathLib α) (has : Bool) (h' : Heap α) : Prop :=
  run (drv4c1e s K L B.fpd (sphTrans2e B.tab B.fpd s.si.l s.sj.l s.sk.l s.sl.l) (nsph (Call2.ls s)) B.out B.dims B.buf 0
    B.empty B.fl B.loc B.counts) B.h = some (has, h')

variable {K : Consts α} {L : MathLib α} {s : Call2 α} {w : Nat → Nat → Nat → Nat → Nat → α}

theorem SphMem41.room (B : SphMem41 s) : s.env4.nf * s.nctr + s.env4.nf * 4 ≤ B.size := by
  refine le_trans ?_ B.hquery
  unfold cacheSize4c1e
  refine le_trans ?_ (le_max_right _ _)
  have : s.env4.nf * s.si.nctr * s.sj.nctr * s.sk.nctr * s.sl.nctr = s.env4.nf * s.nctr := by
    unfold Call2.nctr; ring
  rw [this]
  omega

/-- **C16**, integrals over four functions with Cartesian output: with a cache of the size `need4c1e` the call completes without
undefined behaviour, whatever the cache and the output array contain. -/
theorem C16_4c1e_cart (A : CartMem41 s) (hK : EvalOK4 K L s w) (hl : ∀ t, t < 4 → Call2.ls s t ≤ 15) :
    ∃ has h', CartEnds41 A K L has h' := by
  obtain ⟨has, h', hr, _⟩ := drv4c1e_cart A.M A.hneed A.hs A.O hK hl
  exact ⟨has, h', hr⟩

/-- **C16**, integrals over four functions with spherical output. -/
theorem C16_4c1e_sph (B : SphMem41 s) (hK : EvalOK4 K L s w) (hl : ∀ t, t < 4 → Call2.ls s t ≤ 15) :
    ∃ has h', SphEnds41 B K L has h' := by
  obtain ⟨has, h', hr, _⟩ := drv4c1e_sph B.M B.hneed B.room B.hs B.O B.hT B.htb B.hto hK hl
  exact ⟨has, h', hr⟩

/-- **C18**, integrals over four functions with Cartesian output: when 0 is returned the block is zero; in any case every element
of the block is overwritten, no double outside the block and the cache changes, and the new contents do not depend on the
contents of memory (`A` and `A'` differ in nothing but the memory). -/
theorem C18_4c1e_cart (A : CartMem41 s) (hK : EvalOK4 K L s w) (hl : ∀ t, t < 4 → Call2.ls s t ≤ 15) :
    ∃ v : Nat → α, ∀ A' : CartMem41 s, A'.nd = A.nd →
      ∃ has h', CartEnds41 A' K L has h' ∧
        (∀ m, InBlock A.nd (fun t => ncar (Call2.ls s) t * Call2.nctrs s t) 1 m → h'.D (A'.out + m) = .val (v m)) ∧
        (has = false → ∀ m, InBlock A.nd (fun t => ncar (Call2.ls s) t * Call2.nctrs s t) 1 m → v m = 0) ∧
        (∀ q, q.buf ≠ A'.buf → (∀ m, InBlock A.nd (fun t => ncar (Call2.ls s) t * Call2.nctrs s t) 1 m →
          q ≠ A'.out + m) → h'.D q = A'.h.D q) := by
  obtain ⟨r0, h0, _, v0, _⟩ := drv4c1e_cart A.M A.hneed A.hs A.O hK hl
  refine ⟨fun m => match h0.D (A.out + m) with | .val x => x | _ => 0, fun B hn => ?_⟩
  obtain ⟨r1, h1, e1, v1, z1, f1, _⟩ := drv4c1e_cart B.M B.hneed B.hs B.O hK hl
  rw [hn] at v1 z1 f1
  have hv : ∀ m, InBlock A.nd (fun t => ncar (Call2.ls s) t * Call2.nctrs s t) 1 m →
      h1.D (B.out + m) = .val (match h0.D (A.out + m) with | .val x => x | _ => 0) := by
    intro m hm
    obtain ⟨n, ic, jc, kc, lc, i, j, k, x, a1, a2, a3, a4, a5, a6, a7, a8, a9, rfl⟩ := inBlock_digits A.hs.nf_pos hm
    have b0 := v0 n ic jc kc lc i j k x a1 a2 a3 a4 a5 a6 a7 a8 a9
    have b1 := v1 n ic jc kc lc i j k x a1 a2 a3 a4 a5 a6 a7 a8 a9
    refine b1.trans ?_
    have e : h0.D (A.out + outAt A.nd n (ic * ncar (Call2.ls s) 0 + i) (jc * ncar (Call2.ls s) 1 + j)
      (kc * ncar (Call2.ls s) 2 + k) (lc * ncar (Call2.ls s) 3 + x)) = _ := b0
    rw [e]
  refine ⟨r1, h1, e1, hv, fun hf m hm => ?_, f1.1⟩
  exact Cell.val.inj ((hv m hm).symm.trans (z1 hf m hm))

/-- **C18**, integrals over four functions with spherical output. -/
theorem C18_4c1e_sph (A : SphMem41 s) (hK : EvalOK4 K L s w) (hl : ∀ t, t < 4 → Call2.ls s t ≤ 15) :
    ∃ v : Nat → α, ∀ A' : SphMem41 s, A'.nd = A.nd →
      ∃ has h', SphEnds41 A' K L has h' ∧
        (∀ m, InBlock A.nd (fun t => nsph (Call2.ls s) t * Call2.nctrs s t) 1 m → h'.D (A'.out + m) = .val (v m)) ∧
        (has = false → ∀ m, InBlock A.nd (fun t => nsph (Call2.ls s) t * Call2.nctrs s t) 1 m → v m = 0) ∧
        (∀ q, q.buf ≠ A'.buf → (∀ m, InBlock A.nd (fun t => nsph (Call2.ls s) t * Call2.nctrs s t) 1 m →
          q ≠ A'.out + m) → h'.D q = A'.h.D q) := by
  obtain ⟨r0, h0, _, v0, _⟩ := drv4c1e_sph A.M A.hneed A.room A.hs A.O A.hT A.htb A.hto hK hl
  refine ⟨fun m => match h0.D (A.out + m) with | .val x => x | _ => 0, fun B hn => ?_⟩
  obtain ⟨r1, h1, e1, v1, z1, f1, _⟩ := drv4c1e_sph B.M B.hneed B.room B.hs B.O B.hT B.htb B.hto hK hl
  rw [hn] at v1 z1 f1
  have hv : ∀ m, InBlock A.nd (fun t => nsph (Call2.ls s) t * Call2.nctrs s t) 1 m →
      h1.D (B.out + m) = .val (match h0.D (A.out + m) with | .val x => x | _ => 0) := by
    intro m hm
    obtain ⟨n, ic, jc, kc, lc, i, j, k, x, a1, a2, a3, a4, a5, a6, a7, a8, a9, rfl⟩ := inBlock_digits A.hs.nf_pos hm
    have b0 := v0 n ic jc kc lc i j k x a1 a2 a3 a4 a5 a6 a7 a8 a9
    have b1 := v1 n ic jc kc lc i j k x a1 a2 a3 a4 a5 a6 a7 a8 a9
    refine b1.trans ?_
    have e : h0.D (A.out + outAt A.nd n (ic * nsph (Call2.ls s) 0 + i) (jc * nsph (Call2.ls s) 1 + j)
      (kc * nsph (Call2.ls s) 2 + k) (lc * nsph (Call2.ls s) 3 + x)) = _ := b0
    rw [e]
  refine ⟨r1, h1, e1, hv, fun hf m hm => ?_, f1.1⟩
  exact Cell.val.inj ((hv m hm).symm.trans (z1 hf m hm))

/-- **C19**, integrals over four functions: the spherical integrals are the Cartesian ones transformed by the table on all four
indices.  The memory of the two calls need not have anything in common. -/
theorem C19_4c1e (A : CartMem41 s) (B : SphMem41 s) (hK : EvalOK4 K L s w) (hl : ∀ t, t < 4 → Call2.ls s t ≤ 15) :
    ∃ ra ha rb hb, CartEnds41 A K L ra ha ∧ SphEnds41 B K L rb hb ∧
      ∃ x : Nat → Nat → Nat → Nat → Nat → Nat → Nat → Nat → α,
        (∀ ic jc kc lc a b c d, ic < s.si.nctr → jc < s.sj.nctr → kc < s.sk.nctr → lc < s.sl.nctr →
          a < ncart s.si.l → b < ncart s.sj.l → c < ncart s.sk.l → d < ncart s.sl.l →
          A.elem ha ic a jc b kc c lc d = .val (x ic a jc b kc c lc d)) ∧
        (∀ ic jc kc lc i j k l, ic < s.si.nctr → jc < s.sj.nctr → kc < s.sk.nctr → lc < s.sl.nctr →
          i < s.si.l*2+1 → j < s.sj.l*2+1 → k < s.sk.l*2+1 → l < s.sl.l*2+1 →
          B.elem hb ic i jc j kc k lc l = .val (∑ a ∈ Finset.range (ncart s.si.l), ∑ b ∈ Finset.range (ncart s.sj.l),
            ∑ c ∈ Finset.range (ncart s.sk.l), ∑ d ∈ Finset.range (ncart s.sl.l),
            c2sCoef s.si.l i a * c2sCoef s.sj.l j b * c2sCoef s.sk.l k c * c2sCoef s.sl.l l d * x ic a jc b kc c lc d)) := by
  obtain ⟨ra, ha, r1, v1, _⟩ := drv4c1e_cart A.M A.hneed A.hs A.O hK hl
  obtain ⟨rb, hb, r2, v2, _⟩ := drv4c1e_sph B.M B.hneed B.room B.hs B.O B.hT B.htb B.hto hK hl
  refine ⟨ra, ha, rb, hb, r1, r2, fun ic a jc b kc c lc d =>
    loopVal4 K L s w 0 ic jc kc lc (pos4c (ncar (Call2.ls s)) a b c d), ?_, ?_⟩
  · intro ic jc kc lc a b c d a2 a3 a4 a5 a6 a7 a8 a9
    exact v1 0 ic jc kc lc a b c d Nat.zero_lt_one a2 a3 a4 a5 a6 a7 a8 a9
  · intro ic jc kc lc a b c d a2 a3 a4 a5 a6 a7 a8 a9
    exact v2 0 ic jc kc lc a b c d Nat.zero_lt_one a2 a3 a4 a5 a6 a7 a8 a9
end

/-! ### Size of the cache -/

theorem two_ncart (n : Nat) : 2 * ncart n = (n+1)*(n+2) := by
  unfold ncart
  have : 2 ∣ (n+1)*(n+2) := by
    rcases Nat.even_or_odd n with ⟨k, hk⟩ | ⟨k, hk⟩
    · exact Dvd.dvd.mul_left ⟨k+1, by omega⟩ _
    · exact Dvd.dvd.mul_right ⟨k+1, by omega⟩ _
  omega

theorem four_pair_le (i j : Nat) : (if i > j then (i+j+1) * (j+1) else (i+1) * (i+j+1)) ≤ ncart i * ncart j := by
  have hi := two_ncart i
  have hj := two_ncart j
  have key : ∀ x y : Nat, y ≤ x → 4 * ((x+y+1) * (y+1)) ≤ ((x+1)*(x+2)) * ((y+1)*(y+2)) := by
    intro x y h
    obtain ⟨t, rfl⟩ := Nat.exists_eq_add_of_le h
    nlinarith [Nat.zero_le (y*t), Nat.zero_le (y*y), Nat.zero_le (t*t), Nat.zero_le (y*y*t), Nat.zero_le (y*t*t), Nat.zero_le (y*y*y),
      Nat.zero_le (y*y*y*y), Nat.zero_le (y*y*y*t), Nat.zero_le (y*y*t*t)]
  have e : 4 * (ncart i * ncart j) = ((i+1)*(i+2)) * ((j+1)*(j+2)) := by
    rw [← hi, ← hj]; ring
  split
  · have := key i j (by omega)
    omega
  · have := key j i (by omega)
    have e2 : (j+i+1) * (i+1) = (i+1) * (i+j+1) := by ring
    have e3 : ((j+1)*(j+2)) * ((i+1)*(i+2)) = ((i+1)*(i+2)) * ((j+1)*(j+2)) := by ring
    rw [e2, e3] at this
    omega

theorem ncart_mul_ge (i j : Nat) : ncart (i+j) ≤ ncart i * ncart j := by
  have hi := two_ncart i
  have hj := two_ncart j
  have hij := two_ncart (i+j)
  have e : 4 * (ncart i * ncart j) = ((i+1)*(i+2)) * ((j+1)*(j+2)) := by
    rw [← hi, ← hj]; ring
  have : 2 * ((i+j+1)*(i+j+2)) ≤ ((i+1)*(i+2)) * ((j+1)*(j+2)) := by
    nlinarith [Nat.zero_le (i*j), Nat.zero_le (i*i*j), Nat.zero_le (i*j*j), Nat.zero_le (i*i*j*j)]
  omega

/-- **C16**, integrals over four functions: a condition under which the queried size suffices.  It holds, for instance, for four
uncontracted shells, whatever their angular momenta. -/
theorem C16_4c1e_fits {α : Type} (s : Call2 α) {fpd : Nat} (hf : 0 < fpd)
    (h : s.si.nprim + s.sj.nprim + s.sk.nprim + s.sl.nprim + s.si.nprim * s.si.nctr + s.sj.nprim * s.sj.nctr +
        s.sk.nprim * s.sk.nctr + s.sl.nprim * s.sl.nctr +
        (s.si.nctr + s.si.nctr*s.sj.nctr + s.si.nctr*s.sj.nctr*s.sk.nctr + s.si.nctr*s.sj.nctr*s.sk.nctr*s.sl.nctr) *
          (ncart s.si.l * ncart s.sj.l * ncart s.sk.l * ncart s.sl.l) ≤
      48 * (ncart s.si.l * ncart s.sj.l * ncart s.sk.l * ncart s.sl.l)) :
    need4c1e fpd s ≤ cacheSize4c1e s := by
  have enf : s.env4.nf = ncart s.si.l * ncart s.sj.l * ncart s.sk.l * ncart s.sl.l := by
    show lenCart s.si.l * lenCart s.sk.l * lenCart s.sl.l * lenCart s.sj.l = _
    simp only [lenCart_eq]
    ring
  rw [← enf] at h
  have d1 := dblOf_le hf (s.env4.nf * 3)
  have d2 := dblOf_le hf s.tblLen4
  have hg : s.env4.g_size ≤ s.env4.nf := by
    have e1 : s.env4.g_size = (if s.si.l > s.sj.l then (s.si.l+s.sj.l+1) * (s.sj.l+1) else (s.si.l+1) * (s.si.l+s.sj.l+1)) *
        (if s.sk.l > s.sl.l then (s.sk.l+s.sl.l+1) * (s.sl.l+1) else (s.sk.l+1) * (s.sk.l+s.sl.l+1)) := by
      have e0 : s.env4.g_size = dimA s.si.l s.sj.l * dimA s.sk.l s.sl.l * dimB s.sk.l s.sl.l * dimB s.si.l s.sj.l := rfl
      rw [e0]
      unfold dimA dimB
      split <;> split <;> ring
    rw [e1, enf]
    calc _ ≤ (ncart s.si.l * ncart s.sj.l) * (ncart s.sk.l * ncart s.sl.l) :=
          Nat.mul_le_mul (four_pair_le _ _) (four_pair_le _ _)
      _ = _ := by ring
  have hb : bSize4 s.env4 ≤ 2 * s.env4.nf := by
    have e1 : bSize4 s.env4 = (s.si.l + s.sj.l + (s.sk.l + s.sl.l) + 1) * (max (s.si.l + s.sj.l) (s.sk.l + s.sl.l) + 1) := rfl
    have h2 := two_ncart (s.si.l + s.sj.l + (s.sk.l + s.sl.l))
    have h3 : ncart (s.si.l + s.sj.l + (s.sk.l + s.sl.l)) ≤ s.env4.nf := by
      rw [enf]
      calc _ ≤ ncart (s.si.l + s.sj.l) * ncart (s.sk.l + s.sl.l) := ncart_mul_ge _ _
        _ ≤ (ncart s.si.l * ncart s.sj.l) * (ncart s.sk.l * ncart s.sl.l) := Nat.mul_le_mul (ncart_mul_ge _ _) (ncart_mul_ge _ _)
        _ = _ := by ring
    rw [e1]
    refine le_trans (Nat.mul_le_mul_left _ (show _ ≤ s.si.l + s.sj.l + (s.sk.l + s.sl.l) + 2 by omega)) ?_
    rw [← h2]
    omega
  unfold need4c1e posG4 posTbl4 cacheSize4c1e
  dsimp only
  refine le_trans ?_ (le_max_right _ _)
  unfold Call2.len4 Call2.nctr
  dsimp only
  have e2 : s.leng4 = 6 * s.env4.g_size := by show s.env4.g_size * 3 * (2^0+1) = _; ring
  have d2' : dblOf fpd s.tblLen4 ≤ s.si.nprim + s.sj.nprim + s.sk.nprim + s.sl.nprim + s.si.nprim * s.si.nctr +
    s.sj.nprim * s.sj.nctr + s.sk.nprim * s.sk.nctr + s.sl.nprim * s.sl.nctr := d2
  generalize dblOf fpd s.tblLen4 = t at *
  generalize s.env4.nf = nf at *
  have e3 : (s.si.nctr + s.si.nctr*s.sj.nctr + s.si.nctr*s.sj.nctr*s.sk.nctr + s.si.nctr*s.sj.nctr*s.sk.nctr*s.sl.nctr) * nf =
      nf * s.si.nctr + nf * s.si.nctr * s.sj.nctr + nf * s.si.nctr * s.sj.nctr * s.sk.nctr +
        nf * (s.si.nctr * s.sj.nctr * s.sk.nctr * s.sl.nctr) := by ring
  have e4 : nf * s.si.nctr * s.sj.nctr * s.sk.nctr * s.sl.nctr = nf * (s.si.nctr * s.sj.nctr * s.sk.nctr * s.sl.nctr) := by ring
  rw [e3] at h
  rw [e4, e2]
  omega

/-! ### Values -/

/-- the exponents are positive -/
structure PosExp41 (s : Call2 ℝ) : Prop where
  i : ∀ p, p < s.si.nprim → 0 < s.si.a p
  j : ∀ p, p < s.sj.nprim → 0 < s.sj.a p
  k : ∀ p, p < s.sk.nprim → 0 < s.sk.a p
  l : ∀ p, p < s.sl.nprim → 0 < s.sl.a p

theorem eval41 {L : MathLib ℝ} {s : Call2 ℝ} (hp : PosExp41 s) : EvalOK4 realK L s (w4c1e L s) :=
  evalOK_4c1e fun ip jp kp lp h1 h2 h3 h4 => by
    have := hp.i ip h1
    have := hp.j jp h2
    have := hp.k kp h3
    have := hp.l lp h4
    positivity

/-- the product of four primitives -/
theorem gto_mul4 {a b c d : ℝ} (hp : a + b + c + d ≠ 0) (A B C D : Fin 3 → ℝ) (n m l o : Fin 3 → ℕ) (r : Fin 3 → ℝ) :
    gto a A n r * gto b B m r * gto c C l r * gto d D o r = Real.exp (-quadExponent a b c d A B C D) *
      pg (a+b+c+d) (fun k => (a*A k+b*B k+c*C k+d*D k)/(a+b+c+d))
        (fun k => pq (A k) (B k) (n k) (m k) * pq (C k) (D k) (l k) (o k)) r := by
  have he : -quadExponent a b c d A B C D =
      ∑ k, -((a*b*(A k - B k)^2 + a*c*(A k - C k)^2 + a*d*(A k - D k)^2 + b*c*(B k - C k)^2 + b*d*(B k - D k)^2 +
        c*d*(C k - D k)^2)/(a+b+c+d)) := by
    unfold quadExponent
    rw [Finset.sum_neg_distrib, ← Finset.sum_div]
    simp only [Finset.sum_add_distrib, Finset.mul_sum]
  rw [he, Real.exp_sum, gto_prod, gto_prod, gto_prod, gto_prod, ← Finset.prod_mul_distrib, ← Finset.prod_mul_distrib,
    ← Finset.prod_mul_distrib, pg, ← Finset.prod_mul_distrib]
  refine Finset.prod_congr rfl (fun k _ => ?_)
  simp only [pq, gto1, Polynomial.eval_mul, Polynomial.eval_pow, Polynomial.eval_sub, Polynomial.eval_X,
    Polynomial.eval_C]
  have e : Real.exp (-a*(r k - A k)^2) * Real.exp (-b*(r k - B k)^2) * Real.exp (-c*(r k - C k)^2) * Real.exp (-d*(r k - D k)^2) =
      Real.exp (-((a*b*(A k - B k)^2 + a*c*(A k - C k)^2 + a*d*(A k - D k)^2 + b*c*(B k - C k)^2 + b*d*(B k - D k)^2 +
        c*d*(C k - D k)^2)/(a+b+c+d))) *
        Real.exp (-(a+b+c+d)*(r k - (a*A k+b*B k+c*C k+d*D k)/(a+b+c+d))^2) := by
    rw [← Real.exp_add, ← Real.exp_add, ← Real.exp_add, ← Real.exp_add]
    congr 1
    field_simp
    ring
  linear_combination (r k-A k)^n k * (r k-B k)^m k * (r k - C k)^l k * (r k - D k)^o k * e

theorem quad_gto {a b c d : ℝ} (hp : 0 < a + b + c + d) (A B C D : Fin 3 → ℝ) (n m l o : Fin 3 → ℕ) :
    (Integrable fun r => gto a A n r * gto b B m r * gto c C l r * gto d D o r) ∧
    overlap4 (gto a A n) (gto b B m) (gto c C l) (gto d D o) = Real.exp (-quadExponent a b c d A B C D) *
      ∫ r, pg (a+b+c+d) (fun k => (a*A k+b*B k+c*C k+d*D k)/(a+b+c+d))
        (fun k => pq (A k) (B k) (n k) (m k) * pq (C k) (D k) (l k) (o k)) r := by
  have e : (fun r => gto a A n r * gto b B m r * gto c C l r * gto d D o r) = fun r =>
      Real.exp (-quadExponent a b c d A B C D) * (pg (a+b+c+d) (fun k => (a*A k+b*B k+c*C k+d*D k)/(a+b+c+d))
        (fun k => pq (A k) (B k) (n k) (m k) * pq (C k) (D k) (l k) (o k)) r) := by
    funext r
    rw [gto_mul4 hp.ne']
  unfold overlap4
  rw [e]
  refine ⟨Integrable.const_mul ?_ _, integral_const_mul _ _⟩
  have := integrable_pg_gV hp (le_refl 0) (fun k => (a*A k+b*B k+c*C k+d*D k)/(a+b+c+d)) (fun _ => 0)
    (fun k => pq (A k) (B k) (n k) (m k) * pq (C k) (D k) (l k) (o k))
  refine this.congr (Filter.Eventually.of_forall fun r => ?_)
  simp [gV]

/-- `∫ f g h k` of linear combinations -/
theorem quad_sum {ι κ τ υ : Type} (S : Finset ι) (T : Finset κ) (U : Finset τ) (W : Finset υ) (x : ι → ℝ) (y : κ → ℝ)
    (z : τ → ℝ) (v : υ → ℝ) (f : ι → (Fin 3 → ℝ) → ℝ) (g : κ → (Fin 3 → ℝ) → ℝ) (k : τ → (Fin 3 → ℝ) → ℝ) (q : υ → (Fin 3 → ℝ) → ℝ)
    (h : ∀ a ∈ S, ∀ b ∈ T, ∀ c ∈ U, ∀ d ∈ W, Integrable fun r => f a r * g b r * k c r * q d r) :
    (Integrable fun r => (∑ a ∈ S, x a * f a r) * (∑ b ∈ T, y b * g b r) * (∑ c ∈ U, z c * k c r) * (∑ d ∈ W, v d * q d r)) ∧
    overlap4 (fun r => ∑ a ∈ S, x a * f a r) (fun r => ∑ b ∈ T, y b * g b r) (fun r => ∑ c ∈ U, z c * k c r)
        (fun r => ∑ d ∈ W, v d * q d r) =
      ∑ d ∈ W, ∑ c ∈ U, ∑ b ∈ T, ∑ a ∈ S, v d * z c * y b * x a * overlap4 (f a) (g b) (k c) (q d) := by
  have e : (fun r => (∑ a ∈ S, x a * f a r) * (∑ b ∈ T, y b * g b r) * (∑ c ∈ U, z c * k c r) * (∑ d ∈ W, v d * q d r)) = fun r =>
      ∑ d ∈ W, ∑ c ∈ U, ∑ b ∈ T, ∑ a ∈ S, v d * z c * y b * x a * (f a r * g b r * k c r * q d r) := by
    funext r
    rw [Finset.sum_mul_sum, Finset.sum_comm, Finset.mul_sum, Finset.mul_sum]
    refine Finset.sum_congr rfl fun d _ => ?_
    rw [Finset.sum_mul]
    refine Finset.sum_congr rfl fun c _ => ?_
    rw [Finset.sum_mul, Finset.sum_mul]
    refine Finset.sum_congr rfl fun b _ => ?_
    rw [Finset.sum_mul, Finset.sum_mul]
    refine Finset.sum_congr rfl fun a _ => ?_
    ring
  have hi : ∀ d ∈ W, ∀ c ∈ U, ∀ b ∈ T, ∀ a ∈ S, Integrable fun r => v d * z c * y b * x a * (f a r * g b r * k c r * q d r) :=
    fun d hd c hc b hb a ha => (h a ha b hb c hc d hd).const_mul _
  refine ⟨?_, ?_⟩
  · rw [e]
    exact integrable_finset_sum _ fun d hd => integrable_finset_sum _ fun c hc => integrable_finset_sum _ fun b hb =>
      integrable_finset_sum _ fun a ha => hi d hd c hc b hb a ha
  · unfold overlap4
    rw [e, integral_finset_sum _ (fun d hd => integrable_finset_sum _ fun c hc => integrable_finset_sum _ fun b hb =>
      integrable_finset_sum _ fun a ha => hi d hd c hc b hb a ha)]
    refine Finset.sum_congr rfl fun d hd => ?_
    rw [integral_finset_sum _ (fun c hc => integrable_finset_sum _ fun b hb => integrable_finset_sum _ fun a ha => hi d hd c hc b hb a ha)]
    refine Finset.sum_congr rfl fun c hc => ?_
    rw [integral_finset_sum _ (fun b hb => integrable_finset_sum _ fun a ha => hi d hd c hc b hb a ha)]
    refine Finset.sum_congr rfl fun b hb => ?_
    rw [integral_finset_sum _ (fun a ha => hi d hd c hc b hb a ha)]
    refine Finset.sum_congr rfl fun a ha => ?_
    exact integral_const_mul _ _

section
variable {s : Call2 ℝ}

theorem PosExp41.sum (hp : PosExp41 s) {ip jp kp lp : Nat} (h1 : ip < s.si.nprim) (h2 : jp < s.sj.nprim) (h3 : kp < s.sk.nprim)
    (h4 : lp < s.sl.nprim) : 0 < s.si.a ip + s.sj.a jp + s.sk.a kp + s.sl.a lp := by
  have := hp.i ip h1
  have := hp.j jp h2
  have := hp.k kp h3
  have := hp.l lp h4
  positivity

theorem quad_cfun (hp : PosExp41 s) (ic jc kc lc i j k l : Nat) :
    (Integrable fun r => cfun s.si ic i r * cfun s.sj jc j r * cfun s.sk kc k r * cfun s.sl lc l r) ∧
    overlap4 (cfun s.si ic i) (cfun s.sj jc j) (cfun s.sk kc k) (cfun s.sl lc l) =
      contract4 s.si.nprim s.sj.nprim s.sk.nprim s.sl.nprim s.si.c s.sj.c s.sk.c s.sl.c (fun ip jp kp lp =>
        overlap4 (gto (s.si.a ip) (centre s.si) (powers s.si.l i)) (gto (s.sj.a jp) (centre s.sj) (powers s.sj.l j))
          (gto (s.sk.a kp) (centre s.sk) (powers s.sk.l k)) (gto (s.sl.a lp) (centre s.sl) (powers s.sl.l l))) ic jc kc lc :=
  quad_sum (Finset.range s.si.nprim) (Finset.range s.sj.nprim) (Finset.range s.sk.nprim) (Finset.range s.sl.nprim)
    (fun ip => s.si.c (s.si.nprim*ic+ip)) (fun jp => s.sj.c (s.sj.nprim*jc+jp)) (fun kp => s.sk.c (s.sk.nprim*kc+kp))
    (fun lp => s.sl.c (s.sl.nprim*lc+lp)) _ _ _ _
    (fun _ ha _ hb _ hc _ hd => (quad_gto (hp.sum (Finset.mem_range.1 ha) (Finset.mem_range.1 hb) (Finset.mem_range.1 hc)
      (Finset.mem_range.1 hd)) _ _ _ _ _ _ _ _).1)

theorem quad_sgto (hp : PosExp41 s) (ic jc kc lc i j k l : Nat) :
    overlap4 (sgto s.si ic i) (sgto s.sj jc j) (sgto s.sk kc k) (sgto s.sl lc l) =
      ∑ a ∈ Finset.range (ncart s.si.l), ∑ b ∈ Finset.range (ncart s.sj.l), ∑ c ∈ Finset.range (ncart s.sk.l),
        ∑ d ∈ Finset.range (ncart s.sl.l),
        c2sCoef s.si.l i a * c2sCoef s.sj.l j b * c2sCoef s.sk.l k c * c2sCoef s.sl.l l d *
          (spNorm s.si.l * spNorm s.sj.l * spNorm s.sk.l * spNorm s.sl.l *
            overlap4 (cfun s.si ic a) (cfun s.sj jc b) (cfun s.sk kc c) (cfun s.sl lc d)) := by
  rw [sgto_eq s.si, sgto_eq s.sj, sgto_eq s.sk, sgto_eq s.sl]
  rw [(quad_sum (Finset.range (ncart s.si.l)) (Finset.range (ncart s.sj.l)) (Finset.range (ncart s.sk.l)) (Finset.range (ncart s.sl.l))
    _ _ _ _ (cfun s.si ic) (cfun s.sj jc) (cfun s.sk kc) (cfun s.sl lc) (fun a _ b _ c _ d _ => (quad_cfun hp ic jc kc lc a b c d).1)).2]
  have comm : ∀ F : ℕ → ℕ → ℕ → ℕ → ℝ,
      ∑ d ∈ Finset.range (ncart s.sl.l), ∑ c ∈ Finset.range (ncart s.sk.l), ∑ b ∈ Finset.range (ncart s.sj.l),
        ∑ a ∈ Finset.range (ncart s.si.l), F a b c d =
      ∑ a ∈ Finset.range (ncart s.si.l), ∑ b ∈ Finset.range (ncart s.sj.l), ∑ c ∈ Finset.range (ncart s.sk.l),
        ∑ d ∈ Finset.range (ncart s.sl.l), F a b c d := by
    intro F
    rw [Finset.sum_comm]
    have : ∀ c, ∑ d ∈ Finset.range (ncart s.sl.l), ∑ b ∈ Finset.range (ncart s.sj.l), ∑ a ∈ Finset.range (ncart s.si.l), F a b c d =
        ∑ b ∈ Finset.range (ncart s.sj.l), ∑ a ∈ Finset.range (ncart s.si.l), ∑ d ∈ Finset.range (ncart s.sl.l), F a b c d := by
      intro c
      rw [Finset.sum_comm]
      refine Finset.sum_congr rfl fun b _ => ?_
      rw [Finset.sum_comm]
    simp only [this]
    rw [Finset.sum_comm]
    have : ∀ b, ∑ c ∈ Finset.range (ncart s.sk.l), ∑ a ∈ Finset.range (ncart s.si.l), ∑ d ∈ Finset.range (ncart s.sl.l), F a b c d =
        ∑ a ∈ Finset.range (ncart s.si.l), ∑ c ∈ Finset.range (ncart s.sk.l), ∑ d ∈ Finset.range (ncart s.sl.l), F a b c d := by
      intro b
      rw [Finset.sum_comm]
    simp only [this]
    rw [Finset.sum_comm]
  rw [comm]
  refine Finset.sum_congr rfl fun a _ => Finset.sum_congr rfl fun b _ => Finset.sum_congr rfl fun c _ =>
    Finset.sum_congr rfl fun d _ => ?_
  ring

theorem quad_axis {a b c d : ℝ} (h1 : a + b ≠ 0) (h2 : c + d ≠ 0) (h3 : a + b + (c + d) ≠ 0) (A B C D : ℝ) :
    (a+b)*(c+d)/(a+b+(c+d)) * ((a*A+b*B)/(a+b) - (c*C+d*D)/(c+d))^2 + ((A-B)^2*a*b/(a+b) + (C-D)^2*c*d/(c+d)) =
      (a*b*(A-B)^2 + a*c*(A-C)^2 + a*d*(A-D)^2 + b*c*(B-C)^2 + b*d*(B-D)^2 + c*d*(C-D)^2)/(a+b+c+d) := by
  have h4 : a+b+c+d ≠ 0 := by rwa [add_assoc (a+b)]
  rw [show a+b+(c+d) = a+b+c+d by ring]
  field_simp
  ring

theorem eijkl_eq {ip jp kp lp : Nat} (h1 : 0 < s.si.a ip) (h2 : 0 < s.sj.a jp) (h3 : 0 < s.sk.a kp) (h4 : 0 < s.sl.a lp) :
    s.eijkl4 ip jp kp lp = quadExponent (s.si.a ip) (s.sj.a jp) (s.sk.a kp) (s.sl.a lp) (centre s.si) (centre s.sj) (centre s.sk)
      (centre s.sl) := by
  have q := fun c : Nat => quad_axis (a := s.si.a ip) (b := s.sj.a jp) (c := s.sk.a kp) (d := s.sl.a lp) (by positivity) (by positivity)
    (by positivity) (s.si.r c) (s.sj.r c) (s.sk.r c) (s.sl.r c)
  unfold Call2.eijkl4 Call2.eij4 Call2.ekl4 Call2.g4 quadExponent rr2 centre
  simp only [Fin.sum_univ_three]
  show _ = (s.si.a ip * s.sj.a jp * ((s.si.r 0 - s.sj.r 0)^2 + (s.si.r 1 - s.sj.r 1)^2 + (s.si.r 2 - s.sj.r 2)^2) +
    s.si.a ip * s.sk.a kp * ((s.si.r 0 - s.sk.r 0)^2 + (s.si.r 1 - s.sk.r 1)^2 + (s.si.r 2 - s.sk.r 2)^2) +
    s.si.a ip * s.sl.a lp * ((s.si.r 0 - s.sl.r 0)^2 + (s.si.r 1 - s.sl.r 1)^2 + (s.si.r 2 - s.sl.r 2)^2) +
    s.sj.a jp * s.sk.a kp * ((s.sj.r 0 - s.sk.r 0)^2 + (s.sj.r 1 - s.sk.r 1)^2 + (s.sj.r 2 - s.sk.r 2)^2) +
    s.sj.a jp * s.sl.a lp * ((s.sj.r 0 - s.sl.r 0)^2 + (s.sj.r 1 - s.sl.r 1)^2 + (s.sj.r 2 - s.sl.r 2)^2) +
    s.sk.a kp * s.sl.a lp * ((s.sk.r 0 - s.sl.r 0)^2 + (s.sk.r 1 - s.sl.r 1)^2 + (s.sk.r 2 - s.sl.r 2)^2)) / _
  linear_combination q 0 + q 1 + q 2

theorem rr2_nonneg (x y : Nat → ℝ) : 0 ≤ rr2 x y := by
  unfold rr2
  nlinarith [mul_self_nonneg (x 0 - y 0), mul_self_nonneg (x 1 - y 1), mul_self_nonneg (x 2 - y 2)]

/-- the three tests of the loop amount to one -/
theorem kept4_iff (hp : PosExp41 s) {ip jp kp lp : Nat} (h1 : ip < s.si.nprim) (h2 : jp < s.sj.nprim) (h3 : kp < s.sk.nprim)
    (h4 : lp < s.sl.nprim) : kept4 s ip jp kp lp ↔ quadExponent (s.si.a ip) (s.sj.a jp) (s.sk.a kp) (s.sl.a lp) (centre s.si)
      (centre s.sj) (centre s.sk) (centre s.sl) ≤ 60 := by
  have q1 := hp.i ip h1
  have q2 := hp.j jp h2
  have q3 := hp.k kp h3
  have q4 := hp.l lp h4
  rw [← eijkl_eq q1 q2 q3 q4]
  unfold kept4
  have e1 : 0 ≤ s.eij4 ip jp := by
    unfold Call2.eij4
    have := rr2_nonneg s.si.r s.sj.r
    positivity
  have e2 : 0 ≤ s.ekl4 kp lp := by
    unfold Call2.ekl4
    have := rr2_nonneg s.sk.r s.sl.r
    positivity
  have e3 : s.eij4 ip jp + s.ekl4 kp lp ≤ s.eijkl4 ip jp kp lp := by
    unfold Call2.eijkl4
    dsimp only
    have := rr2_nonneg (s.g4 ip jp kp lp).rij (s.g4 ip jp kp lp).rkl
    have : 0 ≤ (s.si.a ip + s.sj.a jp) * (s.sk.a kp + s.sl.a lp) / (s.si.a ip + s.sj.a jp + (s.sk.a kp + s.sl.a lp)) *
      rr2 (s.g4 ip jp kp lp).rij (s.g4 ip jp kp lp).rkl := by positivity
    linarith
  exact ⟨fun h => h.2.2, fun h => ⟨by linarith, by linarith, h⟩⟩

theorem loopVal41 {L : MathLib ℝ} (hL : L.exp = Real.exp) (hp : PosExp41 s) {ic jc kc lc i j k l : Nat}
    (h1 : i < ncart s.si.l) (h2 : j < ncart s.sj.l) (h3 : k < ncart s.sk.l) (h4 : l < ncart s.sl.l) :
    loopVal4 realK L s (w4c1e L s) 0 ic jc kc lc (pos4c (ncar (Call2.ls s)) i j k l) =
    spNorm s.si.l * spNorm s.sj.l * spNorm s.sk.l * spNorm s.sl.l *
      contract4 s.si.nprim s.sj.nprim s.sk.nprim s.sl.nprim s.si.c s.sj.c s.sk.c s.sl.c (fun ip jp kp lp =>
        open Classical in if quadExponent (s.si.a ip) (s.sj.a jp) (s.sk.a kp) (s.sl.a lp) (centre s.si) (centre s.sj) (centre s.sk)
            (centre s.sl) ≤ 60 then
          overlap4 (gto (s.si.a ip) (centre s.si) (powers s.si.l i)) (gto (s.sj.a jp) (centre s.sj) (powers s.sj.l j))
            (gto (s.sk.a kp) (centre s.sk) (powers s.sk.l k)) (gto (s.sl.a lp) (centre s.sl) (powers s.sl.l l))
        else 0) ic jc kc lc := by
  classical
  have hpi : (Real.sqrt Real.pi * Real.pi) ≠ 0 := by positivity
  unfold loopVal4 expected
  have hcom : (s.quartet4 realK L ⟨⟨0,0⟩,⟨0,0⟩,⟨0,0⟩,⟨0,0⟩⟩).common =
      (Real.sqrt Real.pi * Real.pi) * (spNorm s.si.l * spNorm s.sj.l * spNorm s.sk.l * spNorm s.sl.l) := by
    show Real.sqrt Real.pi * Real.pi * commonFacSp s.si.l * commonFacSp s.sj.l * commonFacSp s.sk.l * commonFacSp s.sl.l = _
    rw [spNorm_eq, spNorm_eq, spNorm_eq, spNorm_eq]
    ring
  rw [hcom, mul_comm (Real.sqrt Real.pi * Real.pi), mul_assoc]
  congr 1
  unfold contract4
  rw [Finset.mul_sum]
  refine Finset.sum_congr rfl (fun lp hlp => ?_)
  rw [Finset.mul_sum]
  refine Finset.sum_congr rfl (fun kp hkp => ?_)
  rw [Finset.mul_sum]
  refine Finset.sum_congr rfl (fun jp hjp => ?_)
  rw [Finset.mul_sum]
  refine Finset.sum_congr rfl (fun ip hip => ?_)
  have hip : ip < s.si.nprim := Finset.mem_range.1 hip
  have hjp : jp < s.sj.nprim := Finset.mem_range.1 hjp
  have hkp : kp < s.sk.nprim := Finset.mem_range.1 hkp
  have hlp : lp < s.sl.nprim := Finset.mem_range.1 hlp
  have q1 := hp.i ip hip
  have q2 := hp.j jp hjp
  have q3 := hp.k kp hkp
  have q4 := hp.l lp hlp
  rw [mul_comm (Real.sqrt Real.pi * Real.pi), mul_assoc]
  show s.sl.c (s.sl.nprim*lc+lp) * s.sk.c (s.sk.nprim*kc+kp) * s.sj.c (s.sj.nprim*jc+jp) * s.si.c (s.si.nprim*ic+ip) * _ = _
  congr 1
  -- digits of the position
  have hx : pos4c (ncar (Call2.ls s)) i j k l = ((j*ncart s.sl.l + l)*ncart s.sk.l + k)*ncart s.si.l + i := by
    unfold pos4c ncar
    show i + ncart s.si.l * (k + ncart s.sk.l * (l + ncart s.sl.l * j)) = _
    ring
  have qi : ∀ c, i4 s.env4 c (pos4c (ncar (Call2.ls s)) i j k l * 1 + 0) = pw s.si.l c i := by
    intro c
    rw [Nat.mul_one, Nat.add_zero, hx]
    show pw s.si.l c (_ % ncart s.si.l) = _
    rw [(digit h1).2]
  have qk : ∀ c, k4 s.env4 c (pos4c (ncar (Call2.ls s)) i j k l * 1 + 0) = pw s.sk.l c k := by
    intro c
    rw [Nat.mul_one, Nat.add_zero, hx]
    show pw s.sk.l c (_ / ncart s.si.l % ncart s.sk.l) = _
    rw [(digit h1).1, (digit h3).2]
  have ql : ∀ c, l4 s.env4 c (pos4c (ncar (Call2.ls s)) i j k l * 1 + 0) = pw s.sl.l c l := by
    intro c
    rw [Nat.mul_one, Nat.add_zero, hx]
    show pw s.sl.l c (_ / ncart s.si.l / ncart s.sk.l % ncart s.sl.l) = _
    rw [(digit h1).1, (digit h3).1, (digit h4).2]
  have qj : ∀ c, j4 s.env4 c (pos4c (ncar (Call2.ls s)) i j k l * 1 + 0) = pw s.sj.l c j := by
    intro c
    rw [Nat.mul_one, Nat.add_zero, hx]
    show pw s.sj.l c (_ / ncart s.si.l / ncart s.sk.l / ncart s.sl.l) = _
    rw [(digit h1).1, (digit h3).1, (digit h4).1]
  have hpol : pol4 s.env4 (s.g4 ip jp kp lp) (pos4c (ncar (Call2.ls s)) i j k l * 1 + 0) = fun c =>
      pq (centre s.si c) (centre s.sj c) (powers s.si.l i c) (powers s.sj.l j c) *
        pq (centre s.sk c) (centre s.sl c) (powers s.sk.l k c) (powers s.sl.l l c) := by
    funext c
    unfold pol4
    rw [qi, qj, qk, ql]
    rfl
  have hctr : (fun c : Fin 3 => ctr4 (s.g4 ip jp kp lp) c) = fun c => (s.si.a ip * centre s.si c + s.sj.a jp * centre s.sj c +
      s.sk.a kp * centre s.sk c + s.sl.a lp * centre s.sl c) / (s.si.a ip + s.sj.a jp + s.sk.a kp + s.sl.a lp) := by
    funext c
    show ((s.si.a ip + s.sj.a jp) * ((s.si.a ip * s.si.r c + s.sj.a jp * s.sj.r c) / (s.si.a ip + s.sj.a jp)) +
      (s.sk.a kp + s.sl.a lp) * ((s.sk.a kp * s.sk.r c + s.sl.a lp * s.sl.r c) / (s.sk.a kp + s.sl.a lp))) /
        (s.si.a ip + s.sj.a jp + (s.sk.a kp + s.sl.a lp)) = _
    rw [mul_div_cancel₀ _ (by positivity), mul_div_cancel₀ _ (by positivity), ← add_assoc, ← add_assoc]
    rfl
  have hsv := survives4 (K := realK) (L := L) (s := s) ⟨⟨0,0⟩,⟨0,0⟩,⟨0,0⟩,⟨0,0⟩⟩ ip jp kp lp
  rw [kept4_iff hp hip hjp hkp hlp] at hsv
  beta_reduce
  by_cases hk : quadExponent (s.si.a ip) (s.sj.a jp) (s.sk.a kp) (s.sl.a lp) (centre s.si) (centre s.sj) (centre s.sk)
            (centre s.sl) ≤ 60
  · rw [if_pos (hsv.2 hk), if_pos hk]
    rw [(quad_gto (hp.sum hip hjp hkp hlp) _ _ _ _ _ _ _ _).2]
    show 1 * 1 * w4c1e L s ip jp kp lp (pos4c (ncar (Call2.ls s)) i j k l * 1 + 0) * (Real.sqrt Real.pi * Real.pi) = _
    unfold w4c1e
    rw [hpol, hctr, hL, eijkl_eq q1 q2 q3 q4, ← add_assoc]
    field_simp
  · rw [if_neg (fun x => hk (hsv.1 x)), if_neg hk, zero_mul]
end

/-- **C53** int4c1e_cart: each element is, up to the normalisation of s and p functions, the contraction of the integrals of the
products of four primitives; quartets with a prefactor below exp(-60) are left out.  Exponents, centres, contractions and angular
momenta are arbitrary. -/
theorem C53_cart {L : MathLib ℝ} {s : Call2 ℝ} (A : CartMem41 s) (hL : L.exp = Real.exp) (hp : PosExp41 s) (h15 : LOK s) :
    ∃ has h', CartEnds41 A realK L has h' ∧
      ∀ ic jc kc lc i j k l, ic < s.si.nctr → jc < s.sj.nctr → kc < s.sk.nctr → lc < s.sl.nctr →
        i < ncart s.si.l → j < ncart s.sj.l → k < ncart s.sk.l → l < ncart s.sl.l →
        A.elem h' ic i jc j kc k lc l = .val (spNorm s.si.l * spNorm s.sj.l * spNorm s.sk.l * spNorm s.sl.l *
          contract4 s.si.nprim s.sj.nprim s.sk.nprim s.sl.nprim s.si.c s.sj.c s.sk.c s.sl.c (fun ip jp kp lp =>
            open Classical in
            if quadExponent (s.si.a ip) (s.sj.a jp) (s.sk.a kp) (s.sl.a lp) (centre s.si) (centre s.sj) (centre s.sk)
                (centre s.sl) ≤ 60 then
              overlap4 (gto (s.si.a ip) (centre s.si) (powers s.si.l i)) (gto (s.sj.a jp) (centre s.sj) (powers s.sj.l j))
                (gto (s.sk.a kp) (centre s.sk) (powers s.sk.l k)) (gto (s.sl.a lp) (centre s.sl) (powers s.sl.l l))
            else 0) ic jc kc lc) := by
  obtain ⟨has, h', hr, hv, _⟩ := drv4c1e_cart A.M A.hneed A.hs A.O (eval41 (L := L) hp) h15
  refine ⟨has, h', hr, fun ic jc kc lc i j k l a2 a3 a4 a5 a6 a7 a8 a9 => ?_⟩
  refine (hv 0 ic jc kc lc i j k l Nat.zero_lt_one a2 a3 a4 a5 a6 a7 a8 a9).trans ?_
  exact congrArg Cell.val (loopVal41 hL hp a6 a7 a8 a9)

/-- no primitive quartet of the call is screened -/
def AllKept41 (s : Call2 ℝ) : Prop := ∀ ip jp kp lp, ip < s.si.nprim → jp < s.sj.nprim → kp < s.sk.nprim → lp < s.sl.nprim →
  quadExponent (s.si.a ip) (s.sj.a jp) (s.sk.a kp) (s.sl.a lp) (centre s.si) (centre s.sj) (centre s.sk) (centre s.sl) ≤ 60

/-- **C53** int4c1e_cart, nothing screened: exactly the integral of the product of the four contracted functions. -/
theorem C53_cart_exact {L : MathLib ℝ} {s : Call2 ℝ} (A : CartMem41 s) (hL : L.exp = Real.exp) (hkept : AllKept41 s)
    (hp : PosExp41 s) (h15 : LOK s) :
    ∃ has h', CartEnds41 A realK L has h' ∧
      ∀ ic jc kc lc i j k l, ic < s.si.nctr → jc < s.sj.nctr → kc < s.sk.nctr → lc < s.sl.nctr →
        i < ncart s.si.l → j < ncart s.sj.l → k < ncart s.sk.l → l < ncart s.sl.l →
        A.elem h' ic i jc j kc k lc l = .val (spNorm s.si.l * spNorm s.sj.l * spNorm s.sk.l * spNorm s.sl.l *
          overlap4 (cfun s.si ic i) (cfun s.sj jc j) (cfun s.sk kc k) (cfun s.sl lc l)) := by
  obtain ⟨has, h', hr, hv⟩ := C53_cart (L := L) A hL hp h15
  refine ⟨has, h', hr, fun ic jc kc lc i j k l a2 a3 a4 a5 a6 a7 a8 a9 => ?_⟩
  rw [hv ic jc kc lc i j k l a2 a3 a4 a5 a6 a7 a8 a9, (quad_cfun hp _ _ _ _ _ _ _ _).2]
  congr 2
  unfold contract4
  refine Finset.sum_congr rfl fun lp b1 => Finset.sum_congr rfl fun kp b2 => Finset.sum_congr rfl fun jp b3 =>
    Finset.sum_congr rfl fun ip b4 => ?_
  rw [Finset.mem_range] at b1 b2 b3 b4
  dsimp only
  rw [if_pos (hkept ip jp kp lp b4 b3 b2 b1)]

/-- a Cartesian call in memory that is allocated but not initialised -/
def blankMem41 {α : Type} [Field α] [LinearOrder α] (s : Call2 α) (h : ∀ t, t < 4 → 0 < Call2.nctrs s t) : CartMem41 s where
  fpd := 2
  buf := 0
  size := max (need4c1e 2 s) (cacheSize4c1e s)
  empty := ⟨4, 0⟩
  fl := ⟨1, 0⟩
  loc := ⟨2, 0⟩
  counts := ⟨3, 0⟩
  out := ⟨5, 7⟩
  dims := none
  nd := fun t => ncar (Call2.ls s) t * Call2.nctrs s t
  h := ⟨fun _ => .undef, fun _ => .undef⟩
  hs := ⟨Or.inr (Or.inr rfl), fun t _ => ncart_pos _, fun t ht => h t ht, fun t a b => absurd a (by omega), fun t _ => le_refl _⟩
  M := ⟨by omega, fun k _ => by simp, fun k _ => by simp, by simp, fun k _ => by simp, fun k _ => by simp,
    fun k _ => by simp, by decide, by decide, by decide, by decide, by decide⟩
  hneed := le_max_left _ _
  hquery := le_max_right _ _
  O := { h_dims := fun t _ => rfl
         h_dbuf := fun d hd => nomatch hd
         h_out := fun m _ => by simp
         h_obuf := by decide }

/-- **C53** int4c1e_sph, nothing screened: exactly the integral of the product of the four spherical functions. -/
theorem C53_spherical {L : MathLib ℝ} {s : Call2 ℝ} (B : SphMem41 s) (hL : L.exp = Real.exp) (hkept : AllKept41 s)
    (hp : PosExp41 s) (h15 : LOK s) :
    ∃ has h', SphEnds41 B realK L has h' ∧
      ∀ ic jc kc lc i j k l, ic < s.si.nctr → jc < s.sj.nctr → kc < s.sk.nctr → lc < s.sl.nctr →
        i < s.si.l*2+1 → j < s.sj.l*2+1 → k < s.sk.l*2+1 → l < s.sl.l*2+1 →
        B.elem h' ic i jc j kc k lc l = .val (overlap4 (sgto s.si ic i) (sgto s.sj jc j) (sgto s.sk kc k) (sgto s.sl lc l)) := by
  let A := blankMem41 s B.hs.nctr_pos
  obtain ⟨ra, ha, rb, hb, eA, eB, x, vA, vB⟩ := C19_4c1e A B (eval41 (L := L) hp) h15
  obtain ⟨rc, hc, eC, vC⟩ := C53_cart_exact A hL hkept hp h15
  have hAC : ha = hc := by
    have e : some (ra, ha) = some (rc, hc) := eA.symm.trans eC
    simp only [Option.some.injEq, Prod.mk.injEq] at e
    exact e.2
  refine ⟨rb, hb, eB, fun ic jc kc lc i j k l a2 a3 a4 a5 a6 a7 a8 a9 => ?_⟩
  rw [vB ic jc kc lc i j k l a2 a3 a4 a5 a6 a7 a8 a9, quad_sgto hp]
  congr 1
  refine Finset.sum_congr rfl fun a b1 => Finset.sum_congr rfl fun b b2 => Finset.sum_congr rfl fun c b3 =>
    Finset.sum_congr rfl fun d b4 => ?_
  rw [Finset.mem_range] at b1 b2 b3 b4
  congr 1
  have c1 := vA ic jc kc lc a b c d a2 a3 a4 a5 b1 b2 b3 b4
  have c2 := vC ic jc kc lc a b c d a2 a3 a4 a5 b1 b2 b3 b4
  rw [← hAC] at c2
  exact Cell.val.inj (c1.symm.trans c2)

/-! ### Permutation symmetry -/

/-- the second and third shells exchanged -/
def swapJK4 {α : Type} (s : Call2 α) : Call2 α := { s with sj := s.sk, sk := s.sj }

theorem contract4_swapJK (nI nJ nK nL : Nat) (ci cj ck cl : Nat → ℝ) (E : Nat → Nat → Nat → Nat → ℝ) (ic jc kc lc : Nat) :
    contract4 nI nK nJ nL ci ck cj cl (fun ip kp jp lp => E ip jp kp lp) ic kc jc lc = contract4 nI nJ nK nL ci cj ck cl E ic jc kc lc := by
  unfold contract4
  refine Finset.sum_congr rfl fun lp _ => ?_
  rw [Finset.sum_comm]
  refine Finset.sum_congr rfl fun kp _ => Finset.sum_congr rfl fun jp _ => Finset.sum_congr rfl fun ip _ => ?_
  ring

theorem quadExponent_ij (a b c d : ℝ) (A B C D : Fin 3 → ℝ) : quadExponent b a c d B A C D = quadExponent a b c d A B C D := by
  unfold quadExponent
  simp only [Fin.sum_univ_three]
  congr 1 <;> ring

theorem quadExponent_jk (a b c d : ℝ) (A B C D : Fin 3 → ℝ) : quadExponent a c b d A C B D = quadExponent a b c d A B C D := by
  unfold quadExponent
  simp only [Fin.sum_univ_three]
  congr 1 <;> ring

theorem quadExponent_kl (a b c d : ℝ) (A B C D : Fin 3 → ℝ) : quadExponent a b d c A B D C = quadExponent a b c d A B C D := by
  unfold quadExponent
  simp only [Fin.sum_univ_three]
  congr 1 <;> ring

theorem overlap4_ij (f g h k : (Fin 3 → ℝ) → ℝ) : overlap4 g f h k = overlap4 f g h k :=
  integral_congr_ae (Filter.Eventually.of_forall fun r => by dsimp only; ring)

theorem overlap4_jk (f g h k : (Fin 3 → ℝ) → ℝ) : overlap4 f h g k = overlap4 f g h k :=
  integral_congr_ae (Filter.Eventually.of_forall fun r => by dsimp only; ring)

theorem overlap4_kl (f g h k : (Fin 3 → ℝ) → ℝ) : overlap4 f g k h = overlap4 f g h k :=
  integral_congr_ae (Filter.Eventually.of_forall fun r => by dsimp only; ring)

/-- **C53** exchanging the first two shells transposes the block, whatever is screened. -/
theorem C53_swap_ij {L : MathLib ℝ} {s : Call2 ℝ} (A : CartMem41 s) (B : CartMem41 (swapIJ s)) (hL : L.exp = Real.exp)
    (hp : PosExp41 s) (h15 : LOK s) :
    ∃ ra ha rb hb, CartEnds41 A realK L ra ha ∧ CartEnds41 B realK L rb hb ∧
      ∀ ic jc kc lc i j k l, ic < s.si.nctr → jc < s.sj.nctr → kc < s.sk.nctr → lc < s.sl.nctr →
        i < ncart s.si.l → j < ncart s.sj.l → k < ncart s.sk.l → l < ncart s.sl.l →
        ∃ x, A.elem ha ic i jc j kc k lc l = .val x ∧ B.elem hb jc j ic i kc k lc l = .val x := by
  obtain ⟨q0, q1, q2, q3⟩ := (lok_iff s).1 h15
  obtain ⟨ra, ha, e1, v1⟩ := C53_cart (L := L) A hL hp h15
  obtain ⟨rb, hb, e2, v2⟩ := C53_cart (L := L) B hL ⟨hp.j, hp.i, hp.k, hp.l⟩ ((lok_iff (swapIJ s)).2 ⟨q1, q0, q2, q3⟩)
  refine ⟨ra, ha, rb, hb, e1, e2, fun ic jc kc lc i j k l a2 a3 a4 a5 a6 a7 a8 a9 =>
    ⟨_, v1 ic jc kc lc i j k l a2 a3 a4 a5 a6 a7 a8 a9, (v2 jc ic kc lc j i k l a3 a2 a4 a5 a7 a6 a8 a9).trans ?_⟩⟩
  congr 1
  refine congrArg₂ (· * ·) (by show spNorm s.sj.l * spNorm s.si.l * spNorm s.sk.l * spNorm s.sl.l = _; ring) ?_
  refine Eq.trans ?_ (contract4_swapIJ s.si.nprim s.sj.nprim s.sk.nprim s.sl.nprim s.si.c s.sj.c s.sk.c s.sl.c _ ic jc kc lc)
  refine congrArg (fun f => contract4 _ _ _ _ _ _ _ _ f jc ic kc lc) ?_
  funext jp ip kp lp
  simp only [swapIJ]
  exact if_congr (iff_of_eq (congrArg (· ≤ (60:ℝ)) (quadExponent_ij _ _ _ _ _ _ _ _))) (overlap4_ij _ _ _ _) rfl

/-- **C53** exchanging the second and third shells transposes the block, whatever is screened. -/
theorem C53_swap_jk {L : MathLib ℝ} {s : Call2 ℝ} (A : CartMem41 s) (B : CartMem41 (swapJK4 s)) (hL : L.exp = Real.exp)
    (hp : PosExp41 s) (h15 : LOK s) :
    ∃ ra ha rb hb, CartEnds41 A realK L ra ha ∧ CartEnds41 B realK L rb hb ∧
      ∀ ic jc kc lc i j k l, ic < s.si.nctr → jc < s.sj.nctr → kc < s.sk.nctr → lc < s.sl.nctr →
        i < ncart s.si.l → j < ncart s.sj.l → k < ncart s.sk.l → l < ncart s.sl.l →
        ∃ x, A.elem ha ic i jc j kc k lc l = .val x ∧ B.elem hb ic i kc k jc j lc l = .val x := by
  obtain ⟨q0, q1, q2, q3⟩ := (lok_iff s).1 h15
  obtain ⟨ra, ha, e1, v1⟩ := C53_cart (L := L) A hL hp h15
  obtain ⟨rb, hb, e2, v2⟩ := C53_cart (L := L) B hL ⟨hp.i, hp.k, hp.j, hp.l⟩ ((lok_iff (swapJK4 s)).2 ⟨q0, q2, q1, q3⟩)
  refine ⟨ra, ha, rb, hb, e1, e2, fun ic jc kc lc i j k l a2 a3 a4 a5 a6 a7 a8 a9 =>
    ⟨_, v1 ic jc kc lc i j k l a2 a3 a4 a5 a6 a7 a8 a9, (v2 ic kc jc lc i k j l a2 a4 a3 a5 a6 a8 a7 a9).trans ?_⟩⟩
  congr 1
  refine congrArg₂ (· * ·) (by show spNorm s.si.l * spNorm s.sk.l * spNorm s.sj.l * spNorm s.sl.l = _; ring) ?_
  refine Eq.trans ?_ (contract4_swapJK s.si.nprim s.sj.nprim s.sk.nprim s.sl.nprim s.si.c s.sj.c s.sk.c s.sl.c _ ic jc kc lc)
  refine congrArg (fun f => contract4 _ _ _ _ _ _ _ _ f ic kc jc lc) ?_
  funext ip kp jp lp
  simp only [swapJK4]
  exact if_congr (iff_of_eq (congrArg (· ≤ (60:ℝ)) (quadExponent_jk _ _ _ _ _ _ _ _))) (overlap4_jk _ _ _ _) rfl

/-- **C53** exchanging the last two shells transposes the block, whatever is screened.  Together with the other two exchanges this
gives all 24 permutations. -/
theorem C53_swap_kl {L : MathLib ℝ} {s : Call2 ℝ} (A : CartMem41 s) (B : CartMem41 (swapKL s)) (hL : L.exp = Real.exp)
    (hp : PosExp41 s) (h15 : LOK s) :
    ∃ ra ha rb hb, CartEnds41 A realK L ra ha ∧ CartEnds41 B realK L rb hb ∧
      ∀ ic jc kc lc i j k l, ic < s.si.nctr → jc < s.sj.nctr → kc < s.sk.nctr → lc < s.sl.nctr →
        i < ncart s.si.l → j < ncart s.sj.l → k < ncart s.sk.l → l < ncart s.sl.l →
        ∃ x, A.elem ha ic i jc j kc k lc l = .val x ∧ B.elem hb ic i jc j lc l kc k = .val x := by
  obtain ⟨q0, q1, q2, q3⟩ := (lok_iff s).1 h15
  obtain ⟨ra, ha, e1, v1⟩ := C53_cart (L := L) A hL hp h15
  obtain ⟨rb, hb, e2, v2⟩ := C53_cart (L := L) B hL ⟨hp.i, hp.j, hp.l, hp.k⟩ ((lok_iff (swapKL s)).2 ⟨q0, q1, q3, q2⟩)
  refine ⟨ra, ha, rb, hb, e1, e2, fun ic jc kc lc i j k l a2 a3 a4 a5 a6 a7 a8 a9 =>
    ⟨_, v1 ic jc kc lc i j k l a2 a3 a4 a5 a6 a7 a8 a9, (v2 ic jc lc kc i j l k a2 a3 a5 a4 a6 a7 a9 a8).trans ?_⟩⟩
  congr 1
  refine congrArg₂ (· * ·) (by show spNorm s.si.l * spNorm s.sj.l * spNorm s.sl.l * spNorm s.sk.l = _; ring) ?_
  refine Eq.trans ?_ (contract4_swapKL s.si.nprim s.sj.nprim s.sk.nprim s.sl.nprim s.si.c s.sj.c s.sk.c s.sl.c _ ic jc kc lc)
  refine congrArg (fun f => contract4 _ _ _ _ _ _ _ _ f ic jc lc kc) ?_
  funext ip jp lp kp
  simp only [swapKL]
  exact if_congr (iff_of_eq (congrArg (· ≤ (60:ℝ)) (quadExponent_kl _ _ _ _ _ _ _ _))) (overlap4_kl _ _ _ _) rfl

namespace Int4c1eDemo
open OvlpDemo SphDemo EriDemo

theorem posExp41 : PosExp41 (call4 0) := ⟨fun _ _ => one_pos, fun _ _ => one_pos, fun _ _ => one_pos, fun _ _ => one_pos⟩

theorem allKept41 : AllKept41 (call4 0) := by
  intro ip jp kp lp _ _ _ _
  unfold quadExponent centre call4
  simp

/-- spherical output for these shells in memory that holds the transformation table -/
noncomputable def sphMem41 (s : Call2 ℝ) (h : ∀ t, t < 4 → 0 < Call2.nctrs s t) : SphMem41 s where
  fpd := 2
  buf := 0
  size := max (need4c1e 2 s) (cacheSize4c1e s)
  empty := ⟨4, 0⟩
  fl := ⟨1, 0⟩
  loc := ⟨2, 0⟩
  counts := ⟨3, 0⟩
  out := ⟨5, 7⟩
  dims := none
  nd := fun t => nsph (Call2.ls s) t * Call2.nctrs s t
  h := memR
  hs := ⟨Or.inr (Or.inr rfl), fun t _ => Nat.succ_pos _, fun t ht => h t ht, fun t a b => absurd a (by omega), fun t _ => le_refl _⟩
  M := ⟨by omega, fun k _ => by simp [memR], fun k _ => by simp [memR], by simp [memR], fun k _ => by simp [memR],
    fun k _ => by simp [memR], fun k _ => by simp [memR], by decide, by decide, by decide, by decide, by decide⟩
  hneed := le_max_left _ _
  hquery := le_max_right _ _
  O := { h_dims := fun t _ => rfl
         h_dbuf := fun d hd => nomatch hd
         h_out := fun m _ => by simp [memR]
         h_obuf := by decide }
  tab := ⟨9, 0⟩
  hT := tabR
  htb := by decide
  hto := by decide

/-- for these shells the queried size is enough -/
example : need4c1e 2 (call4 0) ≤ cacheSize4c1e (call4 0) :=
  C16_4c1e_fits _ (by omega) (by decide)

/-- the values -/
example : ∃ has h', CartEnds41 (blankMem41 (call4 0) (EriDemo.ctr_pos _)) realK lib has h' ∧
    (blankMem41 (call4 0) (EriDemo.ctr_pos _)).elem h' 1 2 0 5 1 0 0 1 = .val (spNorm 1 * spNorm 2 * spNorm 0 * spNorm 1 *
      overlap4 (cfun (call4 0).si 1 2) (cfun (call4 0).sj 0 5) (cfun (call4 0).sk 1 0) (cfun (call4 0).sl 0 1)) := by
  obtain ⟨has, h', h1, h2⟩ := C53_cart_exact (L := lib) (blankMem41 (call4 0) (EriDemo.ctr_pos _)) rfl allKept41 posExp41 (EriDemo.lok _)
  exact ⟨has, h', h1, h2 1 0 1 0 2 5 0 1 (by show 1 < 2; omega) (by show 0 < 2; omega) (by show 1 < 2; omega)
    (by show 0 < 2; omega) (by show 2 < ncart 1; decide) (by show 5 < ncart 2; decide) (by show 0 < ncart 0; decide)
    (by show 1 < ncart 1; decide)⟩

example : ∃ has h', SphEnds41 (sphMem41 (call4 0) (EriDemo.ctr_pos _)) realK lib has h' ∧
    (sphMem41 (call4 0) (EriDemo.ctr_pos _)).elem h' 1 1 0 4 1 0 0 2 = .val (overlap4
      (sgto (call4 0).si 1 1) (sgto (call4 0).sj 0 4) (sgto (call4 0).sk 1 0) (sgto (call4 0).sl 0 2)) := by
  obtain ⟨has, h', h1, h2⟩ := C53_spherical (L := lib) (sphMem41 (call4 0) (EriDemo.ctr_pos _)) rfl allKept41 posExp41 (EriDemo.lok _)
  exact ⟨has, h', h1, h2 1 0 1 0 1 4 0 2 (by show 1 < 2; omega) (by show 0 < 2; omega) (by show 1 < 2; omega)
    (by show 0 < 2; omega) (by show 1 < 1*2+1; omega) (by show 4 < 2*2+1; omega) (by show 0 < 0*2+1; omega)
    (by show 2 < 1*2+1; omega)⟩

/-- zero blocks, independence of the contents of memory, completion -/
example : ∃ v : Nat → ℝ, ∀ A' : CartMem41 (call4 0), A'.nd = (blankMem41 (call4 0) (EriDemo.ctr_pos _)).nd →
    ∃ has h', CartEnds41 A' realK lib has h' ∧ ∀ m, InBlock A'.nd (fun t => ncar (Call2.ls (call4 0)) t * Call2.nctrs (call4 0) t) 1 m →
      h'.D (A'.out + m) = .val (v m) := by
  obtain ⟨v, hv⟩ := C18_4c1e_cart (L := lib) (blankMem41 (call4 0) (EriDemo.ctr_pos _)) (eval41 posExp41) (EriDemo.lok _)
  refine ⟨v, fun A' hn => ?_⟩
  obtain ⟨has, h', h1, h2, _⟩ := hv A' hn
  exact ⟨has, h', h1, fun m hm => h2 m (hn ▸ hm)⟩

/-- the symmetry theorems apply -/
example : ∃ ra ha rb hb rc hc rd hd, CartEnds41 (blankMem41 (call4 0) (EriDemo.ctr_pos _)) realK lib ra ha ∧
    CartEnds41 (blankMem41 (swapIJ (call4 0)) (fun t _ => by match t with | 0 | 1 | 2 | _+3 => exact Nat.succ_pos _)) realK lib rb hb ∧
    CartEnds41 (blankMem41 (swapJK4 (call4 0)) (fun t _ => by match t with | 0 | 1 | 2 | _+3 => exact Nat.succ_pos _)) realK lib rc hc ∧
    CartEnds41 (blankMem41 (swapKL (call4 0)) (fun t _ => by match t with | 0 | 1 | 2 | _+3 => exact Nat.succ_pos _)) realK lib rd hd := by
  obtain ⟨ra, ha, rb, hb, e1, e2, _⟩ := C53_swap_ij (L := lib) (s := call4 0) (blankMem41 (call4 0) (EriDemo.ctr_pos _))
    (blankMem41 (swapIJ (call4 0)) (fun t _ => by match t with | 0 | 1 | 2 | _+3 => exact Nat.succ_pos _)) rfl posExp41 (EriDemo.lok _)
  obtain ⟨_, _, rc, hc, _, e3, _⟩ := C53_swap_jk (L := lib) (s := call4 0) (blankMem41 (call4 0) (EriDemo.ctr_pos _))
    (blankMem41 (swapJK4 (call4 0)) (fun t _ => by match t with | 0 | 1 | 2 | _+3 => exact Nat.succ_pos _)) rfl posExp41 (EriDemo.lok _)
  obtain ⟨_, _, rd, hd, _, e4, _⟩ := C53_swap_kl (L := lib) (s := call4 0) (blankMem41 (call4 0) (EriDemo.ctr_pos _))
    (blankMem41 (swapKL (call4 0)) (fun t _ => by match t with | 0 | 1 | 2 | _+3 => exact Nat.succ_pos _)) rfl posExp41 (EriDemo.lok _)
  exact ⟨ra, ha, rb, hb, rc, hc, rd, hd, e1, e2, e3, e4⟩

/-- an s shell with three primitives and three contractions -/
def sh3 : PShell ℚ := { nprim := 3, nctr := 3, l := 0, a := fun _ => 1, c := fun _ => 1, r := fun _ => 0 }
/-- an uncontracted s shell -/
def sh1 : PShell ℚ := { nprim := 1, nctr := 1, l := 0, a := fun _ => 1, c := fun _ => 1, r := fun _ => 0 }
def call : Call2 ℚ := { si := sh3, sj := sh3, sk := sh3, sl := sh1, envCut := 0, omega := 0 }
/-- memory in which buffer 0 has `n` doubles, twice as many FINTs -/
def mem (n : Nat) : Heap ℚ where
  D := fun p => if p.buf = 0 ∧ n ≤ p.off then .oob else .undef
  I := fun p => if p.buf = 0 ∧ 2*n ≤ p.off then .oob else .undef

end Int4c1eDemo

/-- **C16** is false of the one-electron integrals over four functions, and therefore `Mem41.hneed` is needed: for three s shells
with three primitives and three contractions and an uncontracted s shell CINT4c1e_drv asks for 119 doubles, and the call with a
cache of that size (the driver's own, when the caller passes none) stores outside it. -/
theorem C16_4c1e_overrun : ∃ (s : Call2 ℚ) (h : Heap ℚ), (∀ t, t < 4 → Call2.ls s t = 0) ∧
    Call2.nctrs s 0 = 3 ∧ Call2.nctrs s 1 = 3 ∧ Call2.nctrs s 2 = 3 ∧ Call2.nctrs s 3 = 1 ∧
    s.si.nprim = 3 ∧ s.sj.nprim = 3 ∧ s.sk.nprim = 3 ∧ s.sl.nprim = 1 ∧
    CallMem2 h 2 0 (cacheSize4c1e s) ⟨4, 0⟩ ⟨1, 0⟩ ⟨2, 0⟩ ⟨3, 0⟩ ∧
    OutArg2 4 h (Call2.nctrs s) (Call2.nctrs s) 1 ⟨5, 0⟩ none 0 ⟨4, 0⟩ ⟨1, 0⟩ ⟨2, 0⟩ ⟨3, 0⟩ ∧
    ∃ K L, run (drv4c1e s K L 2 (fun _ _ => pure) (ncar (Call2.ls s)) ⟨5, 0⟩ none 0 0
      ⟨4, 0⟩ ⟨1, 0⟩ ⟨2, 0⟩ ⟨3, 0⟩) h = none := by
  have hs : cacheSize4c1e Int4c1eDemo.call = 119 := by decide +kernel
  refine ⟨Int4c1eDemo.call, Int4c1eDemo.mem 119, by decide, rfl, rfl, rfl, rfl, rfl, rfl, rfl, rfl, ?_, ?_, Int3c1eDemo.consts,
    Int3c1eDemo.mlib, ?_⟩
  · rw [hs]
    exact ⟨by omega, fun k h => by simp [Int4c1eDemo.mem]; omega, fun k h => by simp [Int4c1eDemo.mem]; omega,
      by simp [Int4c1eDemo.mem], fun k _ => by simp [Int4c1eDemo.mem], fun k _ => by simp [Int4c1eDemo.mem],
      fun k _ => by simp [Int4c1eDemo.mem], by decide, by decide, by decide, by decide, by decide⟩
  · exact { h_dims := fun t _ => rfl
            h_dbuf := fun d hd => nomatch hd
            h_out := fun m _ => by simp [Int4c1eDemo.mem]
            h_obuf := by decide }
  · rw [← Option.isNone_iff_eq_none]
    decide +kernel

/-- **C16**, four uncontracted s shells with the default FINT: the queried size suffices exactly when there are at most 48
primitives. -/
theorem C16_4c1e_s_shells {α : Type} (s : Call2 α) (hl : s.si.l = 0 ∧ s.sj.l = 0 ∧ s.sk.l = 0 ∧ s.sl.l = 0)
    (hc : s.si.nctr = 1 ∧ s.sj.nctr = 1 ∧ s.sk.nctr = 1 ∧ s.sl.nctr = 1) :
    need4c1e 2 s ≤ cacheSize4c1e s ↔ s.si.nprim + s.sj.nprim + s.sk.nprim + s.sl.nprim ≤ 48 := by
  obtain ⟨l1, l2, l3, l4⟩ := hl
  obtain ⟨c1, c2, c3, c4⟩ := hc
  have he : s.env4 = initInt4c1e 0 0 0 0 { rys := 0 } := by
    unfold Call2.env4
    rw [l1, l2, l3, l4]
  have hnf : s.env4.nf = 1 := by rw [he]; rfl
  have hg : s.leng4 = 6 := by unfold Call2.leng4; rw [he]; rfl
  have hb : bSize4 s.env4 = 1 := by rw [he]; rfl
  unfold need4c1e posG4 posTbl4 cacheSize4c1e dblOf Call2.len4 Call2.nctr Call2.tblLen4
  dsimp only
  rw [hnf, hg, hb, c1, c2, c3, c4]
  omega

/-- **C16**, three shells with three contractions and one with one: the queried size is smaller than the size used, whatever the
angular momenta, unless there are very many primitives. -/
theorem C16_4c1e_too_small {α : Type} (s : Call2 α) (hc : s.si.nctr = 3 ∧ s.sj.nctr = 3 ∧ s.sk.nctr = 3 ∧ s.sl.nctr = 1)
    (hp : 2 * (s.si.nprim + s.sj.nprim + s.sk.nprim) ≤ 21 * (ncart s.si.l * ncart s.sj.l * ncart s.sk.l * ncart s.sl.l)) :
    cacheSize4c1e s < need4c1e 2 s := by
  obtain ⟨c1, c2, c3, c4⟩ := hc
  have enf : s.env4.nf = ncart s.si.l * ncart s.sj.l * ncart s.sk.l * ncart s.sl.l := by
    show lenCart s.si.l * lenCart s.sk.l * lenCart s.sl.l * lenCart s.sj.l = _
    simp only [lenCart_eq]
    ring
  rw [← enf] at hp
  have hb : 0 < bSize4 s.env4 := Nat.mul_pos (Nat.succ_pos _) (Nat.succ_pos _)
  unfold need4c1e posG4 posTbl4 cacheSize4c1e dblOf Call2.len4 Call2.nctr Call2.tblLen4
  dsimp only
  rw [c1, c2, c3, c4]
  generalize s.env4.nf = nf at *
  generalize bSize4 s.env4 = b at *
  generalize s.leng4 = g at *
  omega

/-- d shells with eight primitives -/
example : ∃ s : Call2 ℚ, s.si.l = 2 ∧ s.si.nprim = 8 ∧ cacheSize4c1e s < need4c1e 2 s :=
  let sh (n : Nat) : PShell ℚ := { nprim := 8, nctr := n, l := 2, a := fun _ => 1, c := fun _ => 1, r := fun _ => 0 }
  ⟨{ si := sh 3, sj := sh 3, sk := sh 3, sl := sh 1, envCut := 0, omega := 0 }, rfl, rfl,
    C16_4c1e_too_small _ ⟨rfl, rfl, rfl, rfl⟩ (by decide)⟩

end Verif.Props
