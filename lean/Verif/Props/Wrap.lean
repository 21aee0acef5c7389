import Verif.Model.Wrap
import Verif.Props.SphDrv
import Verif.Props.EriExact
import Verif.Props.Eri2c
import Verif.Props.Eri3
import Verif.Props.Int3c1e

/-!
C39: the functions without `dims` and `cache` (libcint 2 and Fortran interface) give the integrals of the functions with these
arguments.

In each theorem `A` is a call of the full function with any `dims` (or none) and a cache supplied by the caller, and `W` is
memory in which the function without these arguments is called; `malloc` gives it a block of (at least) the size the driver
asks for.  The two calls share nothing but the integral and the shells.  Both complete, return the same value and store the same
numbers; the second stores them without gaps.
-/
namespace Verif.Props
open Verif Verif.Model Verif.Prog Verif.Lemmas Verif.Spec

section
variable {α : Type} [Field α] [LinearOrder α]

theorem dense_none {r : Nat} {h : Heap α} {counts : Ptr} {nd cnt : Nat → Nat} (H : DimsArg r h none counts nd cnt)
    (n i j k l : Nat) : outAt cnt n i j k l = outAt nd n i j k l := by
  have e : ∀ t, t < 4 → nd t = cnt t := H
  unfold outAt
  rw [e 0 (by omega), e 1 (by omega), e 2 (by omega), e 3 (by omega)]

theorem flag_eq {a b : Bool} {p : Prop} (ha : a = true ↔ p) (hb : b = true ↔ p) : b = a := by
  have := hb.trans ha.symm
  cases a <;> cases b <;> simp_all

/-- **C39**, one-electron integrals with Cartesian output. -/
theorem C39_one_electron_cart {K : Consts α} {L : MathLib α} {X : Int1e α} {s : Call α}
    {w : Nat → Nat → Nat → α}
    (st : Nat) (A W : CartMem X s) (hd : W.dims = none) (hK : EvalOK K L X s w)
    (hnc : 1 ≤ X.nComp) (hli : s.si.l ≤ 15) (hlj : s.sj.l ≤ 15) :
    ∃ has ha hw,
      run (int1e X s K L A.fpd (fun _ _ => pure) (two (ncart s.si.l) (ncart s.sj.l)) A.out A.dims (some A.buf) st
        A.fl A.loc A.counts) A.h = some (has, ha) ∧
      run (cint1e X s K L W.fpd (fun _ _ => pure) (two (ncart s.si.l) (ncart s.sj.l)) W.out W.buf
        W.fl W.loc W.counts) W.h = some (has, hw) ∧
      ∀ n ic jc i j, n < X.nComp → ic < s.si.nctr → jc < s.sj.nctr →
        i < ncart s.si.l → j < ncart s.sj.l → (∃ v, A.elem ha n ic i jc j = .val v) ∧
        hw.D (W.out + outAt (fun t => (two (ncart s.si.l) (ncart s.sj.l)) t * (two s.si.nctr s.sj.nctr) t) n (ic*(ncart s.si.l)+i) (jc*(ncart s.sj.l)+j) 0 0) =
          A.elem ha n ic i jc j := by
  obtain ⟨ra, ha, r1, v1, _, _, _, f1⟩ := drv1e_cart A.M A.hsize A.hs A.O hK hnc hli hlj
  obtain ⟨rw, hw, r2, v2, _, _, _, f2⟩ := drv1e_cart W.M W.hsize W.hs W.O hK hnc hli hlj
  obtain rfl := flag_eq f1 f2
  refine ⟨_, ha, hw, r1, ?_, ?_⟩
  · rw [hd] at r2
    exact r2
  · have ho := W.O.h_dims
    rw [hd] at ho
    intro n ic jc i j h0 h1 h2 h3 h4
    refine ⟨⟨_, v1 n ic jc i j h0 h1 h2 h3 h4⟩, ?_⟩
    rw [dense_none ho]
    exact (v2 n ic jc i j h0 h1 h2 h3 h4).trans (v1 n ic jc i j h0 h1 h2 h3 h4).symm

/-- **C39**, one-electron integrals with spherical output. -/
theorem C39_one_electron_sph {K : Consts α} {L : MathLib α} {X : Int1e α} {s : Call α}
    {w : Nat → Nat → Nat → α}
    (st : Nat) (A W : SphMem X s) (hd : W.dims = none) (hK : EvalOK K L X s w)
    (hnc : 1 ≤ X.nComp) (hli : s.si.l ≤ 15) (hlj : s.sj.l ≤ 15) :
    ∃ has ha hw,
      run (int1e X s K L A.fpd (sphTrans1e A.tab A.fpd s.si.l s.sj.l) (two (s.si.l*2+1) (s.sj.l*2+1)) A.out A.dims (some A.buf) st
        A.fl A.loc A.counts) A.h = some (has, ha) ∧
      run (cint1e X s K L W.fpd (sphTrans1e W.tab W.fpd s.si.l s.sj.l) (two (s.si.l*2+1) (s.sj.l*2+1)) W.out W.buf
        W.fl W.loc W.counts) W.h = some (has, hw) ∧
      ∀ n ic jc i j, n < X.nComp → ic < s.si.nctr → jc < s.sj.nctr →
        i < s.si.l*2+1 → j < s.sj.l*2+1 → (∃ v, A.elem ha n ic i jc j = .val v) ∧
        hw.D (W.out + outAt (fun t => (two (s.si.l*2+1) (s.sj.l*2+1)) t * (two s.si.nctr s.sj.nctr) t) n (ic*(s.si.l*2+1)+i) (jc*(s.sj.l*2+1)+j) 0 0) =
          A.elem ha n ic i jc j := by
  obtain ⟨ra, ha, r1, v1, _, _, _, f1⟩ := drv1e_sph A.M A.hsize A.hs A.O A.hT A.htb A.hto hK hnc hli hlj
  obtain ⟨rw, hw, r2, v2, _, _, _, f2⟩ := drv1e_sph W.M W.hsize W.hs W.O W.hT W.htb W.hto hK hnc hli hlj
  obtain rfl := flag_eq f1 f2
  refine ⟨_, ha, hw, r1, ?_, ?_⟩
  · rw [hd] at r2
    exact r2
  · have ho := W.O.h_dims
    rw [hd] at ho
    intro n ic jc i j h0 h1 h2 h3 h4
    refine ⟨⟨_, v1 n ic jc i j h0 h1 h2 h3 h4⟩, ?_⟩
    rw [dense_none ho]
    exact (v2 n ic jc i j h0 h1 h2 h3 h4).trans (v1 n ic jc i j h0 h1 h2 h3 h4).symm

/-- **C39**, four-centre integrals with Cartesian output. -/
theorem C39_four_centre_cart {R : Rys2 α} {K : Consts α} {L : MathLib α} {X : Int2e α} {s : Call2 α}
    {keep : Nat → Nat → Nat → Nat → Bool} {w : Nat → Nat → Nat → Nat → Nat → α}
    (st : Nat) (A W : CartMem4 X s) (hd : W.dims = none) (hK : EvalOK2 R K L X s keep w)
    (hnc : 1 ≤ X.nComp) (hl : ∀ t, t < 4 → Call2.ls s t ≤ 15) :
    ∃ has ha hw,
      run (int2e X s R K L A.fpd (fun _ _ => pure) (ncar (Call2.ls s)) A.out A.dims (some A.buf) st
        A.empty A.fl A.loc A.counts) A.h = some (has, ha) ∧
      run (cint2e X s R K L W.fpd (fun _ _ => pure) (ncar (Call2.ls s)) W.out W.buf
        W.empty W.fl W.loc W.counts) W.h = some (has, hw) ∧
      ∀ n ic jc kc lc i j k l, n < X.nComp → ic < s.si.nctr → jc < s.sj.nctr → kc < s.sk.nctr → lc < s.sl.nctr →
        i < ncart s.si.l → j < ncart s.sj.l → k < ncart s.sk.l → l < ncart s.sl.l → (∃ v, A.elem ha n ic i jc j kc k lc l = .val v) ∧
        hw.D (W.out + outAt (fun t => (ncar (Call2.ls s)) t * (Call2.nctrs s) t) n (ic*(ncart s.si.l)+i) (jc*(ncart s.sj.l)+j) (kc*(ncart s.sk.l)+k) (lc*(ncart s.sl.l)+l)) =
          A.elem ha n ic i jc j kc k lc l := by
  obtain ⟨ra, ha, r1, v1, _, _, f1⟩ := drv2e_cart A.M A.hsize A.hs A.O hK hnc hl
  obtain ⟨rw, hw, r2, v2, _, _, f2⟩ := drv2e_cart W.M W.hsize W.hs W.O hK hnc hl
  obtain rfl := flag_eq f1 f2
  refine ⟨_, ha, hw, r1, ?_, ?_⟩
  · rw [hd] at r2
    exact r2
  · have ho := W.O.h_dims
    rw [hd] at ho
    intro n ic jc kc lc i j k l h0 h1 h2 h3 h4 h5 h6 h7 h8
    refine ⟨⟨_, v1 n ic jc kc lc i j k l h0 h1 h2 h3 h4 h5 h6 h7 h8⟩, ?_⟩
    rw [dense_none ho]
    exact (v2 n ic jc kc lc i j k l h0 h1 h2 h3 h4 h5 h6 h7 h8).trans (v1 n ic jc kc lc i j k l h0 h1 h2 h3 h4 h5 h6 h7 h8).symm

/-- **C39**, four-centre integrals with spherical output. -/
theorem C39_four_centre_sph {R : Rys2 α} {K : Consts α} {L : MathLib α} {X : Int2e α} {s : Call2 α}
    {keep : Nat → Nat → Nat → Nat → Bool} {w : Nat → Nat → Nat → Nat → Nat → α}
    (st : Nat) (A W : SphMem4 X s) (hd : W.dims = none) (hK : EvalOK2 R K L X s keep w)
    (hnc : 1 ≤ X.nComp) (hl : ∀ t, t < 4 → Call2.ls s t ≤ 15) :
    ∃ has ha hw,
      run (int2e X s R K L A.fpd (sphTrans2e A.tab A.fpd s.si.l s.sj.l s.sk.l s.sl.l) (nsph (Call2.ls s)) A.out A.dims (some A.buf) st
        A.empty A.fl A.loc A.counts) A.h = some (has, ha) ∧
      run (cint2e X s R K L W.fpd (sphTrans2e W.tab W.fpd s.si.l s.sj.l s.sk.l s.sl.l) (nsph (Call2.ls s)) W.out W.buf
        W.empty W.fl W.loc W.counts) W.h = some (has, hw) ∧
      ∀ n ic jc kc lc i j k l, n < X.nComp → ic < s.si.nctr → jc < s.sj.nctr → kc < s.sk.nctr → lc < s.sl.nctr →
        i < s.si.l*2+1 → j < s.sj.l*2+1 → k < s.sk.l*2+1 → l < s.sl.l*2+1 → (∃ v, A.elem ha n ic i jc j kc k lc l = .val v) ∧
        hw.D (W.out + outAt (fun t => (nsph (Call2.ls s)) t * (Call2.nctrs s) t) n (ic*(s.si.l*2+1)+i) (jc*(s.sj.l*2+1)+j) (kc*(s.sk.l*2+1)+k) (lc*(s.sl.l*2+1)+l)) =
          A.elem ha n ic i jc j kc k lc l := by
  obtain ⟨ra, ha, r1, v1, _, _, f1⟩ := drv2e_sph A.M A.hsize A.hs A.O A.hT A.htb A.hto hK hnc hl
  obtain ⟨rw, hw, r2, v2, _, _, f2⟩ := drv2e_sph W.M W.hsize W.hs W.O W.hT W.htb W.hto hK hnc hl
  obtain rfl := flag_eq f1 f2
  refine ⟨_, ha, hw, r1, ?_, ?_⟩
  · rw [hd] at r2
    exact r2
  · have ho := W.O.h_dims
    rw [hd] at ho
    intro n ic jc kc lc i j k l h0 h1 h2 h3 h4 h5 h6 h7 h8
    refine ⟨⟨_, v1 n ic jc kc lc i j k l h0 h1 h2 h3 h4 h5 h6 h7 h8⟩, ?_⟩
    rw [dense_none ho]
    exact (v2 n ic jc kc lc i j k l h0 h1 h2 h3 h4 h5 h6 h7 h8).trans (v1 n ic jc kc lc i j k l h0 h1 h2 h3 h4 h5 h6 h7 h8).symm

/-- **C39**, two-centre integrals with Cartesian output. -/
theorem C39_two_centre_cart {R : Rys2 α} {K : Consts α} {X : Int2e α} {s : Call2c α}
    {keep : Nat → Nat → Bool} {w : Nat → Nat → Nat → α}
    (st : Nat) (A W : CartMem2c X s) (hd : W.dims = none) (hK : EvalOK2c R K X s keep w)
    (hnc : 1 ≤ X.nComp) (hl : ∀ t, t < 4 → Call2c.ls s t ≤ 15) :
    ∃ has ha hw,
      run (int2c2e X s R K A.fpd (fun _ _ => pure) (ncar (Call2c.ls s)) A.out A.dims (some A.buf) st
        A.empty A.fl A.loc A.counts) A.h = some (has, ha) ∧
      run (cint2c2e X s R K W.fpd (fun _ _ => pure) (ncar (Call2c.ls s)) W.out W.buf
        W.empty W.fl W.loc W.counts) W.h = some (has, hw) ∧
      ∀ n ic kc i k, n < X.nComp → ic < s.si.nctr → kc < s.sk.nctr →
        i < ncart s.si.l → k < ncart s.sk.l → (∃ v, A.elem ha n ic i kc k = .val v) ∧
        hw.D (W.out + outAt (fun t => (ncar (Call2c.ls s)) t * (Call2c.nctrs s) t) n (ic*(ncart s.si.l)+i) (kc*(ncart s.sk.l)+k) 0 0) =
          A.elem ha n ic i kc k := by
  obtain ⟨ra, ha, r1, v1, _, _, f1⟩ := drv2c2e_cart A.M A.hsize A.hs A.O A.hd2 hK hnc hl
  obtain ⟨rw, hw, r2, v2, _, _, f2⟩ := drv2c2e_cart W.M W.hsize W.hs W.O W.hd2 hK hnc hl
  obtain rfl := flag_eq f1 f2
  refine ⟨_, ha, hw, r1, ?_, ?_⟩
  · rw [hd] at r2
    exact r2
  · have ho := W.O.h_dims
    rw [hd] at ho
    intro n ic kc i k h0 h1 h2 h3 h4
    refine ⟨⟨_, v1 n ic kc i k h0 h1 h2 h3 h4⟩, ?_⟩
    rw [dense_none ho]
    exact (v2 n ic kc i k h0 h1 h2 h3 h4).trans (v1 n ic kc i k h0 h1 h2 h3 h4).symm

/-- **C39**, two-centre integrals with spherical output. -/
theorem C39_two_centre_sph {R : Rys2 α} {K : Consts α} {X : Int2e α} {s : Call2c α}
    {keep : Nat → Nat → Bool} {w : Nat → Nat → Nat → α}
    (st : Nat) (A W : SphMem2c X s) (hd : W.dims = none) (hK : EvalOK2c R K X s keep w)
    (hnc : 1 ≤ X.nComp) (hl : ∀ t, t < 4 → Call2c.ls s t ≤ 15) :
    ∃ has ha hw,
      run (int2c2e X s R K A.fpd (sphTrans1e A.tab A.fpd s.si.l s.sk.l) (nsph (Call2c.ls s)) A.out A.dims (some A.buf) st
        A.empty A.fl A.loc A.counts) A.h = some (has, ha) ∧
      run (cint2c2e X s R K W.fpd (sphTrans1e W.tab W.fpd s.si.l s.sk.l) (nsph (Call2c.ls s)) W.out W.buf
        W.empty W.fl W.loc W.counts) W.h = some (has, hw) ∧
      ∀ n ic kc i k, n < X.nComp → ic < s.si.nctr → kc < s.sk.nctr →
        i < s.si.l*2+1 → k < s.sk.l*2+1 → (∃ v, A.elem ha n ic i kc k = .val v) ∧
        hw.D (W.out + outAt (fun t => (nsph (Call2c.ls s)) t * (Call2c.nctrs s) t) n (ic*(s.si.l*2+1)+i) (kc*(s.sk.l*2+1)+k) 0 0) =
          A.elem ha n ic i kc k := by
  obtain ⟨ra, ha, r1, v1, _, _, f1⟩ := drv2c2e_sph A.M A.hsize A.hs A.O A.hd2 A.hT A.htb A.hto hK hnc hl
  obtain ⟨rw, hw, r2, v2, _, _, f2⟩ := drv2c2e_sph W.M W.hsize W.hs W.O W.hd2 W.hT W.htb W.hto hK hnc hl
  obtain rfl := flag_eq f1 f2
  refine ⟨_, ha, hw, r1, ?_, ?_⟩
  · rw [hd] at r2
    exact r2
  · have ho := W.O.h_dims
    rw [hd] at ho
    intro n ic kc i k h0 h1 h2 h3 h4
    refine ⟨⟨_, v1 n ic kc i k h0 h1 h2 h3 h4⟩, ?_⟩
    rw [dense_none ho]
    exact (v2 n ic kc i k h0 h1 h2 h3 h4).trans (v1 n ic kc i k h0 h1 h2 h3 h4).symm

/-- **C39**, three-centre two-electron integrals with Cartesian output. -/
theorem C39_three_centre_cart {R : Rys2 α} {K : Consts α} {L : MathLib α} {X : Int2e α} {s : Call3 α}
    {keep : Nat → Nat → Nat → Bool} {w : Nat → Nat → Nat → Nat → α}
    (st : Nat) (A W : CartMem3 X s) (hd : W.dims = none) (hK : EvalOK3 R K L X s keep w)
    (hnc : 1 ≤ X.nComp) (hl : ∀ t, t < 4 → Call3.ls s t ≤ 15) :
    ∃ has ha hw,
      run (int3c2e X s R K L A.fpd (fun _ _ => pure) (ncar (Call3.ls s)) A.out A.dims (some A.buf) st
        A.empty A.fl A.loc A.counts) A.h = some (has, ha) ∧
      run (cint3c2e X s R K L W.fpd (fun _ _ => pure) (ncar (Call3.ls s)) W.out W.buf
        W.empty W.fl W.loc W.counts) W.h = some (has, hw) ∧
      ∀ n ic jc kc i j k, n < X.nComp → ic < s.si.nctr → jc < s.sj.nctr → kc < s.sk.nctr →
        i < ncart s.si.l → j < ncart s.sj.l → k < ncart s.sk.l → (∃ v, A.elem ha n ic i jc j kc k = .val v) ∧
        hw.D (W.out + outAt (fun t => (ncar (Call3.ls s)) t * (Call3.nctrs s) t) n (ic*(ncart s.si.l)+i) (jc*(ncart s.sj.l)+j) (kc*(ncart s.sk.l)+k) 0) =
          A.elem ha n ic i jc j kc k := by
  obtain ⟨ra, ha, r1, v1, _, _, f1⟩ := drv3c2e_cart A.M A.hsize A.hs A.O hK hnc hl
  obtain ⟨rw, hw, r2, v2, _, _, f2⟩ := drv3c2e_cart W.M W.hsize W.hs W.O hK hnc hl
  obtain rfl := flag_eq f1 f2
  refine ⟨_, ha, hw, r1, ?_, ?_⟩
  · rw [hd] at r2
    exact r2
  · have ho := W.O.h_dims
    rw [hd] at ho
    intro n ic jc kc i j k h0 h1 h2 h3 h4 h5 h6
    refine ⟨⟨_, v1 n ic jc kc i j k h0 h1 h2 h3 h4 h5 h6⟩, ?_⟩
    rw [dense_none ho]
    exact (v2 n ic jc kc i j k h0 h1 h2 h3 h4 h5 h6).trans (v1 n ic jc kc i j k h0 h1 h2 h3 h4 h5 h6).symm

/-- **C39**, three-centre two-electron integrals with spherical output. -/
theorem C39_three_centre_sph {R : Rys2 α} {K : Consts α} {L : MathLib α} {X : Int2e α} {s : Call3 α}
    {keep : Nat → Nat → Nat → Bool} {w : Nat → Nat → Nat → Nat → α}
    (st : Nat) (A W : SphMem3 X s) (hd : W.dims = none) (hK : EvalOK3 R K L X s keep w)
    (hnc : 1 ≤ X.nComp) (hl : ∀ t, t < 4 → Call3.ls s t ≤ 15) :
    ∃ has ha hw,
      run (int3c2e X s R K L A.fpd (sphTrans3c A.tab A.fpd s.si.l s.sj.l s.sk.l) (nsph (Call3.ls s)) A.out A.dims (some A.buf) st
        A.empty A.fl A.loc A.counts) A.h = some (has, ha) ∧
      run (cint3c2e X s R K L W.fpd (sphTrans3c W.tab W.fpd s.si.l s.sj.l s.sk.l) (nsph (Call3.ls s)) W.out W.buf
        W.empty W.fl W.loc W.counts) W.h = some (has, hw) ∧
      ∀ n ic jc kc i j k, n < X.nComp → ic < s.si.nctr → jc < s.sj.nctr → kc < s.sk.nctr →
        i < s.si.l*2+1 → j < s.sj.l*2+1 → k < s.sk.l*2+1 → (∃ v, A.elem ha n ic i jc j kc k = .val v) ∧
        hw.D (W.out + outAt (fun t => (nsph (Call3.ls s)) t * (Call3.nctrs s) t) n (ic*(s.si.l*2+1)+i) (jc*(s.sj.l*2+1)+j) (kc*(s.sk.l*2+1)+k) 0) =
          A.elem ha n ic i jc j kc k := by
  obtain ⟨ra, ha, r1, v1, _, _, f1⟩ := drv3c2e_sph A.M A.hsize A.hs A.O A.hT A.htb A.hto hK hnc hl
  obtain ⟨rw, hw, r2, v2, _, _, f2⟩ := drv3c2e_sph W.M W.hsize W.hs W.O W.hT W.htb W.hto hK hnc hl
  obtain rfl := flag_eq f1 f2
  refine ⟨_, ha, hw, r1, ?_, ?_⟩
  · rw [hd] at r2
    exact r2
  · have ho := W.O.h_dims
    rw [hd] at ho
    intro n ic jc kc i j k h0 h1 h2 h3 h4 h5 h6
    refine ⟨⟨_, v1 n ic jc kc i j k h0 h1 h2 h3 h4 h5 h6⟩, ?_⟩
    rw [dense_none ho]
    exact (v2 n ic jc kc i j k h0 h1 h2 h3 h4 h5 h6).trans (v1 n ic jc kc i j k h0 h1 h2 h3 h4 h5 h6).symm

/-- **C39**, one-electron integrals over three functions with Cartesian output. -/
theorem C39_three_functions_cart {R : Rys α} {K : Consts α} {L : MathLib α} {op : Op3c1e α} {X : Int2e α} {s : Call3 α}
    {keep : Nat → Nat → Nat → Bool} {w : Nat → Nat → Nat → Nat → α}
    (st : Nat) (A W : CartMem31 X s) (hd : W.dims = none) (hK : EvalOK1 R K L op X s keep w)
    (hnc : 1 ≤ X.nComp) (hl : ∀ t, t < 4 → Call3.ls s t ≤ 15) :
    ∃ has ha hw,
      run (int3c1e X s R K L op A.fpd (fun _ _ => pure) (ncar (Call3.ls s)) A.out A.dims (some A.buf) st
        A.empty A.fl A.loc A.counts) A.h = some (has, ha) ∧
      run (cint3c1e X s R K L op W.fpd (fun _ _ => pure) (ncar (Call3.ls s)) W.out W.buf
        W.empty W.fl W.loc W.counts) W.h = some (has, hw) ∧
      ∀ n ic jc kc i j k, n < X.nComp → ic < s.si.nctr → jc < s.sj.nctr → kc < s.sk.nctr →
        i < ncart s.si.l → j < ncart s.sj.l → k < ncart s.sk.l → (∃ v, A.elem ha n ic i jc j kc k = .val v) ∧
        hw.D (W.out + outAt (fun t => (ncar (Call3.ls s)) t * (Call3.nctrs s) t) n (ic*(ncart s.si.l)+i) (jc*(ncart s.sj.l)+j) (kc*(ncart s.sk.l)+k) 0) =
          A.elem ha n ic i jc j kc k := by
  obtain ⟨ra, ha, r1, v1, _, _, f1⟩ := drv3c1e_cart A.M A.fits A.hsize A.hs A.O hK hnc hl
  obtain ⟨rw, hw, r2, v2, _, _, f2⟩ := drv3c1e_cart W.M W.fits W.hsize W.hs W.O hK hnc hl
  obtain rfl := flag_eq f1 f2
  refine ⟨_, ha, hw, r1, ?_, ?_⟩
  · rw [hd] at r2
    exact r2
  · have ho := W.O.h_dims
    rw [hd] at ho
    intro n ic jc kc i j k h0 h1 h2 h3 h4 h5 h6
    refine ⟨⟨_, v1 n ic jc kc i j k h0 h1 h2 h3 h4 h5 h6⟩, ?_⟩
    rw [dense_none ho]
    exact (v2 n ic jc kc i j k h0 h1 h2 h3 h4 h5 h6).trans (v1 n ic jc kc i j k h0 h1 h2 h3 h4 h5 h6).symm

/-- **C39**, one-electron integrals over three functions with spherical output. -/
theorem C39_three_functions_sph {R : Rys α} {K : Consts α} {L : MathLib α} {op : Op3c1e α} {X : Int2e α} {s : Call3 α}
    {keep : Nat → Nat → Nat → Bool} {w : Nat → Nat → Nat → Nat → α}
    (st : Nat) (A W : SphMem31 X s) (hd : W.dims = none) (hK : EvalOK1 R K L op X s keep w)
    (hnc : 1 ≤ X.nComp) (hl : ∀ t, t < 4 → Call3.ls s t ≤ 15) :
    ∃ has ha hw,
      run (int3c1e X s R K L op A.fpd (sphTrans3c A.tab A.fpd s.si.l s.sj.l s.sk.l) (nsph (Call3.ls s)) A.out A.dims (some A.buf) st
        A.empty A.fl A.loc A.counts) A.h = some (has, ha) ∧
      run (cint3c1e X s R K L op W.fpd (sphTrans3c W.tab W.fpd s.si.l s.sj.l s.sk.l) (nsph (Call3.ls s)) W.out W.buf
        W.empty W.fl W.loc W.counts) W.h = some (has, hw) ∧
      ∀ n ic jc kc i j k, n < X.nComp → ic < s.si.nctr → jc < s.sj.nctr → kc < s.sk.nctr →
        i < s.si.l*2+1 → j < s.sj.l*2+1 → k < s.sk.l*2+1 → (∃ v, A.elem ha n ic i jc j kc k = .val v) ∧
        hw.D (W.out + outAt (fun t => (nsph (Call3.ls s)) t * (Call3.nctrs s) t) n (ic*(s.si.l*2+1)+i) (jc*(s.sj.l*2+1)+j) (kc*(s.sk.l*2+1)+k) 0) =
          A.elem ha n ic i jc j kc k := by
  obtain ⟨ra, ha, r1, v1, _, _, f1⟩ := drv3c1e_sph A.M A.fits A.hsize A.hs A.O A.hT A.htb A.hto hK hnc hl
  obtain ⟨rw, hw, r2, v2, _, _, f2⟩ := drv3c1e_sph W.M W.fits W.hsize W.hs W.O W.hT W.htb W.hto hK hnc hl
  obtain rfl := flag_eq f1 f2
  refine ⟨_, ha, hw, r1, ?_, ?_⟩
  · rw [hd] at r2
    exact r2
  · have ho := W.O.h_dims
    rw [hd] at ho
    intro n ic jc kc i j k h0 h1 h2 h3 h4 h5 h6
    refine ⟨⟨_, v1 n ic jc kc i j k h0 h1 h2 h3 h4 h5 h6⟩, ?_⟩
    rw [dense_none ho]
    exact (v2 n ic jc kc i j k h0 h1 h2 h3 h4 h5 h6).trans (v1 n ic jc kc i j k h0 h1 h2 h3 h4 h5 h6).symm
end

namespace WrapDemo
open OvlpDemo SphDemo EriDemo

/-- one-electron overlap integrals with spherical output: the hypotheses hold for memory that is allocated but not
initialised -/
example : ∃ has ha hw,
    SphEnds (sphMem ovlpInt call (by decide) (by decide)) realK lib has ha ∧
    run (cint1e ovlpInt call realK lib 1 (sphTrans1e ⟨9, 0⟩ 1 1 2) (two (1*2+1) (2*2+1)) ⟨5, 7⟩ 0
      ⟨1, 0⟩ ⟨2, 0⟩ ⟨3, 0⟩) memR = some (has, hw) := by
  obtain ⟨has, ha, hw, e1, e2, _⟩ := C39_one_electron_sph 11 (sphMem ovlpInt call (by decide) (by decide))
    (sphMem ovlpInt call (by decide) (by decide)) rfl
    (ovlp_eval (L := lib) (s := call) (fun _ _ _ _ => by show (0:ℝ) < 1 + 1; norm_num)) (le_refl 1) (by decide) (by decide)
  exact ⟨has, ha, hw, e1, e2⟩

/-- four-centre integrals with spherical output -/
example : ∃ R has ha hw, SphEnds4 (sphMem4 (call4 (1/3)) (EriDemo.ctr_pos _)) R realK lib has ha ∧
    run (cint2e eriInt (call4 (1/3)) R realK lib 1 (sphTrans2e ⟨9, 0⟩ 1 1 2 0 1) (nsph (Call2.ls (call4 (1/3)))) ⟨5, 7⟩ 0
      ⟨4, 0⟩ ⟨1, 0⟩ ⟨2, 0⟩ ⟨3, 0⟩) memR = some (has, hw) := by
  obtain ⟨R, hR⟩ := exists_rys2
  obtain ⟨has, ha, hw, e1, e2, _⟩ := C39_four_centre_sph 11 (sphMem4 (call4 (1/3)) (EriDemo.ctr_pos _)) (sphMem4 (call4 (1/3)) (EriDemo.ctr_pos _)) rfl
    (eri_eval (L := lib) (posExp _) (hR _)) (le_refl 1) (lok _)
  exact ⟨R, has, ha, hw, e1, e2⟩

/-- two-centre integrals with Cartesian output -/
example : ∃ R has ha, CartEnds2c (Eri2cDemo.cartMem2c (Eri2cDemo.call2c (1/3)) (Eri2cDemo.ctr_pos2c _)) R realK has ha := by
  obtain ⟨R, hR⟩ := exists_rys2
  obtain ⟨has, ha, _, e1, _⟩ := C39_two_centre_cart 11 (Eri2cDemo.cartMem2c (Eri2cDemo.call2c (1/3)) (Eri2cDemo.ctr_pos2c _))
    (Eri2cDemo.cartMem2c (Eri2cDemo.call2c (1/3)) (Eri2cDemo.ctr_pos2c _)) rfl
    (eri_eval2c (Eri2cDemo.posExp2c _) (hR _)) (le_refl 1) (Eri2cDemo.lok2c _)
  exact ⟨R, has, ha, e1⟩

/-- three-centre integrals with Cartesian output -/
example : ∃ R has ha, CartEnds3 (Eri3Demo.cartMem3 (Eri3Demo.call3 (1/3)) (Eri3Demo.ctr_pos3 _)) R realK lib has ha := by
  obtain ⟨R, hR⟩ := exists_rys2
  obtain ⟨has, ha, _, e1, _⟩ := C39_three_centre_cart 11 (Eri3Demo.cartMem3 (Eri3Demo.call3 (1/3)) (Eri3Demo.ctr_pos3 _))
    (Eri3Demo.cartMem3 (Eri3Demo.call3 (1/3)) (Eri3Demo.ctr_pos3 _)) rfl
    (eri_eval3 (L := lib) (Eri3Demo.posExp3 _) (hR _)) (le_refl 1) (Eri3Demo.lok3 _)
  exact ⟨R, has, ha, e1⟩

/-- overlap integrals over three functions with Cartesian output -/
example : ∃ R has ha, CartEnds31 (Int3c1eDemo.cartMem31 (Eri3Demo.call3 0) (Eri3Demo.ctr_pos3 _)) R realK lib .ovlp has ha := by
  obtain ⟨R, hR⟩ := NucDemo.rys
  obtain ⟨has, ha, _, e1, _⟩ := C39_three_functions_cart 11 (Int3c1eDemo.cartMem31 (Eri3Demo.call3 0) (Eri3Demo.ctr_pos3 _))
    (Int3c1eDemo.cartMem31 (Eri3Demo.call3 0) (Eri3Demo.ctr_pos3 _)) rfl
    (eval31 (L := lib) (op := .ovlp) (Int3c1eDemo.posExp31 _) (hR _)) (le_refl 1) (Eri3Demo.lok3 _)
  exact ⟨R, has, ha, e1⟩
end WrapDemo

end Verif.Props
