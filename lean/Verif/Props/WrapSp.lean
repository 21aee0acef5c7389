import Verif.Model.WrapSp
import Verif.Props.Wrap
import Verif.Props.SpinorEri3
import Verif.Props.Int4c1e
import Verif.Props.GridsSpinor

/-!
C39: the functions of the libcint 2 and Fortran interface with spinor output and for integrals over four functions.

As in `Props/Wrap`, `A` is a call of the full function with any `dims` (or none) and a cache supplied by the caller, `W` is memory in
which the function without these arguments is called.  Both complete, return the same value and store the same complex numbers; the
second stores them without gaps.
-/
namespace Verif.Props
open Verif Verif.Model Verif.Prog Verif.Lemmas Verif.Spec

section
variable {α : Type} [Field α] [LinearOrder α]

/-- **C39**, one-electron integrals with spinor output. -/
theorem C39_one_electron_spinor {K : Consts α} {L : MathLib α} {X : Int1e α} {s : Call α} {w : Nat → Nat → Nat → α} {nT : Nat}
    {ki kj : Int} {kd : SpKind} (st : Nat) (A W : SpMem X s nT ki kj) (hd : W.dims = none)
    (hn : X.nComp = (if kd.si then 4 else 1) * nT) (hK : EvalOK K L X s w) (hnT : 1 ≤ nT) (hli : s.si.l < 13) (hlj : s.sj.l < 13) :
    ∃ has ha hw,
      run (int1eSp K L X s (if kd.si then 4 else 1) nT kd A.tab ki kj A.fpd A.out A.dims (some A.buf) st A.fl A.loc A.counts) A.h =
        some (has, ha) ∧
      run (cint1eSp K L X s (if kd.si then 4 else 1) nT kd W.tab ki kj W.fpd W.out W.buf W.fl W.loc W.counts) W.h = some (has, hw) ∧
      ∀ n ic jc i j, n < nT → ic < s.si.nctr → jc < s.sj.nctr → i < lenSpinorC2S ki s.si.l → j < lenSpinorC2S kj s.sj.l →
        ∃ z, A.Elem ha n ic i jc j z ∧
          HoldsC hw W.out (outAt (fun t => two (lenSpinorC2S ki s.si.l) (lenSpinorC2S kj s.sj.l) t * two s.si.nctr s.sj.nctr t) n
            (ic*lenSpinorC2S ki s.si.l+i) (jc*lenSpinorC2S kj s.sj.l+j) 0 0) z := by
  obtain ⟨ra, ha, r1, v1, _, _, _, f1⟩ := drv1eSp_run (kd := kd) A.M A.hsize A.hs A.O A.T hn hK hnT hli hlj
  obtain ⟨rw, hw, r2, v2, _, _, _, f2⟩ := drv1eSp_run (kd := kd) W.M W.hsize W.hs W.O W.T hn hK hnT hli hlj
  obtain rfl := flag_eq f1 f2
  refine ⟨_, ha, hw, r1, ?_, ?_⟩
  · rw [hd] at r2
    exact r2
  · have ho := W.O.h_dims
    rw [hd] at ho
    intro n ic jc i j h0 h1 h2 h3 h4
    refine ⟨_, v1 n ic jc i j h0 h1 h2 h3 h4, ?_⟩
    rw [dense_none ho]
    exact v2 n ic jc i j h0 h1 h2 h3 h4

/-- **C39**, four-centre integrals with spinor output. -/
theorem C39_four_centre_spinor {X : Int2e α} {s : Call2 α} {nT : Nat} {kap : Nat → Int} {k1 k2 : SpKind} {R : Rys2 α} {K : Consts α}
    {L : MathLib α} {keep : Nat → Nat → Nat → Nat → Bool} {w : Nat → Nat → Nat → Nat → Nat → α}
    (st : Nat) (A W : SpMem4 X s nT (SpKind.comps k2) kap) (hd : W.dims = none)
    (hn : X.nComp = SpKind.comps k1 * SpKind.comps k2 * nT) (hK : EvalOK2 R K L X s keep w) (hnT : 1 ≤ nT)
    (hl : ∀ t, t < 4 → Call2.ls s t < 13) :
    ∃ has ha hw,
      run (int2eSp X s R K L (SpKind.comps k1) (SpKind.comps k2) nT k1 k2 A.tab kap A.fpd A.out A.dims (some A.buf) st
        A.empty A.fl A.loc A.counts) A.h = some (has, ha) ∧
      run (cint2eSp X s R K L (SpKind.comps k1) (SpKind.comps k2) nT k1 k2 W.tab kap W.fpd W.out W.buf
        W.empty W.fl W.loc W.counts) W.h = some (has, hw) ∧
      ∀ n ic jc kc lc i j k l, n < nT → ic < s.si.nctr → jc < s.sj.nctr → kc < s.sk.nctr → lc < s.sl.nctr →
        i < lenSpinorC2S (kap 0) s.si.l → j < lenSpinorC2S (kap 1) s.sj.l → k < lenSpinorC2S (kap 2) s.sk.l →
        l < lenSpinorC2S (kap 3) s.sl.l →
        ∃ z, A.Elem ha n ic i jc j kc k lc l z ∧
          HoldsC hw W.out (outAt (fun t => Call2.nsp s kap t * Call2.nctrs s t) n (ic*lenSpinorC2S (kap 0) s.si.l+i)
            (jc*lenSpinorC2S (kap 1) s.sj.l+j) (kc*lenSpinorC2S (kap 2) s.sk.l+k) (lc*lenSpinorC2S (kap 3) s.sl.l+l)) z := by
  obtain ⟨ra, ha, r1, v1, _, _, f1, _⟩ := sp4_run (k1 := k1) A hn hK hnT hl
  obtain ⟨rw, hw, r2, v2, _, _, f2, _⟩ := sp4_run (k1 := k1) W hn hK hnT hl
  obtain rfl := flag_eq f1 f2
  refine ⟨_, ha, hw, r1, ?_, ?_⟩
  · rw [hd] at r2
    exact r2
  · have ho := W.O.h_dims
    rw [hd] at ho
    intro n ic jc kc lc i j k l h0 h1 h2 h3 h4 h5 h6 h7 h8
    refine ⟨_, v1 n ic jc kc lc i j k l h0 h1 h2 h3 h4 h5 h6 h7 h8, ?_⟩
    rw [dense_none ho]
    exact v2 n ic jc kc lc i j k l h0 h1 h2 h3 h4 h5 h6 h7 h8

/-- **C39**, three-centre integrals with spinor output. -/
theorem C39_three_centre_spinor {X : Int2e α} {s : Call3 α} {nT : Nat} {ki kj : Int} {kd : SpKind} {R : Rys2 α} {K : Consts α}
    {L : MathLib α} {keep : Nat → Nat → Nat → Bool} {w : Nat → Nat → Nat → Nat → α}
    (st : Nat) (A W : SpMem3 X s nT ki kj) (hd : W.dims = none) (hn : X.nComp = SpKind.comps kd * nT)
    (hK : EvalOK3 R K L X s keep w) (hnT : 1 ≤ nT) (hl : LOKsp3 s) :
    ∃ has ha hw,
      run (int3c2eSp X s R K L (SpKind.comps kd) nT kd A.sph A.tab ki kj A.fpd A.out A.dims (some A.buf) st
        A.empty A.fl A.loc A.counts) A.h = some (has, ha) ∧
      run (cint3c2eSp X s R K L (SpKind.comps kd) nT kd W.sph W.tab ki kj W.fpd W.out W.buf
        W.empty W.fl W.loc W.counts) W.h = some (has, hw) ∧
      ∀ n ic jc kc i j k, n < nT → ic < s.si.nctr → jc < s.sj.nctr → kc < s.sk.nctr →
        i < lenSpinorC2S ki s.si.l → j < lenSpinorC2S kj s.sj.l → k < s.sk.l*2+1 →
        ∃ z, A.Elem ha n ic i jc j kc k z ∧
          HoldsC hw W.out (outAt (fun t => Call3.nsp s ki kj t * Call3.nctrs s t) n (ic*lenSpinorC2S ki s.si.l+i)
            (jc*lenSpinorC2S kj s.sj.l+j) (kc*(s.sk.l*2+1)+k) 0) z := by
  obtain ⟨ra, ha, r1, v1, _, _, f1⟩ := sp3_run A hn hK hnT hl
  obtain ⟨rw, hw, r2, v2, _, _, f2⟩ := sp3_run W hn hK hnT hl
  obtain rfl := flag_eq f1 f2
  refine ⟨_, ha, hw, r1, ?_, ?_⟩
  · rw [hd] at r2
    exact r2
  · have ho := W.O.h_dims
    rw [hd] at ho
    intro n ic jc kc i j k h0 h1 h2 h3 h4 h5 h6
    refine ⟨_, v1 n ic jc kc i j k h0 h1 h2 h3 h4 h5 h6, ?_⟩
    rw [dense_none ho]
    exact v2 n ic jc kc i j k h0 h1 h2 h3 h4 h5 h6

/-- **C39**, two-centre integrals with spinor output. -/
theorem C39_two_centre_spinor {X : Int2e α} {s : Call2c α} {ki kk : Int} {ph : Bool} {R : Rys2 α} {K : Consts α}
    {keep : Nat → Nat → Bool} {w : Nat → Nat → Nat → α}
    (st : Nat) (A W : SpMem2c X s ki kk) (hd : W.dims = none) (hK : EvalOK2c R K X s keep w) (hnc : 1 ≤ X.nComp)
    (hl : ∀ t, t < 4 → Call2c.ls s t < 13) :
    ∃ has ha hw,
      run (int2c2eSp X s R K ⟨false, ph⟩ A.tab ki kk A.fpd A.out A.dims (some A.buf) st A.empty A.fl A.loc A.counts) A.h =
        some (has, ha) ∧
      run (cint2c2eSp X s R K ⟨false, ph⟩ W.tab ki kk W.fpd W.out W.buf W.empty W.fl W.loc W.counts) W.h = some (has, hw) ∧
      ∀ n ic kc i k, n < X.nComp → ic < s.si.nctr → kc < s.sk.nctr → i < lenSpinorC2S ki s.si.l → k < lenSpinorC2S kk s.sk.l →
        ∃ z, A.Elem ha n ic i kc k z ∧
          HoldsC hw W.out (outAt (fun t => four (lenSpinorC2S ki s.si.l) (lenSpinorC2S kk s.sk.l) 1 1 t * Call2c.nctrs s t) n
            (ic*lenSpinorC2S ki s.si.l+i) (kc*lenSpinorC2S kk s.sk.l+k) 0 0) z := by
  obtain ⟨ra, ha, r1, v1, _, _, f1⟩ := sp2c_run (ph := ph) A hK hnc hl
  obtain ⟨rw, hw, r2, v2, _, _, f2⟩ := sp2c_run (ph := ph) W hK hnc hl
  obtain rfl := flag_eq f1 f2
  refine ⟨_, ha, hw, r1, ?_, ?_⟩
  · rw [hd] at r2
    exact r2
  · have ho := W.O.h_dims
    rw [hd] at ho
    intro n ic kc i k h0 h1 h2 h3 h4
    refine ⟨_, v1 n ic kc i k h0 h1 h2 h3 h4, ?_⟩
    rw [dense_none ho]
    exact v2 n ic kc i k h0 h1 h2 h3 h4

/-- **C39**, integrals over four functions with Cartesian output.  (The cache the driver allocates must have the size the loop function
uses; `C16_4c1e_fits` says when the size it asks for is enough.) -/
theorem C39_four_functions_cart {s : Call2 α} {K : Consts α} {L : MathLib α} {w : Nat → Nat → Nat → Nat → Nat → α}
    (st : Nat) (A W : CartMem41 s) (hd : W.dims = none) (hK : EvalOK4 K L s w) (hl : ∀ t, t < 4 → Call2.ls s t ≤ 15) :
    ∃ has ha hw,
      run (int4c1e s K L A.fpd (fun _ _ => pure) (ncar (Call2.ls s)) A.out A.dims (some A.buf) st A.empty A.fl A.loc A.counts) A.h =
        some (has, ha) ∧
      run (cint4c1e s K L W.fpd (fun _ _ => pure) (ncar (Call2.ls s)) W.out W.buf W.empty W.fl W.loc W.counts) W.h = some (has, hw) ∧
      ∀ ic jc kc lc i j k l, ic < s.si.nctr → jc < s.sj.nctr → kc < s.sk.nctr → lc < s.sl.nctr →
        i < ncart s.si.l → j < ncart s.sj.l → k < ncart s.sk.l → l < ncart s.sl.l → (∃ v, A.elem ha ic i jc j kc k lc l = .val v) ∧
        hw.D (W.out + outAt (fun t => ncar (Call2.ls s) t * Call2.nctrs s t) 0 (ic*ncart s.si.l+i) (jc*ncart s.sj.l+j)
          (kc*ncart s.sk.l+k) (lc*ncart s.sl.l+l)) = A.elem ha ic i jc j kc k lc l := by
  obtain ⟨ra, ha, r1, v1, _, _, f1⟩ := drv4c1e_cart A.M A.hneed A.hs A.O hK hl
  obtain ⟨rw, hw, r2, v2, _, _, f2⟩ := drv4c1e_cart W.M W.hneed W.hs W.O hK hl
  obtain rfl := flag_eq f1 f2
  refine ⟨_, ha, hw, r1, ?_, ?_⟩
  · rw [hd] at r2
    exact r2
  · have ho := W.O.h_dims
    rw [hd] at ho
    intro ic jc kc lc i j k l h1 h2 h3 h4 h5 h6 h7 h8
    refine ⟨⟨_, v1 0 ic jc kc lc i j k l one_pos h1 h2 h3 h4 h5 h6 h7 h8⟩, ?_⟩
    rw [dense_none ho]
    exact (v2 0 ic jc kc lc i j k l one_pos h1 h2 h3 h4 h5 h6 h7 h8).trans (v1 0 ic jc kc lc i j k l one_pos h1 h2 h3 h4 h5 h6 h7 h8).symm

/-- **C39**, integrals over four functions with spherical output. -/
theorem C39_four_functions_sph {s : Call2 α} {K : Consts α} {L : MathLib α} {w : Nat → Nat → Nat → Nat → Nat → α}
    (st : Nat) (A W : SphMem41 s) (hd : W.dims = none) (hK : EvalOK4 K L s w) (hl : ∀ t, t < 4 → Call2.ls s t ≤ 15) :
    ∃ has ha hw,
      run (int4c1e s K L A.fpd (sphTrans2e A.tab A.fpd s.si.l s.sj.l s.sk.l s.sl.l) (nsph (Call2.ls s)) A.out A.dims (some A.buf) st
        A.empty A.fl A.loc A.counts) A.h = some (has, ha) ∧
      run (cint4c1e s K L W.fpd (sphTrans2e W.tab W.fpd s.si.l s.sj.l s.sk.l s.sl.l) (nsph (Call2.ls s)) W.out W.buf
        W.empty W.fl W.loc W.counts) W.h = some (has, hw) ∧
      ∀ ic jc kc lc i j k l, ic < s.si.nctr → jc < s.sj.nctr → kc < s.sk.nctr → lc < s.sl.nctr →
        i < s.si.l*2+1 → j < s.sj.l*2+1 → k < s.sk.l*2+1 → l < s.sl.l*2+1 → (∃ v, A.elem ha ic i jc j kc k lc l = .val v) ∧
        hw.D (W.out + outAt (fun t => nsph (Call2.ls s) t * Call2.nctrs s t) 0 (ic*(s.si.l*2+1)+i) (jc*(s.sj.l*2+1)+j)
          (kc*(s.sk.l*2+1)+k) (lc*(s.sl.l*2+1)+l)) = A.elem ha ic i jc j kc k lc l := by
  obtain ⟨ra, ha, r1, v1, _, _, f1⟩ := drv4c1e_sph A.M A.hneed A.room A.hs A.O A.hT A.htb A.hto hK hl
  obtain ⟨rw, hw, r2, v2, _, _, f2⟩ := drv4c1e_sph W.M W.hneed W.room W.hs W.O W.hT W.htb W.hto hK hl
  obtain rfl := flag_eq f1 f2
  refine ⟨_, ha, hw, r1, ?_, ?_⟩
  · rw [hd] at r2
    exact r2
  · have ho := W.O.h_dims
    rw [hd] at ho
    intro ic jc kc lc i j k l h1 h2 h3 h4 h5 h6 h7 h8
    refine ⟨⟨_, v1 0 ic jc kc lc i j k l one_pos h1 h2 h3 h4 h5 h6 h7 h8⟩, ?_⟩
    rw [dense_none ho]
    exact (v2 0 ic jc kc lc i j k l one_pos h1 h2 h3 h4 h5 h6 h7 h8).trans (v1 0 ic jc kc lc i j k l one_pos h1 h2 h3 h4 h5 h6 h7 h8).symm
theorem grid_none {r : Nat} {h : Heap α} {counts : Ptr} {nd c : Nat → Nat} (H : DimsArg r h none counts nd c) (n g i j : Nat) :
    gridAt c n g i j = gridAt nd n g i j := by
  have e : ∀ t, t < 4 → nd t = c t := H
  unfold gridAt
  rw [e 0 (by omega), e 1 (by omega), e 2 (by omega)]

/-- **C39**, integrals on a list of points with Cartesian output. -/
theorem C39_grids_cart {X : IntG α} {s : CallG α} {R : Rys2 α} {K : Consts α} {L : MathLib α} {w : Nat → Nat → (Nat → α) → Nat → α}
    (st : Nat) (A W : CartMemG X s) (hd : W.dims = none) (hK : EvalG R K L X s w) (hnc : 1 ≤ X.nComp) (hli : s.si.l ≤ 15)
    (hlj : s.sj.l ≤ 15) :
    ∃ has ha hw,
      run (int1eGrids X s R K L A.fpd A.sh (fun _ _ _ => pure) (two (ncart s.si.l) (ncart s.sj.l)) A.out A.dims (some A.buf) st
        A.fl A.loc A.counts A.loc2) A.h = some (has, ha) ∧
      run (cint1eGrids X s R K L W.fpd W.sh (fun _ _ _ => pure) (two (ncart s.si.l) (ncart s.sj.l)) W.out W.buf
        W.fl W.loc W.counts W.loc2) W.h = some (has, hw) ∧
      ∀ n g ic jc i j, n < X.nComp → g < s.ngrids → ic < s.si.nctr → jc < s.sj.nctr → i < ncart s.si.l → j < ncart s.sj.l →
        (∃ v, A.elem ha n g ic i jc j = .val v) ∧
        hw.D (W.out + gridAt (three ((ncart s.si.l)*s.si.nctr) ((ncart s.sj.l)*s.sj.nctr) s.ngrids) n g (ic*(ncart s.si.l)+i) (jc*(ncart s.sj.l)+j)) =
          A.elem ha n g ic i jc j := by
  obtain ⟨ra, ha, r1, v1, _, _, _, f1⟩ := drvGrids_cart (sh := A.sh) A.M A.hsize A.O hK A.hic A.hjc hnc hli hlj
  obtain ⟨rw, hw, r2, v2, _, _, _, f2⟩ := drvGrids_cart (sh := W.sh) W.M W.hsize W.O hK W.hic W.hjc hnc hli hlj
  obtain rfl := flag_eq f1 f2
  refine ⟨_, ha, hw, r1, ?_, ?_⟩
  · rw [hd] at r2
    exact r2
  · have ho := W.O.h_dims
    rw [hd] at ho
    intro n g ic jc i j h0 h1 h2 h3 h4 h5
    refine ⟨⟨_, v1 n g ic jc i j h0 h1 h2 h3 h4 h5⟩, ?_⟩
    rw [grid_none ho]
    exact (v2 n g ic jc i j h0 h1 h2 h3 h4 h5).trans (v1 n g ic jc i j h0 h1 h2 h3 h4 h5).symm

/-- **C39**, integrals on a list of points with spherical output. -/
theorem C39_grids_sph {X : IntG α} {s : CallG α} {R : Rys2 α} {K : Consts α} {L : MathLib α} {w : Nat → Nat → (Nat → α) → Nat → α}
    (st : Nat) (A W : SphMemG X s) (hd : W.dims = none) (hK : EvalG R K L X s w) (hnc : 1 ≤ X.nComp) (hli : s.si.l ≤ 15)
    (hlj : s.sj.l ≤ 15) :
    ∃ has ha hw,
      run (int1eGrids X s R K L A.fpd A.sh (sphTransGrids A.tab A.fpd A.sh s.si.l s.sj.l) (two (s.si.l*2+1) (s.sj.l*2+1)) A.out A.dims (some A.buf) st
        A.fl A.loc A.counts A.loc2) A.h = some (has, ha) ∧
      run (cint1eGrids X s R K L W.fpd W.sh (sphTransGrids W.tab W.fpd W.sh s.si.l s.sj.l) (two (s.si.l*2+1) (s.sj.l*2+1)) W.out W.buf
        W.fl W.loc W.counts W.loc2) W.h = some (has, hw) ∧
      ∀ n g ic jc i j, n < X.nComp → g < s.ngrids → ic < s.si.nctr → jc < s.sj.nctr → i < s.si.l*2+1 → j < s.sj.l*2+1 →
        (∃ v, A.elem ha n g ic i jc j = .val v) ∧
        hw.D (W.out + gridAt (three ((s.si.l*2+1)*s.si.nctr) ((s.sj.l*2+1)*s.sj.nctr) s.ngrids) n g (ic*(s.si.l*2+1)+i) (jc*(s.sj.l*2+1)+j)) =
          A.elem ha n g ic i jc j := by
  obtain ⟨ra, ha, r1, v1, _, _, _, f1⟩ := drvGrids_sph (sh := A.sh) A.M A.hsize A.O A.hT A.htb A.hto hK A.hic A.hjc hnc hli hlj
  obtain ⟨rw, hw, r2, v2, _, _, _, f2⟩ := drvGrids_sph (sh := W.sh) W.M W.hsize W.O W.hT W.htb W.hto hK W.hic W.hjc hnc hli hlj
  obtain rfl := flag_eq f1 f2
  refine ⟨_, ha, hw, r1, ?_, ?_⟩
  · rw [hd] at r2
    exact r2
  · have ho := W.O.h_dims
    rw [hd] at ho
    intro n g ic jc i j h0 h1 h2 h3 h4 h5
    refine ⟨⟨_, v1 n g ic jc i j h0 h1 h2 h3 h4 h5⟩, ?_⟩
    rw [grid_none ho]
    exact (v2 n g ic jc i j h0 h1 h2 h3 h4 h5).trans (v1 n g ic jc i j h0 h1 h2 h3 h4 h5).symm

/-- **C39**, integrals on a list of points with spinor output. -/
theorem C39_grids_spinor {X : IntG α} {s : CallG α} {R : Rys2 α} {K : Consts α} {L : MathLib α} {w : Nat → Nat → (Nat → α) → Nat → α}
    {nT : Nat} {ki kj : Int} {kd : SpKind} (st : Nat) (A W : SpMemG X s nT ki kj) (hd : W.dims = none)
    (hn : X.nComp = (if kd.si then 4 else 1) * nT) (hK : EvalG R K L X s w) (hnT : 1 ≤ nT) (hli : s.si.l < 13) (hlj : s.sj.l < 13) :
    ∃ has ha hw,
      run (int1eGridsSp X s R K L (if kd.si then 4 else 1) nT kd A.tab ki kj A.fpd A.sh A.out A.dims (some A.buf) st
        A.fl A.loc A.counts A.loc2) A.h = some (has, ha) ∧
      run (cint1eGridsSp X s R K L (if kd.si then 4 else 1) nT kd W.tab ki kj W.fpd W.sh W.out W.buf
        W.fl W.loc W.counts W.loc2) W.h = some (has, hw) ∧
      ∀ n g ic jc i j, n < nT → g < s.ngrids → ic < s.si.nctr → jc < s.sj.nctr → i < lenSpinorC2S ki s.si.l →
        j < lenSpinorC2S kj s.sj.l →
        ∃ z, A.Elem ha n g ic i jc j z ∧
          HoldsC hw W.out (gridAt (three (lenSpinorC2S ki s.si.l*s.si.nctr) (lenSpinorC2S kj s.sj.l*s.sj.nctr) s.ngrids) n g
            (ic*lenSpinorC2S ki s.si.l+i) (jc*lenSpinorC2S kj s.sj.l+j)) z := by
  obtain ⟨ra, ha, r1, v1, _, _, _, f1⟩ := drvGridsSp_run (sh := A.sh) (kd := kd) A.M A.hsize A.O A.T hn hK A.hic A.hjc hnT hli hlj
    A.hdi A.hdj
  obtain ⟨rw, hw, r2, v2, _, _, _, f2⟩ := drvGridsSp_run (sh := W.sh) (kd := kd) W.M W.hsize W.O W.T hn hK W.hic W.hjc hnT hli hlj
    W.hdi W.hdj
  obtain rfl := flag_eq f1 f2
  refine ⟨_, ha, hw, r1, ?_, ?_⟩
  · rw [hd] at r2
    exact r2
  · have ho := W.O.h_dims
    rw [hd] at ho
    intro n g ic jc i j h0 h1 h2 h3 h4 h5
    refine ⟨_, v1 n g ic jc i j h0 h1 h2 h3 h4 h5, ?_⟩
    rw [grid_none ho]
    exact v2 n g ic jc i j h0 h1 h2 h3 h4 h5

end

namespace WrapSpDemo
open OvlpDemo SphDemo EriDemo SpinorDemo SpinorEriDemo SpinorEri3Demo Eri3Demo

/-- four-centre repulsion integrals with spinor output: the hypotheses hold for memory that is allocated but not initialised -/
example : ∃ R has ha, SpEnds4 (spMem4 (1/3)) ⟨false, false⟩ ⟨false, false⟩ R realK lib has ha := by
  obtain ⟨R, hR⟩ := exists_rys2
  obtain ⟨has, ha, _, e1, _⟩ := C39_four_centre_spinor (k1 := ⟨false, false⟩) (k2 := ⟨false, false⟩) 11 (spMem4 (1/3)) (spMem4 (1/3)) rfl
    rfl (eri_eval (L := lib) (posExp _) (hR _)) (le_refl 1) (ls_lt _)
  exact ⟨R, has, ha, e1⟩

/-- three-centre repulsion integrals with spinor output -/
example : ∃ R has ha, SpEnds3 (SpinorEri3Demo.spMem3 (1/3)) ⟨false, false⟩ R realK lib has ha := by
  obtain ⟨R, hR⟩ := exists_rys2
  obtain ⟨has, ha, _, e1, _⟩ := C39_three_centre_spinor (kd := ⟨false, false⟩) 11 (SpinorEri3Demo.spMem3 (1/3))
    (SpinorEri3Demo.spMem3 (1/3)) rfl rfl (eri_eval3 (L := lib) (posExp3 _) (hR _)) (le_refl 1) (ls3 _)
  exact ⟨R, has, ha, e1⟩

/-- two-centre repulsion integrals with spinor output -/
example : ∃ R has ha, SpEnds2c (spMem2c (1/3)) false R realK has ha := by
  obtain ⟨R, hR⟩ := exists_rys2
  obtain ⟨has, ha, _, e1, _⟩ := C39_two_centre_spinor (ph := false) 11 (spMem2c (1/3)) (spMem2c (1/3)) rfl
    (eri_eval2c (Eri2cDemo.posExp2c _) (hR _)) (le_refl 1) (ls2c _)
  exact ⟨R, has, ha, e1⟩

/-- overlap integrals with spinor output -/
example : ∃ has ha, SpEnds ovlpMem ⟨false, false⟩ 1 realK lib has ha := by
  obtain ⟨has, ha, _, e1, _⟩ := C39_one_electron_spinor (kd := ⟨false, false⟩) 11 ovlpMem ovlpMem rfl rfl
    (ovlp_eval (L := lib) (s := call) (fun _ _ _ _ => by show (0:ℝ) < 1 + 1; norm_num)) (le_refl 1) (by decide) (by decide)
  exact ⟨has, ha, e1⟩

/-- integrals over four functions -/
example : ∃ has ha, CartEnds41 (blankMem41 (call4 0) (EriDemo.ctr_pos _)) realK lib has ha := by
  obtain ⟨has, ha, _, e1, _⟩ := C39_four_functions_cart 11 (blankMem41 (call4 0) (EriDemo.ctr_pos _))
    (blankMem41 (call4 0) (EriDemo.ctr_pos _)) rfl (eval41 (L := lib) Int4c1eDemo.posExp41) (lok _)
  exact ⟨has, ha, e1⟩

/-- integrals on a list of points, any root finder -/
example (R : Rys2 ℝ) : ∃ has ha, CartEndsG (blankMemG gridsInt (GridsDemo.callG 0) (by decide) (by decide)) R realK lib has ha := by
  obtain ⟨has, ha, _, e1, _⟩ := C39_grids_cart (R := R) (K := realK) (L := lib) 11
    (blankMemG gridsInt (GridsDemo.callG 0) (by decide) (by decide)) (blankMemG gridsInt (GridsDemo.callG 0) (by decide) (by decide)) rfl
    (evalG_grids R realK lib _) (le_refl 1) (by decide) (by decide)
  exact ⟨has, ha, e1⟩

end WrapSpDemo

end Verif.Props
