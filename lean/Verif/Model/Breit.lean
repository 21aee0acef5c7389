import Verif.Model.AutoSp2e
import Verif.Model.Auto2e

/-! src/breit.c: the spin-free integrals int2e_breit_r1p2 and int2e_breit_r2p2, and the driver of int2e_breit_*_spinor. -/
namespace Verif.Model.Breit
open Verif Verif.Model Verif.Prog

/-- the nine products of both (src/breit.c:182-190, 271-279) -/
def prods : List (Nat × Nat × Nat) := [(15, 0, 0), (12, 3, 0), (12, 0, 3), (3, 12, 0), (0, 15, 0), (0, 12, 3), (3, 0, 12), (0, 3, 12), (0, 0, 15)]

/-- their sum -/
def comps : List (List (Int × List Nat × Nat)) :=
  [[(1, [], 0), (1, [], 1), (1, [], 2), (1, [], 3), (1, [], 4), (1, [], 5), (1, [], 6), (1, [], 7), (1, [], 8)]]

/-- int2e_breit_r1p2: src/breit.c:143-198 (`CINTgout2e_int2e_breit_r1p2`) and 199-226 -/
def int2e_breit_r1p2 : Gen2e where
  ng := ⟨2, 2, 0, 1, 0⟩
  gbits := 4
  nComp := 1
  prog := {
    steps := [⟨.d, 3, 1, 0, ![2, 2, 0, 0]⟩,
      ⟨.x0, 1, 3, 1, ![1, 0, 0, 0]⟩,
      ⟨.d, 1, 4, 0, ![1, 1, 0, 0]⟩,
      ⟨.d, 0, 5, 0, ![1, 1, 0, 0]⟩]
    more := [(⟨4, 5, ![1, 1, 0, 0]⟩, [⟨.d, 1, 5, 1, ![1, 1, 0, 0]⟩, ⟨.d, 0, 6, 1, ![1, 1, 0, 0]⟩]),
      (⟨5, 6, ![1, 1, 0, 0]⟩, [⟨.x0, 1, 7, 5, ![1, 0, 0, 0]⟩, ⟨.d, 0, 12, 4, ![0, 0, 0, 0]⟩, ⟨.d, 0, 15, 7, ![0, 0, 0, 0]⟩])]
    prods := prods
    comps := comps }

/-- int2e_breit_r2p2: src/breit.c:233-287 (`CINTgout2e_int2e_breit_r2p2`) and 288-315 -/
def int2e_breit_r2p2 : Gen2e where
  ng := ⟨2, 1, 0, 2, 0⟩
  gbits := 4
  nComp := 1
  prog := {
    steps := [⟨.x0, 3, 2, 0, ![2, 1, 0, 1]⟩,
      ⟨.d, 3, 3, 2, ![2, 1, 0, 0]⟩,
      ⟨.d, 1, 4, 0, ![1, 0, 0, 0]⟩,
      ⟨.d, 0, 5, 0, ![1, 0, 0, 0]⟩]
    more := [(⟨4, 5, ![1, 0, 0, 0]⟩, [⟨.d, 1, 7, 3, ![1, 0, 0, 0]⟩, ⟨.d, 0, 8, 3, ![1, 0, 0, 0]⟩]),
      (⟨7, 8, ![1, 0, 0, 0]⟩, [⟨.d, 0, 12, 4, ![0, 0, 0, 0]⟩, ⟨.d, 0, 15, 7, ![0, 0, 0, 0]⟩])]
    prods := prods
    comps := comps }

/-- the wrappers int2e_breit_r1p2_spinor and int2e_breit_r2p2_spinor, src/breit.c:219-226, 308-315 (`c2s_sf_2e1i`, `c2s_sf_2e2i`) -/
def spinorR1P2 : Auto.SpWrap := { name := "int2e_breit_r1p2", k1 := ⟨false, true⟩, k2 := ⟨false, true⟩, e1 := 1, e2 := 1, nT := 1 }
def spinorR2P2 : Auto.SpWrap := { name := "int2e_breit_r2p2", k1 := ⟨false, true⟩, k2 := ⟨false, true⟩, e1 := 1, e2 := 1, nT := 1 }

/-- how the spinor wrappers of the Gaunt integrals and of both parts of the gauge term set up the integral (`c2s_si_2e1i`, `c2s_si_2e2i`,
factor 1): they are entries of `Auto.spinor2e` (`C61_wrappers`) -/
def wrap (name : String) : Auto.SpWrap := { name, k1 := ⟨true, true⟩, k2 := ⟨true, true⟩, e1 := 4, e2 := 4, nT := 1 }

/-- the integral as these wrappers set it up -/
def spGen (G : Gen2e) : Gen2e := (wrap "").gen G

/-- the functions int2e_breit_X_spinor, src/breit.c:26-48 (`BREIT0`), 135-138: X, and the integrals int2e_X, int2e_gauge_r1_X,
int2e_gauge_r2_X whose spinor functions the driver calls -/
def kinds : List (String × Gen2e × Gen2e × Gen2e) := [
  ("ssp1ssp2", Auto2e.int2e_ssp1ssp2, Auto2e.int2e_gauge_r1_ssp1ssp2, Auto2e.int2e_gauge_r2_ssp1ssp2),
  ("ssp1sps2", Auto2e.int2e_ssp1sps2, Auto2e.int2e_gauge_r1_ssp1sps2, Auto2e.int2e_gauge_r2_ssp1sps2),
  ("sps1ssp2", Auto2e.int2e_sps1ssp2, Auto2e.int2e_gauge_r1_sps1ssp2, Auto2e.int2e_gauge_r2_sps1ssp2),
  ("sps1sps2", Auto2e.int2e_sps1sps2, Auto2e.int2e_gauge_r1_sps1sps2, Auto2e.int2e_gauge_r2_sps1sps2)]

section
variable {α : Type} [Field α]

/-- _copy_to_out for `out != in`, src/breit.c:50-80; a complex number is two doubles, the pointers advanced at the end of each turn of
the loop over `l` are written as offsets -/
def copyToOut (out inp : Ptr) (ni nj nk di dj dk dl : Nat) : Prog α Unit :=
  forN dl fun l => forN dk fun k => forN dj fun j => forN di fun i => forN 2 fun e =>
    cpy (out + (2*(l*(ni*nj*nk) + k*(ni*nj) + (j*ni+i)) + e)) (inp + (2*(l*(di*dj*dk) + k*(di*dj) + (j*di+i)) + e))

/-- `if (has) for (i = 0; i < nop; i++) { p[i] = f(p[i], q[i]); }` for arrays of complex numbers and `f` acting on real and imaginary parts -/
def combine (has : Bool) (f : α → α → α) (p q : Ptr) (nop : Nat) : Prog α Unit :=
  if has then forN (2*nop) fun i => do
    let x ← ld (p + i)
    let y ← ld (q + i)
    st (p + i) (f x y)
  else pure ()

/-- The part of _int2e_breit_drv between `malloc` and `_copy_to_out`, src/breit.c:110-128: `gaunt`, `r1`, `r2` are the three functions called
with `dims` NULL and an output array. -/
def breitSum (gaunt r1 r2 : Ptr → Prog α Bool) (buf1 buf : Ptr) (nop : Nat) : Prog α Bool := do
  let a ← gaunt buf1
  let b ← r1 buf
  combine (b || a) (fun x y => -x - y) buf1 buf nop
  let c ← r2 buf
  combine (c || (b || a)) (fun x y => (x + y) * (1/2)) buf1 buf nop
  pure (c || (b || a))

/-- _int2e_breit_drv with `out` not NULL, src/breit.c:95-131: `counts t` functions in shell `t`, `buf` is the array of `2 nop` complex numbers
got from `malloc`; `ncomp_tensor` is 1 for all four integrals (lines 135-138) -/
def breitDrv (gaunt r1 r2 : Ptr → Prog α Bool) (counts : Nat → Nat) (out : Ptr) (dims : Option Ptr) (buf : Ptr) : Prog α Bool := do
  let nop := counts 0 * counts 1 * counts 2 * counts 3 * 1
  match dims with
  | none => breitSum gaunt r1 r2 out buf nop
  | some d => do
    let has ← breitSum gaunt r1 r2 (buf + 2*nop) buf nop
    let ni ← ldI d
    let nj ← ldI (d + 1)
    let nk ← ldI (d + 2)
    copyToOut out (buf + 2*nop) ni.toNat nj.toNat nk.toNat (counts 0) (counts 1) (counts 2) (counts 3)
    pure has

/-- the size returned for `out` NULL, src/breit.c:87-93: that of the two parts of the gauge term only -/
def breitCacheSize [LinearOrder α] [DecidableEq α] (X1 X2 : Int2e α) (s : Call2 α) (e2 : Nat) (ki kj : Int) : Nat :=
  max (cacheSize2eSp X1 s e2 ki kj) (cacheSize2eSp X2 s e2 ki kj)

end

end Verif.Model.Breit
