import Verif.Model.PolyFits

/-!
Roots and weights for the integrals over the Slater-type geminal and the Yukawa interaction from tables: CINTstg_roots, src/stg_roots.c.
The tables DATA_X, DATA_W (roots_xw.dat, not in the repository) are arrays in memory; COS_14_14 is a parameter.
-/
namespace Verif.Model.StgRoots
open Verif Prog Verif.Model.PolyFits

/-- the functions of libm and the conversion from double to int -/
structure StgLib (α : Type) where
  log : α → α
  log10 : α → α
  sqrt : α → α
  toInt : α → Int

variable {α : Type} [Field α]

/-- _clenshaw_dc, src/stg_roots.c:216-291: the coefficients of one series are contiguous (the 14 sums for a root, which the code does four
at a time, and the local arrays `d`, `g` are written as a loop with variables) -/
def clenshawDc (rr x : Ptr) (u : α) (nroot : Nat) : Prog α Unit :=
  forN nroot fun i => forN 14 fun j => do
    let v ← clenshaw (x + (196*i + 14*j)) 1 u
    st (rr + (j + 14*i)) v

/-- `d0[k]` after the loop over `j`, src/stg_roots.c:370-386, for one `k` -/
def cosSum (C : Nat → Nat → α) (im : Ptr) (i k : Nat) : Prog α α :=
  forS 14 0 fun j d => do
    let s ← ld (im + (j + 14*i))
    pure (d + s * C j k)

/-- 0.14285714285714285714, src/stg_roots.c:352 -/
def o7 : α := 14285714285714285714/10^20

/-- the number stored at :387-400 -/
def cosVal (C : Nat → Nat → α) (im : Ptr) (i k : Nat) : Prog α α := do
  let d ← cosSum C im i k
  pure (o7 * d)

/-- _matmul_14_14, src/stg_roots.c:350-403, for all roots; `C j k` is `COS_14_14[j*14+k]`.  Also _CINT_matmul_14_14,
src/polyfits.c:264-284, which does the same with loops (and is not called). -/
def matmul (C : Nat → Nat → α) (imc im : Ptr) (nroot : Nat) : Prog α Unit :=
  forN nroot fun i => forN 14 fun k => do
    let d ← cosVal C im i k
    st (imc + (k + 14*i)) d

/-- three of the calls :439-441 or :442-444; _clenshaw_d1 (:293-348) is the function of polyfits.c two and then one root at a time -/
def pass (C : Nat → Nat → α) (n : Nat) (uu tt : α) (p im imc o : Ptr) : Prog α Unit := do
  clenshawDc im p uu n
  matmul C imc im n
  clenshawD1 o imc tt n

variable [LinearOrder α] (L : StgLib α) (C : Nat → Nat → α)

/-- `t` after :415-416 -/
def limT (ta : α) : α := if ta > 1968299/100 then 1968299/100 else ta

/-- `tt` after :418-422 -/
def mapT (t : α) : α := if t > 1 then L.log t * (9102392266268373/10^16) + 1 else L.sqrt t

/-- CINTstg_roots, src/stg_roots.c:405-449, for `ta ≥ 0`; `im`, `imc` are the local arrays.  The result `false` stands for `exit(1)`. -/
def stgRoots (n : Nat) (ta ua : α) (dataX dataW rr ww im imc : Ptr) : Prog α Bool :=
  let tt := mapT L (limT ta)
  let uu := L.log10 ua
  let it := L.toInt tt
  let tt := 2 * (tt - it) - 1
  let iu := L.toInt (uu + 7)
  if iu < 0 ∨ iu > 10 then pure false
  else do
    let uu := 2 * (uu - (iu - 7)) - 1
    let offset := n * 196 * (iu.toNat + it.toNat * 10)
    pass C n uu tt (dataX + (n-1)*n/2 * 19600 + offset) im imc rr
    pass C n uu tt (dataW + (n-1)*n/2 * 19600 + offset) im imc ww
    forN n fun k => do
      let w ← ld (ww + k)
      st (ww + k) (w * (1 / L.sqrt ua))
    pure true

end Verif.Model.StgRoots
