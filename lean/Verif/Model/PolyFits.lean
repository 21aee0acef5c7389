import Verif.Core.Prog
import Verif.Model.PairData

/-!
Roots and weights of short-range Rys polynomials from tables of Chebyshev coefficients (built with WITH_POLYNOMIAL_FIT):
src/sr_rys_polyfits.c and the two functions of src/polyfits.c that it calls.  The tables sr_roots_part*.dat are arrays in memory; of their
contents only the lengths and the limits of the intervals matter.
-/
namespace Verif.Model.PolyFits
open Verif Prog

section
variable {α : Type}

/-- `a[i]` for a constant array of the limits of intervals; outside of the array the behaviour is undefined -/
def at_ (a : List α) (i : Nat) : Prog α α := match a[i]? with
  | some x => pure x
  | none => fail

section
variable [LT α] [LE α] [DecidableLT α] [DecidableLE α]

/-- `for (; i < end; i++) { if (v < a[i]) break; }` with `k = end - i`, src/sr_rys_polyfits.c:26-30, 32-36; returns `i` -/
def scan (a : List α) (v : α) : (i k : Nat) → Prog α Nat
  | i, 0 => pure i
  | i, k+1 => do
    let x ← at_ a i
    if v < x then pure i else scan a v (i+1) k

/-- searchsorted, src/sr_rys_polyfits.c:21-39 -/
def searchsorted (a : List α) (v : α) (n : Nat) : Prog α Nat := do
  let m := n/2
  let am ← at_ a m
  let i ← if am ≤ v then scan a v (m+1) (n - (m+1)) else scan a v 1 (m - 1)
  pure (i - 1)
end

variable [Field α]

/-- The recursion of Clenshaw for 14 coefficients `x[k*s]`: the body of _CINT_clenshaw_d1 for one root (src/polyfits.c:246-260, where
it is written out, `s = 1`) and of _CINT_clenshaw_dc for one `j` (src/polyfits.c:220-234, `s = 14`; the elements of the local arrays
`d` and `g` are variables here, the loops over `k` and `j` are interchanged). -/
def clenshaw (x : Ptr) (s : Nat) (u : α) : Prog α α := do
  let g0 ← ld (x + 13*s)
  let r ← forS 6 ((0 : α), g0) fun t dg => do
    let k := 11 - 2*t
    let a ← ld (x + (k+1)*s)
    let d := u*2 * dg.2 - dg.1 + a
    let b ← ld (x + k*s)
    pure (d, u*2 * d - dg.2 + b)
  let c ← ld x
  pure (u * r.2 - r.1 + c * (1/2))

/-- _CINT_clenshaw_dc, src/polyfits.c:212-237 -/
def clenshawDc (rr x : Ptr) (u : α) (nroot : Nat) : Prog α Unit :=
  forN nroot fun i => forN 14 fun j => do
    let v ← clenshaw (x + (196*i + j)) 14 u
    st (rr + (j + 14*i)) v

/-- _CINT_clenshaw_d1, src/polyfits.c:239-262 -/
def clenshawD1 (rr x : Ptr) (u : α) (nroot : Nat) : Prog α Unit :=
  forN nroot fun i => do
    let v ← clenshaw (x + 14*i) 1 u
    st (rr + i) v

/-- where the tables of coefficients are; `t1` are the limits SR_DATA1_TBASE, whose file is not in the repository -/
structure Tables (α : Type) where
  w0 : Ptr
  x0 : Ptr
  w1 : Ptr
  x1 : Ptr
  w2 : Ptr
  x2 : Ptr
  wl : Ptr
  xl : Ptr
  t1 : List α

/-- SR_DATA0_UBASE, sr_roots_part0_w.dat:1 -/
def u0base : List α := [0, 125/10000, 25/1000, 5/100, 1/10]
/-- SR_DATA0_TBASE, sr_roots_part0_w.dat:2 -/
def t0base : List α := [0, 4, 8, 12]
/-- SR_DATA2_UBASE, sr_roots_part2_w.dat:1 -/
def u2base : List α := [1/10, 2/10, 3/10, 4/10, 5/10, 6/10]
/-- SR_DATA2_TBASE, sr_roots_part2_w.dat:2 -/
def t2base : List α := [0, 4, 8, 12, 18, 27, 40, 60, 91, 136, 205]
/-- SR_DATAL_TBASE, sr_roots_part3_w.dat:2 -/
def tlbase : List α := [14/10, 17/10, 22/10, 29/10, 38/10, 49/10, 62/10]

variable [LinearOrder α] (L : MathLib α) (T : Tables α)

/-- src/sr_rys_polyfits.c:98-105, with the local array `im` -/
def evalFit (nroots : Nat) (x lower u0 u1 t0 t1 : α) (dx dw u w im : Ptr) : Prog α Nat := do
  let uu := (lower - u0) * 2 / (u1 - u0) - 1
  let tt := (x - t0) * 2 / (t1 - t0) - 1
  clenshawDc im dx uu nroots
  clenshawD1 u im tt nroots
  clenshawDc im dw uu nroots
  clenshawD1 w im tt nroots
  pure 0

/-- one of the branches src/sr_rys_polyfits.c:61-65, 67-71, 80-84, 87-91 and what follows, for a table with `nu` intervals of `lower` and
`nt` intervals of `x` with the limits `tb` -/
def branch (nroots : Nat) (x lower : α) (nu il : Nat) (u0 u1 : α) (tb : List α) (nt : Nat) (dx dw u w im : Ptr) : Prog α Nat := do
  let ix ← searchsorted tb x (nt + 1)
  let off := ((nroots-1)*nroots/2*nu*nt + nroots*(il*nt+ix)) * 196
  let t0 ← at_ tb ix
  let t1 ← at_ tb (ix+1)
  evalFit nroots x lower u0 u1 t0 t1 (dx + off) (dw + off) u w im

/-- CINTsr_rys_polyfits, src/sr_rys_polyfits.c:41-106 -/
def srPolyfits (nroots : Nat) (x lower : α) (u w im : Ptr) : Prog α Nat :=
  let xll := x * lower * lower
  if xll ≥ 3844/100 then do
    forN nroots fun i => do
      st (u + i) 0
      st (w + i) 0
    pure 0
  else if lower < 1/10 then do
    let il ← searchsorted u0base lower 5
    let u0 ← at_ u0base il
    let u1 ← at_ u0base (il+1)
    if x < 12 then branch nroots x lower 4 il u0 u1 t0base 3 T.x0 T.w0 u w im
    else do
      let last ← at_ T.t1 19
      if x ≤ last then branch nroots x lower 4 il u0 u1 T.t1 19 T.x1 T.w1 u w im
      else pure 1
  else if lower < 6/10 then do
    let il ← searchsorted u2base lower 6
    let u0 ← at_ u2base il
    let u1 ← at_ u2base (il+1)
    if x < 196 then branch nroots x lower 5 il u0 u1 t2base 10 T.x2 T.w2 u w im
    else do
      let last ← at_ tlbase 6
      if x ≤ last then branch nroots (L.sqrt xll) lower 5 il u0 u1 tlbase 6 T.xl T.wl u w im
      else pure 1
  else pure 1

end
end Verif.Model.PolyFits
