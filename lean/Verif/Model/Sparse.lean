import Verif.Core.Assign

/-
Sparse contraction: src/optimizer.c (non-zero coefficient tables) and src/g1e.c
(CINTprim_to_ctr*).  Contraction coefficients live in the read-only `env` array and are
modelled by a pure function: `c (iprim*j + ip)` is `ci[iprim*j+ip]`.
-/
namespace Verif.Model
open Verif Prog

variable {α : Type}

/-- CINTOpt_non0coeff_byshell, src/optimizer.c:436-458.  The local VLA `zeroidx` is a list
(of length `kp`); `sortedidx` is advanced by `ictr` per primitive. -/
def non0coeffByshell [Zero α] [DecidableEq α] (sortedidx non0ctr : Ptr) (ci : Nat → α)
    (iprim ictr : Nat) : Prog α Unit :=
  forN iprim fun ip => do
    let s ← forS ictr ((0, []) : Nat × List Nat) fun j s =>
      if ci (iprim*j+ip) ≠ 0 then do
        stI (sortedidx + (ip*ictr + s.1)) (j : Int)
        pure (s.1 + 1, s.2)
      else
        pure (s.1, s.2 ++ [j])
    forN s.2.length fun j =>
      stI (sortedidx + (ip*ictr + (s.1 + j))) ((s.2.getD j 0 : Nat) : Int)
    stI (non0ctr + ip) (s.1 : Int)

/-- CINTprim_to_ctr, src/g1e.c:508-528 (dense variant, strided source) -/
def primToCtr [Zero α] [Add α] [Mul α] [DecidableEq α] (gc : Ptr) (nf : Nat) (gp : Ptr)
    (inc nprim nctr : Nat) (coeff : Nat → α) : Prog α Unit :=
  forN inc fun i =>
    forN nctr fun n =>
      if coeff (nprim*n) ≠ 0 then
        forN nf fun k => do
          let x ← ld (gc + ((i*nctr+n)*nf+k))
          let y ← ld (gp + (k*inc+i))
          st (gc + ((i*nctr+n)*nf+k)) (x + coeff (nprim*n) * y)
      else pure ()

/-- CINTprim_to_ctr_0, src/g1e.c:530-543; `coeff` is the C pointer `ci+ip` -/
def primToCtr0 [Mul α] (gc gp : Ptr) (coeff : Nat → α) (nf nprim nctr : Nat) : Prog α Unit :=
  forN nctr fun i =>
    forN nf fun n => do
      let x ← ld (gp + n)
      st (gc + (nf*i+n)) (coeff (nprim*i) * x)

/-- CINTprim_to_ctr_1, src/g1e.c:545-559.  `sortedidx` entries are non-negative integers. -/
def primToCtr1 [Add α] [Mul α] (gc gp : Ptr) (coeff : Nat → α) (nf nprim : Nat)
    (non0ctr : Nat) (sortedidx : Ptr) : Prog α Unit :=
  forN non0ctr fun i => do
    let j ← ldI (sortedidx + i)
    forN nf fun n => do
      let x ← ld (gc + (nf*j.toNat+n))
      let y ← ld (gp + n)
      st (gc + (nf*j.toNat+n)) (x + coeff (nprim*j.toNat) * y)

/-- macros PRIM2CTR0 (src/cint1e.c:17-32) and PRIM2CTR (src/cint2e.c:33-47): contract the
block `gp` of `ngp` numbers of primitive `p` into `gctr`.  `c` is the whole coefficient
array of the shell. -/
def prim2ctr [Add α] [Mul α] (ctr prim : Nat) (empty gctr gp : Ptr) (c : Nat → α)
    (p ngp : Nat) (non0ctr non0idx : Ptr) : Prog α Unit := do
  if 1 < ctr then do
    let e ← ldI empty
    if e ≠ 0 then
      primToCtr0 gctr gp (fun k => c (k + p)) ngp prim ctr
    else do
      let k ← ldI (non0ctr + p)
      primToCtr1 gctr gp (fun k => c (k + p)) ngp prim k.toNat (non0idx + p*ctr)
  else pure ()
  stI empty 0

end Verif.Model
