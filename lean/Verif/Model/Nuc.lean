import Verif.Model.Drv1e
import Verif.Model.Oper
import Mathlib.Algebra.Order.Ring.Defs

/-!
Nuclear attraction: src/g1e.c CINTg1e_nuc and the integrals evaluated with `int1e_type` 1 and 2.

The root finder CINTrys_roots is not modelled: it is given by two functions, the roots `u` and the weights
`w` for `n` roots and argument `x`.  In the C code it fills two arrays; here the roots, a local array, are used
directly and the weights are stored where the C code stores them (the first elements of `gz`).
-/
namespace Verif.Model
open Verif Prog

variable {α : Type}

/-- CINTrys_roots(n, x, u, w), src/rys_roots.c:57 -/
structure Rys (α : Type) where
  u : (n : Nat) → (x : α) → Nat → α
  w : (n : Nat) → (x : α) → Nat → α

/-- a row of `atm` and the entries of `env` it points to (include/cint.h.in:49-56) -/
structure Atom (α : Type) where
  charge : Int
  coord : Nat → α
  nucMod : Nat
  zeta : α
  frac : α

/-- GAUSSIAN_NUC, FRAC_CHARGE_NUC, include/cint.h.in:132-133 -/
def gaussianNuc : Nat := 2
def fracChargeNuc : Nat := 3

/-- what CINTg1e_nuc uses of a centre: exponent of the charge distribution (0: none), charge, position -/
structure Src (α : Type) where
  zeta : α
  q : α
  r : Nat → α

section
variable [Field α]

/-- the branches on `nuc_id` of CINTnuc_mod and CINTg1e_nuc for an atom, src/g1e.c:194-198, 227-233 -/
def Atom.src (A : Atom α) : Src α where
  zeta := if A.nucMod = gaussianNuc then A.zeta else 0
  q := if A.nucMod = fracChargeNuc then -A.frac else -((A.charge.natAbs : Nat) : α)
  r := A.coord

/-- the same for `nuc_id < 0`: `zeta = env[PTR_RINV_ZETA]`, `r = env + PTR_RINV_ORIG` -/
def rinvSrc (zeta : α) (r : Nat → α) : Src α := { zeta := zeta, q := 1, r := r }

/-- CINTnuc_mod from the branch on `zeta`, src/g1e.c:200-204 -/
def nucMod [LinearOrder α] (K : Consts α) (aij zeta : α) : α :=
  if zeta > 0 then K.sqrt (zeta / (aij + zeta)) else 1

/-- CINTg1e_nuc, src/g1e.c:207-319; `fac` is `envs->fac[0]` -/
def g1eNuc [LinearOrder α] (R : Rys α) (K : Consts α) (e : EnvG) (d : G1 α) (S : Src α) (g : Ptr) (fac : α) :
    Prog α Bool := do
  let nroots := e.nrys_roots
  let aij := d.ai + d.aj
  let tau := nucMod K aij S.zeta
  let fac1 := 2 * K.pi * S.q * fac * tau / aij
  let crij := fun c => S.r c - d.rij c
  let x := aij * tau * tau * (crij 0 * crij 0 + crij 1 * crij 1 + crij 2 * crij 2)
  forN nroots fun n => st (gAx g e 2 n) (R.w nroots x n)
  forN nroots fun i => do
    st (gAx g e 0 i) 1
    st (gAx g e 1 i) 1
    let z ← ld (gAx g e 2 i)
    st (gAx g e 2 i) (z * fac1)
  let nmax := e.li_ceil + e.lj_ceil
  if nmax = 0 then pure true else do
  let lj := baseL e
  let di := baseDi e
  let dj := baseDj e
  let rijrx := fun c => d.rij c - baseR e d c
  let aij2 := 1/2 / aij
  forN nroots fun n => do
    let ru := tau * tau * R.u nroots x n / (1 + R.u nroots x n)
    let rt := aij2 - aij2 * ru
    let r := fun c => rijrx c + ru * crij c
    forN 3 fun c => do
      let x ← ld (gAx g e c n)
      st (gAx g e c (di + n)) (r c * x)
    forN (nmax-1) fun k =>
      let i := k + 1
      forN 3 fun c => do
        let x0 ← ld (gAx g e c (n + (i-1)*di))
        let x1 ← ld (gAx g e c (n + i*di))
        st (gAx g e c (n + (i+1)*di)) ((i:α) * rt * x0 + r c * x1)
  forN lj fun k =>
    let j := k + 1
    forN (nmax-j+1) fun i => forN nroots fun n =>
      forN 3 fun c => do
        let x1 ← ld (gAx g e c (j*dj - dj + di + (n + i*di)))
        let x0 ← ld (gAx g e c (j*dj - dj + (n + i*di)))
        st (gAx g e c (j*dj + (n + i*di))) (x1 + rirj e d c * x0)
  pure true

/-- `s[k] = 0` for all components, then for each root `s[k] += ...` -/
def accRoots (f : Nat → Prog α (Nat → α)) : Nat → Prog α (Nat → α)
  | 0 => pure fun _ => 0
  | n+1 => do
    let s ← accRoots f n
    let x ← f n
    pure fun k => s k + x k

/-- CINTgout1e_nuc, src/cint1e.c:327-359 -/
def gout1eNuc (nf nroots : Nat) (idx g gout : Ptr) (empty : Int) : Prog α Unit :=
  goutLoop nf 1 idx gout empty fun ix iy iz =>
    accRoots (fun i => do
      let x ← ld (g + ix + i)
      let y ← ld (g + iy + i)
      let z ← ld (g + iz + i)
      pure fun _ => x*y*z) nroots

/-- the centres for `int1e_type` 1 (`env[PTR_RINV_ORIG]`) and 2 (all atoms), make_g1e_gout, src/cint1e.c:293-302 -/
inductive NucCall (α : Type)
  | rinv (zeta : α) (orig : Nat → α)
  | nuc (atoms : List (Atom α))

def NucCall.srcs : NucCall α → List (Src α)
  | .rinv z r => [rinvSrc z r]
  | .nuc l => l.map Atom.src

/-- the potential a generated wrapper asks for: its last argument `int1e_type` is 2 (`nuc`) or 1, CINT1e_drv and make_g1e_gout,
src/cint1e.c:157-302 -/
def NucCall.ofType (nuc : Bool) (zeta : α) (orig : Nat → α) (atoms : List (Atom α)) : NucCall α :=
  if nuc then .nuc atoms else .rinv zeta orig

/-- int1e_nuc_cart, int1e_nuc_sph, src/cint1e.c:396-414 -/
def nucInt [LinearOrder α] (R : Rys α) (N : NucCall α) : Int1e α where
  ng := { rys := 0 }
  gbits := 0
  nComp := 1
  common := 1
  gout := fun e _ idx g gout em => gout1eNuc e.nf e.nrys_roots idx g gout em
  g0s := fun K e d => N.srcs.map fun S => g1eNuc R K e d S

/-- A function of src/autocode for integrals evaluated by quadrature: operators by the macros of src/g2e.h, the products
summed over the roots (`for (i = 0; i < nrys_roots; i++) s[m] += g_a[ix+i]*g_b[iy+i]*g_c[iz+i]`), the components -/
def goutRys (e : EnvG) (D : OpData α) (P : GoutProg) (idx g gout : Ptr) (empty : Int) : Prog α Unit := do
  let p0 ← execSteps true e D P.steps (fun k => g + k * (3 * e.g_size))
  let p ← execMore e D P.more p0
  goutLoop e.nf P.comps.length idx gout empty fun ix iy iz => do
    let s ← accRoots (fun i => do
      let l ← loadProds p (ix + i) (iy + i) (iz + i) P.prods
      pure fun m => l.getD m 0) e.nrys_roots
    pure fun k => compVal D (P.comps.getD k []) s

/-- an integral of src/autocode with `int1e_type` 1 or 2, as the driver sees it; `O` is the common origin -/
def Gen1e.intV [LinearOrder α] (G : Gen1e) (R : Rys α) (N : NucCall α) (O : Nat → α) : Int1e α where
  ng := G.ng
  gbits := G.gbits
  nComp := G.nComp
  common := (G.num : α) / (G.den : α)
  gout := fun e d idx g gout em =>
    goutRys e { a := ![d.ai, d.aj, 0, 0], R := ![d.ri, d.rj, fun _ => 0, fun _ => 0], O := O } G.prog idx g gout em
  g0s := fun K e d => N.srcs.map fun S => g1eNuc R K e d S

end
end Verif.Model
