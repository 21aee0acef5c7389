import Verif.Model.Env
import Verif.Core.Prog
import Mathlib.Algebra.Field.Defs

/-!
Intermediates of one-electron integrals, src/g1e.c.

The array `g` consists of three slabs of `g_size` numbers, `gx = g`, `gy = g + g_size`,
`gz = g + 2 g_size`.  Groups of three statements that differ only in `x`, `y`, `z` are written as a
loop over the direction `c = 0, 1, 2`.
-/
namespace Verif.Model
open Verif Prog

variable {α : Type}

/-- the numbers in CINTEnvVars that depend on the primitives and centres: exponents `ai[0]`, `aj[0]`,
centres `ri`, `rj` and the centre of the pair `rij` (include/cint.h.in) -/
structure G1 (α : Type) where
  ai : α
  aj : α
  ri : Nat → α
  rj : Nat → α
  rij : Nat → α

/-- constants of the C program: M_PI, SQRTPI and the function sqrt -/
structure Consts (α : Type) where
  pi : α
  sqrtpi : α
  sqrt : α → α

/-- element `n` of slab `c` -/
def gAx (g : Ptr) (e : EnvG) (c n : Nat) : Ptr := g + (c * e.g_size + n)

/-- `ibase` of src/g1e.c:56, the test of src/g1e.c:146, :273 -/
def ibase (e : EnvG) : Prop := e.li_ceil > e.lj_ceil

instance (e : EnvG) : Decidable (ibase e) := by unfold ibase; infer_instance

/-- `rirj`, src/g1e.c:57-69 -/
def rirj [Sub α] (e : EnvG) (d : G1 α) (c : Nat) : α :=
  if ibase e then d.ri c - d.rj c else d.rj c - d.ri c

/-- `lj`, `di`, `dj`, `rx` of src/g1e.c:146-157 and :273-284 -/
def baseL (e : EnvG) : Nat := if ibase e then e.lj_ceil else e.li_ceil
def baseDi (e : EnvG) : Nat := if ibase e then e.g_stride_i else e.g_stride_j
def baseDj (e : EnvG) : Nat := if ibase e then e.g_stride_j else e.g_stride_i
def baseR (e : EnvG) (d : G1 α) : Nat → α := if ibase e then d.ri else d.rj

variable [Field α]

/-- CINTg1e_ovlp, src/g1e.c:124-181; `fac` is `envs->fac[0]` -/
def g1eOvlp (K : Consts α) (e : EnvG) (d : G1 α) (g : Ptr) (fac : α) : Prog α Bool := do
  let aij := d.ai + d.aj
  st (gAx g e 0 0) 1
  st (gAx g e 1 0) 1
  st (gAx g e 2 0) (fac * K.sqrtpi * K.pi / (aij * K.sqrt aij))
  let nmax := e.li_ceil + e.lj_ceil
  if nmax = 0 then pure true else do
  let lj := baseL e
  let di := baseDi e
  let dj := baseDj e
  let rijrx := fun c => d.rij c - baseR e d c
  forN 3 fun c => do
    let x ← ld (gAx g e c 0)
    st (gAx g e c di) (rijrx c * x)
  let aij2 := 1/2 / aij
  forN (nmax-1) fun k =>
    let i := k + 1
    forN 3 fun c => do
      let x0 ← ld (gAx g e c ((i-1)*di))
      let x1 ← ld (gAx g e c (i*di))
      st (gAx g e c ((i+1)*di)) ((i:α) * aij2 * x0 + rijrx c * x1)
  forN lj fun k =>
    let j := k + 1
    let ptr := dj * j
    forN (nmax-j+1) fun i =>
      let n := ptr + i*di
      forN 3 fun c => do
        let x1 ← ld (gAx g e c (n+di-dj))
        let x0 ← ld (gAx g e c (n-dj))
        st (gAx g e c n) (x1 + rirj e d c * x0)
  pure true

/-- the statements that put the `nc` components `s 0, s 1, ...` of Cartesian pair `n` into `gout`:
`gout[n*nc+k] = s[k]` if `empty`, `gout[n*nc+k] += s[k]` if not (src/cint1e.c:312-324 and every
function of src/autocode) -/
def goutPut (nc : Nat) (gout : Ptr) (empty : Int) (n : Nat) (s : Nat → α) : Prog α Unit :=
  if empty ≠ 0 then forN nc fun k => st (gout + (n*nc+k)) (s k)
  else forN nc fun k => do
    let o ← ld (gout + (n*nc+k))
    st (gout + (n*nc+k)) (o + s k)

/-- the loop over Cartesian pairs of these functions; `comp ix iy iz` evaluates the components from
the addresses `ix`, `iy`, `iz` of the index table.  CINTgout1e has the test of `empty` outside the
loop, the functions of src/autocode inside. -/
def goutLoop (nf nc : Nat) (idx gout : Ptr) (empty : Int)
    (comp : Nat → Nat → Nat → Prog α (Nat → α)) : Prog α Unit :=
  forN nf fun n => do
    let ix ← ldI (idx + (n*3+0))
    let iy ← ldI (idx + (n*3+1))
    let iz ← ldI (idx + (n*3+2))
    let s ← comp ix.toNat iy.toNat iz.toNat
    goutPut nc gout empty n s

/-- CINTgout1e, src/cint1e.c:306-325 -/
def gout1e (nf : Nat) (idx g gout : Ptr) (empty : Int) : Prog α Unit :=
  goutLoop nf 1 idx gout empty fun ix iy iz => do
    let x ← ld (g + ix)
    let y ← ld (g + iy)
    let z ← ld (g + iz)
    pure fun _ => x*y*z

end Verif.Model
