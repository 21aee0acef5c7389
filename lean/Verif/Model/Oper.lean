import Verif.Model.Drv1e
import Mathlib.Data.Fin.VecNotation

/-!
Operators on intermediates: derivatives and multiplication by a coordinate, src/g1e.c and src/g2e.c,
and the functions of src/autocode that combine them (`f_gout`).

As in `G1e.lean`, the three statements for `x`, `y`, `z` are a loop over the direction `c`.  A pointer
that is advanced by `ptr += di` in a loop over `i` is written `ptr + i*di`.
-/
namespace Verif.Model
open Verif Prog

variable {α : Type} [Field α]

/-- `f[n] = a2 * g[n+s]` -/
def dLow (e : EnvG) (f g : Ptr) (s : Nat) (a2 : α) (c n : Nat) : Prog α Unit := do
  let y ← ld (gAx g e c (n+s))
  st (gAx f e c n) (a2 * y)

/-- `f[n] = m * g[n-s] + a2 * g[n+s]` -/
def dHigh (e : EnvG) (f g : Ptr) (s : Nat) (a2 : α) (m c n : Nat) : Prog α Unit := do
  let x ← ld (gAx g e c (n-s))
  let y ← ld (gAx g e c (n+s))
  st (gAx f e c n) ((m:α) * x + a2 * y)

/-- `f[n] = g[n+s] + r * g[n]` -/
def xMul (e : EnvG) (f g : Ptr) (s : Nat) (r : Nat → α) (c n : Nat) : Prog α Unit := do
  let y ← ld (gAx g e c (n+s))
  let x ← ld (gAx g e c n)
  st (gAx f e c n) (y + r c * x)

/-- CINTnabla1i_1e, src/g1e.c:321-349; `a` is `envs->ai[0]` -/
def nabla1i (e : EnvG) (a : α) (f g : Ptr) (li lj lk : Nat) : Prog α Unit :=
  forN (lk+1) fun k => forN (lj+1) fun j => do
    let ptr := e.g_stride_j * j + e.g_stride_k * k
    forN 3 fun c => dLow e f g 1 (-2 * a) c ptr
    forN li fun i => forN 3 fun c => dHigh e f g 1 (-2 * a) (i+1) c (ptr + (i+1))

/-- CINTnabla1j_1e, src/g1e.c:351-383 -/
def nabla1j (e : EnvG) (a : α) (f g : Ptr) (li lj lk : Nat) : Prog α Unit :=
  forN (lk+1) fun k => do
    forN (li+1) fun i => forN 3 fun c => dLow e f g e.g_stride_j (-2 * a) c (e.g_stride_k * k + i)
    forN lj fun j =>
      let ptr := e.g_stride_j * (j+1) + e.g_stride_k * k
      forN (li+1) fun i => forN 3 fun c => dHigh e f g e.g_stride_j (-2 * a) (j+1) c (ptr + i)

/-- CINTnabla1k_1e, src/g1e.c:388-420 -/
def nabla1k (e : EnvG) (a : α) (f g : Ptr) (li lj lk : Nat) : Prog α Unit := do
  forN (lj+1) fun j =>
    forN (li+1) fun i => forN 3 fun c => dLow e f g e.g_stride_k (-2 * a) c (e.g_stride_j * j + i)
  forN lk fun k => forN (lj+1) fun j =>
    let ptr := e.g_stride_j * j + e.g_stride_k * (k+1)
    forN (li+1) fun i => forN 3 fun c => dHigh e f g e.g_stride_k (-2 * a) (k+1) c (ptr + i)

/-- CINTx1i_1e, CINTx1j_1e, CINTx1k_1e, src/g1e.c:428-499, which differ in the stride `s` only: 1,
`g_stride_j`, `g_stride_k` -/
def x1e (e : EnvG) (s : Nat) (r : Nat → α) (f g : Ptr) (li lj lk : Nat) : Prog α Unit :=
  forN (lk+1) fun k => forN (lj+1) fun j =>
    let ptr := e.g_stride_j * j + e.g_stride_k * k
    forN (li+1) fun i => forN 3 fun c => xMul e f g s r c (ptr + i)

/-- loop over the roots and directions -/
def perRoot (e : EnvG) (body : (c n : Nat) → Prog α Unit) (ptr : Nat) : Prog α Unit :=
  forN e.nrys_roots fun r => forN 3 fun c => body c (ptr + r)

/-- CINTnabla1i_2e, src/g2e.c:4550-4591 -/
def nabla1i2 (e : EnvG) (a : α) (f g : Ptr) (li lj lk ll : Nat) : Prog α Unit :=
  forN (lj+1) fun j => forN (ll+1) fun l => forN (lk+1) fun k => do
    let ptr := e.g_stride_j * j + e.g_stride_l * l + e.g_stride_k * k
    perRoot e (dLow e f g e.g_stride_i (-2 * a)) ptr
    forN li fun i => perRoot e (dHigh e f g e.g_stride_i (-2 * a) (i+1)) (ptr + (i+1) * e.g_stride_i)

/-- CINTnabla1j_2e, src/g2e.c:4597-4644 -/
def nabla1j2 (e : EnvG) (a : α) (f g : Ptr) (li lj lk ll : Nat) : Prog α Unit := do
  forN (ll+1) fun l => forN (lk+1) fun k =>
    let ptr := e.g_stride_l * l + e.g_stride_k * k
    forN (li+1) fun i => perRoot e (dLow e f g e.g_stride_j (-2 * a)) (ptr + i * e.g_stride_i)
  forN lj fun j => forN (ll+1) fun l => forN (lk+1) fun k =>
    let ptr := e.g_stride_j * (j+1) + e.g_stride_l * l + e.g_stride_k * k
    forN (li+1) fun i => perRoot e (dHigh e f g e.g_stride_j (-2 * a) (j+1)) (ptr + i * e.g_stride_i)

/-- CINTnabla1k_2e, src/g2e.c:4651-4697 -/
def nabla1k2 (e : EnvG) (a : α) (f g : Ptr) (li lj lk ll : Nat) : Prog α Unit :=
  forN (lj+1) fun j => forN (ll+1) fun l => do
    let ptr := e.g_stride_j * j + e.g_stride_l * l
    forN (li+1) fun i => perRoot e (dLow e f g e.g_stride_k (-2 * a)) (ptr + i * e.g_stride_i)
    forN lk fun k =>
      let ptr := e.g_stride_j * j + e.g_stride_l * l + e.g_stride_k * (k+1)
      forN (li+1) fun i => perRoot e (dHigh e f g e.g_stride_k (-2 * a) (k+1)) (ptr + i * e.g_stride_i)

/-- CINTnabla1l_2e, src/g2e.c:4702-4745 -/
def nabla1l2 (e : EnvG) (a : α) (f g : Ptr) (li lj lk ll : Nat) : Prog α Unit :=
  forN (lj+1) fun j => do
    forN (lk+1) fun k =>
      let ptr := e.g_stride_j * j + e.g_stride_k * k
      forN (li+1) fun i => perRoot e (dLow e f g e.g_stride_l (-2 * a)) (ptr + i * e.g_stride_i)
    forN ll fun l => forN (lk+1) fun k =>
      let ptr := e.g_stride_j * j + e.g_stride_l * (l+1) + e.g_stride_k * k
      forN (li+1) fun i => perRoot e (dHigh e f g e.g_stride_l (-2 * a) (l+1)) (ptr + i * e.g_stride_i)

/-- CINTx1i_2e, CINTx1j_2e, CINTx1k_2e, CINTx1l_2e, src/g2e.c:4755-4893, which differ in the stride `s`
only -/
def x2e (e : EnvG) (s : Nat) (r : Nat → α) (f g : Ptr) (li lj lk ll : Nat) : Prog α Unit :=
  forN (lj+1) fun j => forN (ll+1) fun l => forN (lk+1) fun k =>
    let ptr := e.g_stride_j * j + e.g_stride_l * l + e.g_stride_k * k
    forN (li+1) fun i => perRoot e (xMul e f g s r) (ptr + i * e.g_stride_i)

/-! ### The functions of src/autocode -/

/-- the macros of src/g1e.h:48-63 and src/g2e.h:88-107: derivative (`_D_`), multiplication by the coordinate
(`_R0`), by the coordinate relative to the common origin (`_RC`), relative to the centre of the function (`_R_`) -/
inductive GOp | d | x0 | xc | own
deriving DecidableEq, Repr

/-- one line `G1E_op(g<dst>, g<src>, envs->i_l+inc 0, envs->j_l+inc 1, ...)`, for function `t` (0 is i, 1 is j,
2 is k, 3 is l) -/
structure GStep where
  op : GOp
  t : Fin 4
  dst : Nat
  src : Nat
  inc : Fin 4 → Nat

/-- the loop `for (ix = 0; ix < envs->g_size * 3; ix++) {g<dst>[ix] += g<src>[ix];}` of the integrals with the gradient of the
potential (e.g. src/autocode/intor1.c:92).  `inc` says up to which powers the two operators before the loop have filled both
arrays; it is not in the C code. -/
structure GSum where
  dst : Nat
  src : Nat
  inc : Fin 4 → Nat

/-- A function of src/autocode: the operators applied, the products `s[m] = g_a[ix]*g_b[iy]*g_c[iz]`, and for each
component of `gout` its terms: integer coefficient, components of `ri - rj` it is multiplied with, number of
the product.  `more`: after the first operators, sums of arrays, each followed by further operators. -/
structure GoutProg where
  steps : List GStep
  more : List (GSum × List GStep) := []
  prods : List (Nat × Nat × Nat)
  comps : List (List (Int × List Nat × Nat))

/-- exponents, centres of the functions i, j, k, l, and the common origin `env[PTR_COMMON_ORIG]` -/
structure OpData (α : Type) where
  a : Fin 4 → α
  R : Fin 4 → Nat → α
  O : Nat → α

def strideOf (e : EnvG) : Fin 4 → Nat := ![e.g_stride_i, e.g_stride_j, e.g_stride_k, e.g_stride_l]
def angOf (e : EnvG) : Fin 4 → Nat := ![e.i_l, e.j_l, e.k_l, e.l_l]

/-- the derivative along function `t`; `two` chooses between the versions of src/g1e.c (one root) and src/g2e.c -/
def nablaAt (two : Bool) (e : EnvG) (a : α) (t : Fin 4) (f g : Ptr) (l : Fin 4 → Nat) : Prog α Unit :=
  match two, t with
  | true, 0 => nabla1i2 e a f g (l 0) (l 1) (l 2) (l 3)
  | true, 1 => nabla1j2 e a f g (l 0) (l 1) (l 2) (l 3)
  | true, 2 => nabla1k2 e a f g (l 0) (l 1) (l 2) (l 3)
  | true, 3 => nabla1l2 e a f g (l 0) (l 1) (l 2) (l 3)
  | false, 0 => nabla1i e a f g (l 0) (l 1) (l 2)
  | false, 1 => nabla1j e a f g (l 0) (l 1) (l 2)
  | false, 2 => nabla1k e a f g (l 0) (l 1) (l 2)
  | false, 3 => Prog.fail

def xAt (two : Bool) (e : EnvG) (r : Nat → α) (t : Fin 4) (f g : Ptr) (l : Fin 4 → Nat) : Prog α Unit :=
  if two then x2e e (strideOf e t) r f g (l 0) (l 1) (l 2) (l 3)
  else x1e e (if t = 0 then 1 else strideOf e t) r f g (l 0) (l 1) (l 2)

/-- One operator; `p` are the pointers `g0`, `g1`, ....  `G1E_R_I` and its like only set a pointer. -/
def execStep (two : Bool) (e : EnvG) (D : OpData α) (p : Nat → Ptr) (s : GStep) : Prog α (Nat → Ptr) :=
  let l := fun t => angOf e t + s.inc t
  match s.op with
  | .d => do nablaAt two e (D.a s.t) s.t (p s.dst) (p s.src) l; pure p
  | .x0 => do xAt two e (D.R s.t) s.t (p s.dst) (p s.src) l; pure p
  | .xc => do xAt two e (fun c => D.R s.t c - D.O c) s.t (p s.dst) (p s.src) l; pure p
  | .own => pure fun k => if k = s.dst then p s.src + strideOf e s.t else p k

def execSteps (two : Bool) (e : EnvG) (D : OpData α) : List GStep → (Nat → Ptr) → Prog α (Nat → Ptr)
  | [], p => pure p
  | s :: l, p => do
    let p' ← execStep two e D p s
    execSteps two e D l p'

/-- whether entry `ix` of an array `g<k>` (three directions) belongs to powers up to `l` and one of `R` roots -/
def inTab (e : EnvG) (R : Nat) (l : Fin 4 → Nat) (ix : Nat) : Bool :=
  (List.range 3).any fun c => (List.range R).any fun r => (List.range (l 0 + 1)).any fun i => (List.range (l 1 + 1)).any fun j =>
    (List.range (l 2 + 1)).any fun k => (List.range (l 3 + 1)).any fun m =>
      ix == c * e.g_size + (e.g_stride_i * i + e.g_stride_j * j + e.g_stride_k * k + e.g_stride_l * m + r)

/-- `for (ix = 0; ix < envs->g_size * 3; ix++) {f[ix] += g[ix];}`.  Simplification: the C loop also adds the entries no operator
has written, whose contents are indeterminate before and after; the model leaves them as they are (reading one later is an
error, as it would be after the addition). -/
def sumArr (e : EnvG) (R : Nat) (l : Fin 4 → Nat) (f g : Ptr) : Prog α Unit :=
  forN (e.g_size * 3) fun ix =>
    if inTab e R l ix then do
      let x ← ld (f + ix)
      let y ← ld (g + ix)
      st (f + ix) (x + y)
    else pure ()

/-- the sums of arrays and the operators after them; in the functions that use them the operators are those of src/g2e.h -/
def execMore (e : EnvG) (D : OpData α) : List (GSum × List GStep) → (Nat → Ptr) → Prog α (Nat → Ptr)
  | [], p => pure p
  | (a, l) :: m, p => do
    sumArr e e.nrys_roots (fun t => angOf e t + a.inc t) (p a.dst) (p a.src)
    let p' ← execSteps true e D l p
    execMore e D m p'

/-- the products `s[0]`, `s[1]`, ... -/
def loadProds (p : Nat → Ptr) (ix iy iz : Nat) : List (Nat × Nat × Nat) → Prog α (List α)
  | [] => pure []
  | m :: l => do
    let x ← ld (p m.1 + ix)
    let y ← ld (p m.2.1 + iy)
    let z ← ld (p m.2.2 + iz)
    let s ← loadProds p ix iy iz l
    pure (x*y*z :: s)

/-- the factors of a term: 0, 1, 2 are the components of `rirj`, 3, 4, 5 those of `rkrl` -/
def geoFac (D : OpData α) (c : Nat) : α := if c < 3 then D.R 0 c - D.R 1 c else D.R 2 (c-3) - D.R 3 (c-3)

/-- a component: the sum of its terms -/
def compVal (D : OpData α) (terms : List (Int × List Nat × Nat)) (s : Nat → α) : α :=
  (terms.map fun t => (t.1 : α) * (t.2.1.map (geoFac D)).prod * s t.2.2).sum

/-- a function of src/autocode for overlap-like one-electron integrals -/
def goutOvlp (e : EnvG) (D : OpData α) (P : GoutProg) (idx g gout : Ptr) (empty : Int) : Prog α Unit := do
  let p ← execSteps false e D P.steps (fun k => g + k * (3 * e.g_size))
  goutLoop e.nf P.comps.length idx gout empty fun ix iy iz => do
    let s ← loadProds p ix iy iz P.prods
    pure fun k => compVal D (P.comps.getD k []) (fun m => s.getD m 0)

/-- A one-electron integral of src/autocode: `ng`, the factor `envs.common_factor` is multiplied with (a
fraction) and the function `f_gout` -/
structure Gen1e where
  ng : Inc
  gbits : Nat
  /-- `ng[POS_E1] * ng[TENSOR]` -/
  nComp : Nat
  num : Int := 1
  den : Nat := 1
  prog : GoutProg

/-- the integral as the driver sees it; `O` is the common origin -/
def Gen1e.int (G : Gen1e) (O : Nat → α) : Int1e α where
  ng := G.ng
  gbits := G.gbits
  nComp := G.nComp
  common := (G.num : α) / (G.den : α)
  gout := fun e d idx g gout em =>
    goutOvlp e { a := ![d.ai, d.aj, 0, 0], R := ![d.ri, d.rj, fun _ => 0, fun _ => 0], O := O } G.prog idx g gout em
  g0s := fun K e d => [g1eOvlp K e d]

end Verif.Model
