import Verif.Model.Nuc
import Verif.Model.Unrolled

/-!
Intermediates of two-electron integrals, src/g2e.c.

As in Model/G1e.lean, groups of three statements that differ only in `x`, `y`, `z` are a loop over the direction.
Local arrays (`u`, `Rys2eT bc`) are functions.  The root finders CINTrys_roots and CINTsr_rys_roots are given by
their results.
-/
namespace Verif.Model
open Verif Prog

variable {α : Type}

/-- CINTrys_roots and CINTsr_rys_roots(n, x, lower, u, w), src/rys_roots.c:57, :149 -/
structure Rys2 (α : Type) extends Rys α where
  sru : (n : Nat) → (x lower : α) → Nat → α
  srw : (n : Nat) → (x lower : α) → Nat → α

/-- the numbers in CINTEnvVars that depend on the primitives and centres, and `env[PTR_RANGE_OMEGA]` -/
structure G2 (α : Type) where
  ai : α
  aj : α
  ak : α
  al : α
  ri : Nat → α
  rj : Nat → α
  rk : Nat → α
  rl : Nat → α
  rij : Nat → α
  rkl : Nat → α
  omega : α

/-- `kbase`, src/g2e.c:103 -/
def kbase (e : EnvG) : Prop := e.lk_ceil > e.ll_ceil

instance (e : EnvG) : Decidable (kbase e) := by unfold kbase; infer_instance

/-- `x, y, z = p[0..2]` -/
def ld3 (p : Nat → Ptr) : Prog α (Nat → α) := do
  let x ← ld (p 0)
  let y ← ld (p 1)
  let z ← ld (p 2)
  pure fun c => if c = 0 then x else if c = 1 then y else z

/-- three stores -/
def st3 (p : Nat → Ptr) (v : Nat → α) : Prog α Unit := forN 3 fun c => st (p c) (v c)

section
variable [Field α]

/-- `envs->rirj`, src/g2e.c:140-151 -/
def rirj2 (e : EnvG) (d : G2 α) (c : Nat) : α := if ibase e then d.ri c - d.rj c else d.rj c - d.ri c
/-- `envs->rkrl`, src/g2e.c:126-137 -/
def rkrl2 (e : EnvG) (d : G2 α) (c : Nat) : α := if kbase e then d.rk c - d.rl c else d.rl c - d.rk c
/-- `envs->rx_in_rijrx` -/
def rxij (e : EnvG) (d : G2 α) : Nat → α := if ibase e then d.ri else d.rj
/-- `envs->rx_in_rklrx` -/
def rxkl (e : EnvG) (d : G2 α) : Nat → α := if kbase e then d.rk else d.rl

/-- the loops over `n` (`m`) of src/g2e.c:305-331, :334-360: from `s0 = g[p 0]` and `s1 = c s0` on,
`s2 = c s1 + k b s0`, stored in `g[p (k+1)]` -/
def vrr1 (nmax : Nat) (c : Nat → α) (b : α) (p : Nat → Nat → Ptr) : Prog α Unit := do
  let s0 ← ld3 fun ax => p ax 0
  let s1 := fun ax => c ax * s0 ax
  st3 (fun ax => p ax 1) s1
  let _ ← forS (nmax-1) (s0, s1) fun k s => do
    let n := k + 1
    let s2 := fun ax => c ax * s.2 ax + (n:α) * b * s.1 ax
    st3 (fun ax => p ax (n+1)) s2
    pure (s.2, s2)
  pure ()

/-- src/g2e.c:362-392: the same along `m` for `n = 1`; `q ax m` is `g(m, n=0)`, `p ax m` is `g(m, n=1)` -/
def vrr2 (mmax : Nat) (c : Nat → α) (b01 b00 : α) (p q : Nat → Nat → Ptr) : Prog α Unit := do
  let s0 ← ld3 fun ax => p ax 0
  let y ← ld3 fun ax => q ax 0
  let s1 := fun ax => c ax * s0 ax + b00 * y ax
  st3 (fun ax => p ax 1) s1
  let _ ← forS (mmax-1) (s0, s1) fun k s => do
    let m := k + 1
    let y ← ld3 fun ax => q ax m
    let s2 := fun ax => c ax * s.2 ax + (m:α) * b01 * s.1 ax + b00 * y ax
    st3 (fun ax => p ax (m+1)) s2
    pure (s.2, s2)
  pure ()

/-- `s1 = g(m,1)` of src/g2e.c:402-404; the C code loads it also for `nmax = 0`, where that cell belongs to the next
slab, is not initialised and the value is not used; here it is not loaded then -/
def ldS1 (nmax : Nat) (p : Nat → Nat → Ptr) (s0 : Nat → α) : Prog α (Nat → α) :=
  if nmax = 0 then pure s0 else ld3 fun ax => p ax 1

/-- src/g2e.c:396-421: along `n` for `m ≥ 1`; `p ax n` is `g(m, n)`, `q ax n` is `g(m-1, n)` -/
def vrr3 (nmax m : Nat) (c : Nat → α) (b10 b00 : α) (p q : Nat → Nat → Ptr) : Prog α Unit := do
  let s0 ← ld3 fun ax => p ax 0
  let s1 ← ldS1 nmax p s0
  let _ ← forS (nmax-1) (s0, s1) fun k s => do
    let n := k + 1
    let y ← ld3 fun ax => q ax n
    let s2 := fun ax => c ax * s.2 ax + (n:α) * b10 * s.1 ax + (m:α) * b00 * y ax
    st3 (fun ax => p ax (n+1)) s2
    pure (s.2, s2)
  pure ()

/-- `if (c) { p }` -/
def onlyIf (c : Prop) [Decidable c] (p : Prog α Unit) : Prog α Unit := if c then p else pure ()

/-- CINTg0_2e_2d, src/g2e.c:272-422 -/
def g0_2e_2d (e : EnvG) (bc : Rys2eT α) (g : Ptr) : Prog α Unit := do
  let nroots := e.nrys_roots
  let nmax := e.li_ceil + e.lj_ceil
  let mmax := e.lk_ceil + e.ll_ceil
  let dm := e.g2d_klmax
  let dn := e.g2d_ijmax
  forN nroots fun i => do
    st (gAx g e 0 i) 1
    st (gAx g e 1 i) 1
  forN nroots fun i => do
    let c00 := fun ax => bc.c00 ax i
    let c0p := fun ax => bc.c0p ax i
    onlyIf (nmax > 0) (vrr1 nmax c00 (bc.b10 i) (fun ax n => gAx g e ax (i + n*dn)))
    onlyIf (mmax > 0) (vrr1 mmax c0p (bc.b01 i) (fun ax m => gAx g e ax (i + m*dm)))
    onlyIf (mmax > 0 ∧ nmax > 0)
      (vrr2 mmax c0p (bc.b01 i) (bc.b00 i) (fun ax m => gAx g e ax (i + dn + m*dm)) (fun ax m => gAx g e ax (i + m*dm)))
    forN mmax fun k =>
      let m := k + 1
      vrr3 nmax m c00 (bc.b10 i) (bc.b00 i) (fun ax n => gAx g e ax (m*dm + i + n*dn))
        (fun ax n => gAx g e ax (m*dm + i + n*dn - dm))

/-- the innermost statements of the horizontal recursion: `gx[n] = rx * p1x[n] + p2x[n]`, where `p1x` is `gx - d1`
and `p2x` is `gx - d1 + d2` -/
def hrrStep (e : EnvG) (g : Ptr) (r : Nat → α) (d1 d2 n : Nat) : Prog α Unit :=
  forN 3 fun c => do
    let x1 ← ld (gAx g e c (n - d1))
    let x2 ← ld (gAx g e c (n - d1 + d2))
    st (gAx g e c n) (r c * x1 + x2)

/-- CINTg0_lj2d_4d, src/g2e.c:428-492 -/
def g0_lj2d_4d (e : EnvG) (d : G2 α) (g : Ptr) : Prog α Unit := do
  let li := e.li_ceil
  let lk := e.lk_ceil
  if li = 0 ∧ lk = 0 then pure () else do
  let nmax := e.li_ceil + e.lj_ceil
  let mmax := e.lk_ceil + e.ll_ceil
  let lj := e.lj_ceil
  let nroots := e.nrys_roots
  let di := e.g_stride_i
  let dk := e.g_stride_k
  let dl := e.g_stride_l
  let dj := e.g_stride_j
  forN li fun i' =>
    let i := i' + 1
    forN (nmax-i+1) fun j => forN (mmax+1) fun l =>
      let ptr := j*dj + l*dl + i*di
      forN nroots fun n => hrrStep e g (rirj2 e d) di dj (ptr + n)
  forN (lj+1) fun j => forN lk fun k' =>
    let k := k' + 1
    forN (mmax-k+1) fun l =>
      let ptr := j*dj + l*dl + k*dk
      forN dk fun n => hrrStep e g (rkrl2 e d) dk dl (ptr + n)

/-- CINTg0_kj2d_4d, src/g2e.c:494-558 -/
def g0_kj2d_4d (e : EnvG) (d : G2 α) (g : Ptr) : Prog α Unit := do
  let li := e.li_ceil
  let ll := e.ll_ceil
  if li = 0 ∧ ll = 0 then pure () else do
  let nmax := e.li_ceil + e.lj_ceil
  let mmax := e.lk_ceil + e.ll_ceil
  let lj := e.lj_ceil
  let nroots := e.nrys_roots
  let di := e.g_stride_i
  let dk := e.g_stride_k
  let dl := e.g_stride_l
  let dj := e.g_stride_j
  forN li fun i' =>
    let i := i' + 1
    forN (nmax-i+1) fun j => forN (mmax+1) fun k =>
      let ptr := j*dj + k*dk + i*di
      forN nroots fun n => hrrStep e g (rirj2 e d) di dj (ptr + n)
  forN (lj+1) fun j => forN ll fun l' =>
    let l := l' + 1
    forN (mmax-l+1) fun k =>
      let ptr := j*dj + l*dl + k*dk
      forN dk fun n => hrrStep e g (rkrl2 e d) dl dk (ptr + n)

/-- CINTg0_il2d_4d, src/g2e.c:560-624 -/
def g0_il2d_4d (e : EnvG) (d : G2 α) (g : Ptr) : Prog α Unit := do
  let lk := e.lk_ceil
  let lj := e.lj_ceil
  if lj = 0 ∧ lk = 0 then pure () else do
  let nmax := e.li_ceil + e.lj_ceil
  let mmax := e.lk_ceil + e.ll_ceil
  let ll := e.ll_ceil
  let nroots := e.nrys_roots
  let di := e.g_stride_i
  let dk := e.g_stride_k
  let dl := e.g_stride_l
  let dj := e.g_stride_j
  forN lk fun k' =>
    let k := k' + 1
    forN (mmax-k+1) fun l => forN (nmax+1) fun i =>
      let ptr := l*dl + k*dk + i*di
      forN nroots fun n => hrrStep e g (rkrl2 e d) dk dl (ptr + n)
  forN lj fun j' =>
    let j := j' + 1
    forN (ll+1) fun l => forN (lk+1) fun k =>
      let ptr := j*dj + l*dl + k*dk
      forN (dk-di*j) fun n => hrrStep e g (rirj2 e d) dj di (ptr + n)

/-- CINTg0_ik2d_4d, src/g2e.c:626-693 -/
def g0_ik2d_4d (e : EnvG) (d : G2 α) (g : Ptr) : Prog α Unit := do
  let lj := e.lj_ceil
  let ll := e.ll_ceil
  if lj = 0 ∧ ll = 0 then pure () else do
  let nmax := e.li_ceil + e.lj_ceil
  let mmax := e.lk_ceil + e.ll_ceil
  let lk := e.lk_ceil
  let nroots := e.nrys_roots
  let di := e.g_stride_i
  let dk := e.g_stride_k
  let dl := e.g_stride_l
  let dj := e.g_stride_j
  forN ll fun l' =>
    let l := l' + 1
    forN (mmax-l+1) fun k => forN (nmax+1) fun i =>
      let ptr := l*dl + k*dk + i*di
      forN nroots fun n => hrrStep e g (rkrl2 e d) dl dk (ptr + n)
  forN lj fun j' =>
    let j := j' + 1
    forN (ll+1) fun l => forN (lk+1) fun k =>
      let ptr := j*dj + l*dl + k*dk
      forN (dk-di*j) fun n => hrrStep e g (rirj2 e d) dj di (ptr + n)

/-- CINTg0_2e_2d4d_unrolled and CINTsrg0_2e_2d4d_unrolled, src/g2e.c:2020-2064, :4354-4398: the kernel for
`type_ijkl`; nothing is done (apart from a message) when there is none -/
def g0Unrolled (cases : List (Nat × List (Nat × UExpr))) (e : EnvG) (d : G2 α) (bc : Rys2eT α) (g : Ptr) :
    Prog α Unit :=
  let type_ijkl := (e.li_ceil <<< 6) ||| (e.lj_ceil <<< 4) ||| (e.lk_ceil <<< 2) ||| e.ll_ceil
  match cases.lookup type_ijkl with
  | some l => runAssigns bc (rirj2 e d) (rkrl2 e d) g l
  | none => pure ()

/-- the horizontal recursion selected by the base of each pair, src/g2e.c:153-170, src/g3c2e.c:121-130 (where `lk_ceil = 0`) -/
def g0Hrr (e : EnvG) (d : G2 α) (g : Ptr) : Prog α Unit :=
  if kbase e then
    if ibase e then g0_ik2d_4d e d g else g0_kj2d_4d e d g
  else
    if ibase e then g0_il2d_4d e d g else g0_lj2d_4d e d g

/-- CINTg0_2e_lj2d4d, CINTg0_2e_kj2d4d, CINTg0_2e_il2d4d, CINTg0_2e_ik2d4d, src/g2e.c:4400-4420 -/
def g0General (e : EnvG) (d : G2 α) (bc : Rys2eT α) (g : Ptr) : Prog α Unit := do
  g0_2e_2d e bc g
  g0Hrr e d g

/-- `(*envs->f_g0_2d4d)(g, &bc, envs)` as selected by CINTinit_int2e_EnvVars (src/g2e.c:153-170) and
CINTinit_int3c2e_EnvVars (src/g3c2e.c:121-130) -/
def g0_2d4d (e : EnvG) (d : G2 α) (bc : Rys2eT α) (g : Ptr) : Prog α Unit :=
  if e.rys_order ≤ 2 then
    if e.rys_order ≠ e.nrys_roots then g0Unrolled Unrolled.srUnrolled e d bc g
    else g0Unrolled Unrolled.unrolled e d bc g
  else g0General e d bc g

variable [LinearOrder α]

/-- recursion coefficients, src/g2e.c:4500-4540 -/
def bc2e (e : EnvG) (d : G2 α) (u : Nat → α) : Rys2eT α :=
  let aij := d.ai + d.aj
  let akl := d.ak + d.al
  let a1 := aij * akl
  let a0 := a1 / (aij + akl)
  let u2 := fun n => a0 * u n
  let tmp4 := fun n => 1/2 / (u2 n * (aij + akl) + a1)
  let tmp5 := fun n => u2 n * tmp4 n
  let tmp1 := fun n => 2 * tmp5 n
  let tmp2 := fun n => tmp1 n * akl
  let tmp3 := fun n => tmp1 n * aij
  { b00 := tmp5
    b10 := fun n => tmp5 n + tmp4 n * akl
    b01 := fun n => tmp5 n + tmp4 n * aij
    c00 := fun c n => (d.rij c - rxij e d c) - tmp2 n * (d.rij c - d.rkl c)
    c0p := fun c n => (d.rkl c - rxkl e d c) + tmp3 n * (d.rij c - d.rkl c) }

/-- CINTg0_2e after the roots are known, src/g2e.c:4493-4544; `F` is `envs->f_g0_2d4d` -/
def g0Rest (e : EnvG) (d : G2 α) (g : Ptr) (u : Nat → α) (fac1 : α)
    (F : EnvG → G2 α → Rys2eT α → Ptr → Prog α Unit := g0_2d4d) : Prog α Bool :=
  if e.g_size = 1 then do
    st (g + 0) 1
    st (g + 1) 1
    let z ← ld (g + 2)
    st (g + 2) (z * fac1)
    pure true
  else do
    forN e.nrys_roots fun n => do
      let z ← ld (gAx g e 2 n)
      st (gAx g e 2 n) (z * fac1)
    F e d (bc2e e d u) g
    pure true

/-- `ut / (u+1-ut)` with `ut = u*theta`, src/g2e.c:4472-4473, :4489-4490 -/
def scaleRoot (theta u : α) : α :=
  let ut := u * theta
  ut / (u + 1 - ut)

/-- CINTg0_2e, src/g2e.c:4425-4545; `fac` is `envs->fac[0]`, 40 is EXPCUTOFF_SR (src/rys_roots.h:46) -/
def g0_2e (R : Rys2 α) (K : Consts α) (e : EnvG) (d : G2 α) (cutoff : α) (g : Ptr) (fac : α)
    (F : EnvG → G2 α → Rys2eT α → Ptr → Prog α Unit := g0_2d4d) : Prog α Bool :=
  let nroots := e.nrys_roots
  let aij := d.ai + d.aj
  let akl := d.ak + d.al
  let r := fun c => d.rij c - d.rkl c
  let rr := r 0 * r 0 + r 1 * r 1 + r 2 * r 2
  let a1 := aij * akl
  let a0 := a1 / (aij + akl)
  let fac1 := K.sqrt (a0 / (a1 * a1 * a1)) * fac
  let x := a0 * rr
  if d.omega = 0 then do
    forN nroots fun n => st (gAx g e 2 n) (R.w nroots x n)
    g0Rest e d g (R.u nroots x) fac1 F
  else if d.omega < 0 then
    let theta := d.omega * d.omega / (d.omega * d.omega + a0)
    if theta * x > cutoff ∨ theta * x > 40 then pure false else
    let rorder := e.rys_order
    if rorder = nroots then do
      forN nroots fun n => st (gAx g e 2 n) (R.srw nroots x (K.sqrt theta) n)
      g0Rest e d g (R.sru nroots x (K.sqrt theta)) fac1 F
    else do
      let sqrt_theta := -K.sqrt theta
      forN rorder fun n => st (gAx g e 2 n) (R.w rorder x n)
      forN rorder fun n => st (gAx g e 2 (rorder + n)) (R.w rorder (theta*x) n)
      if e.g_size = 2 then do
        st (g + 0) 1
        st (g + 1) 1
        st (g + 2) 1
        st (g + 3) 1
        let z ← ld (g + 4)
        st (g + 4) (z * fac1)
        let z ← ld (g + 5)
        st (g + 5) (z * (fac1 * sqrt_theta))
        pure true
      else do
        forN (nroots - rorder) fun n => do
          let z ← ld (gAx g e 2 (rorder + n))
          st (gAx g e 2 (rorder + n)) (z * sqrt_theta)
        g0Rest e d g (fun n => if n < rorder then R.u rorder x n
          else scaleRoot theta (R.u rorder (theta*x) (n - rorder))) fac1 F
  else
    let theta := d.omega * d.omega / (d.omega * d.omega + a0)
    let x := x * theta
    let fac1 := fac1 * K.sqrt theta
    do
      forN nroots fun n => st (gAx g e 2 n) (R.w nroots x n)
      g0Rest e d g (fun n => scaleRoot theta (R.u nroots x n)) fac1 F

end
end Verif.Model
