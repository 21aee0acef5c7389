import Verif.Model.Int3c2e
import Verif.Model.Nuc

/-!
One-electron three-centre integrals, src/g3c1e.c and src/cint3c1e.c: the overlap of three functions (`int_type` 0) and the
overlap with the potential of a charge at `env[PTR_RINV_ORIG]` (`int_type` 1).  No exported function passes another `int_type`.
Memory layout of the cache: Model/Drv1e.lean.
-/
namespace Verif.Model
open Verif Prog

variable {α : Type}

/-- The common part of CINTg3c1e_ovlp, src/g3c1e.c:127-190, and CINTg3c1e_nuc, src/g3c1e.c:195-257: `gz0` is the value stored
in `gz[0]`, `rjr0` the vector `rjrijk` or `rjr0`, `aijk1` the number of that name. -/
def g3c1eRec [Field α] (e : EnvG) (d : G2 α) (g : Ptr) (gz0 : α) (rjr0 : Nat → α) (aijk1 : α) : Prog α Unit := do
  let li := e.li_ceil
  let lj := e.lj_ceil
  let lk := e.lk_ceil
  let nmax := li + lj + lk
  let mmax := lj + lk
  st (gAx g e 0 0) 1
  st (gAx g e 1 0) 1
  st (gAx g e 2 0) gz0
  if nmax = 0 then pure () else do
  let dj := li + 1
  let dk := e.g_stride_k
  let rirj := fun c => d.ri c - d.rj c
  let rjrk := fun c => d.rj c - d.rk c
  forN 3 fun c => do
    let x ← ld (gAx g e c 0)
    st (gAx g e c dj) (-(rjr0 c) * x)
  forN (nmax-1) fun m =>
    let j := m + 1
    forN 3 fun c => do
      let x0 ← ld (gAx g e c ((j-1)*dj))
      let x1 ← ld (gAx g e c (j*dj))
      st (gAx g e c ((j+1)*dj)) (aijk1 * (j:α) * x0 - rjr0 c * x1)
  forN li fun m =>
    let i := m + 1
    forN (nmax-i+1) fun j =>
      forN 3 fun c => do
        let x1 ← ld (gAx g e c (i-1+(j+1)*dj))
        let x0 ← ld (gAx g e c (i-1+j*dj))
        st (gAx g e c (i+j*dj)) (x1 - rirj c * x0)
  let dj := e.g_stride_j
  forN lk fun m =>
    let k := m + 1
    forN (mmax-k+1) fun j =>
      let off := k * dk + j * dj
      forN (li+1) fun t =>
        let i := off + t
        forN 3 fun c => do
          let x1 ← ld (gAx g e c (i+dj-dk))
          let x0 ← ld (gAx g e c (i-dk))
          st (gAx g e c i) (x1 + rjrk c * x0)

/-- CINTg3c1e_ovlp, src/g3c1e.c:124-190; `d.rij` is `(ai ri + aj rj + ak rk) / aijk`, `fac` is `envs->fac[0]` -/
def g3c1eOvlp [Field α] (e : EnvG) (d : G2 α) (g : Ptr) (fac : α) : Prog α Unit :=
  let aijk := d.ai + d.aj + d.ak
  g3c1eRec e d g fac (fun c => d.rj c - d.rij c) (1/2 / aijk)

/-- CINTg3c1e_nuc, src/g3c1e.c:192-257; `d.rij` is the argument `rijk` -/
def g3c1eNuc [Field α] (K : Consts α) (e : EnvG) (d : G2 α) (cr : Nat → α) (t2 : α) (g : Ptr) (fac : α) : Prog α Unit :=
  let aijk := d.ai + d.aj + d.ak
  g3c1eRec e d g (2/K.sqrtpi * fac) (fun c => d.rj c - (d.rij c + t2 * (cr c - d.rij c))) (1/2 * (1 - t2) / aijk)

/-- `int_type` of CINT3c1e_drv: INT1E_TYPE_OVLP, INT1E_TYPE_RINV with `env[PTR_RINV_ZETA]` and `env + PTR_RINV_ORIG` -/
inductive Op3c1e (α : Type)
  | ovlp
  | rinv (zeta : α) (orig : Nat → α)

section
variable (X : Int2e α) (s : Call3 α)

/-- `envs`; nothing in it depends on `omega` -/
def Call3.env1 : EnvG := initInt3c1e s.si.l s.sj.l s.sk.l X.ng
/-- `leng`, src/cint3c1e.c:110, :250, :373 -/
def Call3.leng1 : Nat := (s.env1 X).g_size * 3 * (2^X.gbits + 1)
/-- number of FINTs of the sparsity tables, src/cint3c1e.c:99, :237 -/
def Call3.tblLen1 : Nat := s.si.nprim + s.sj.nprim + s.sk.nprim + s.si.nprim * s.si.nctr +
  s.sj.nprim * s.sj.nctr + s.sk.nprim * s.sk.nctr

/-- The cache size asked for by CINT3c1e_drv, src/cint3c1e.c:354-363, :371-379; exact, in C `nc`, `pdata_size` and the result
are FINTs. -/
def cacheSize3c1e : Nat :=
  let nf := (s.env1 X).nf
  let nc := nf * s.si.nctr * s.sj.nctr * s.sk.nctr
  let pdata_size := s.si.nprim * s.si.nctr + s.sj.nprim * s.sj.nctr + s.sk.nprim * s.sk.nctr + nf * 3
  max (s.leng1 X + nf * X.nComp + nc * X.nComp * 4 + pdata_size) (nc * X.nComp + nf * 3)

/-- the arrays of the loop functions -/
structure Arrays3c1e where
  idx : Ptr
  tbl : Ptr
  g : Ptr

/-- MALLOC_INSTACK of the arrays of CINT3c1e_loop_nopt, src/cint3c1e.c:94, 99, 117, and CINT3c1e_nuc_loop_nopt, :232, 237, 257 -/
def arrays3c1e (fpd buf c : Nat) : Arrays3c1e :=
  let m1 := mallocI fpd buf c ((s.env1 X).nf * 3)
  let m2 := mallocI fpd buf m1.2 s.tblLen1
  { idx := m1.1, tbl := m2.1, g := ⟨buf, alignUp fpd m2.2 / fpd⟩ }

section
variable [Field α]

/-- `aijk`, src/cint3c1e.c:160, :308 -/
def Call3.aijk (ip jp kp : Nat) : α := s.si.a ip + s.sj.a jp + s.sk.a kp

/-- `eijk`, src/cint3c1e.c:136-138, 158-163, :282-284, 306-311 -/
def Call3.eijk (ip jp kp : Nat) : α :=
  (s.si.a ip * s.sj.a jp * rr2 s.si.r s.sj.r + s.si.a ip * s.sk.a kp * rr2 s.si.r s.sk.r
    + s.sj.a jp * s.sk.a kp * rr2 s.sj.r s.sk.r) / s.aijk ip jp kp

/-- `envs` inside the primitive loops; `rij` is the vector `rijk` of src/cint3c1e.c:322-324 (and src/g3c1e.c:157-159).  The
members `al`, `rl`, `rkl` are not set in C. -/
def Call3.g1 (ip jp kp : Nat) : G2 α :=
  { ai := s.si.a ip, aj := s.sj.a jp, ak := s.sk.a kp, al := 0
    ri := s.si.r, rj := s.sj.r, rk := s.sk.r, rl := s.sk.r
    rij := fun c => (s.si.a ip * s.si.r c + s.sj.a jp * s.sj.r c + s.sk.a kp * s.sk.r c) / s.aijk ip jp kp
    rkl := s.sk.r
    omega := 0 }
end

variable [Field α] [LinearOrder α] (R : Rys α) (K : Consts α) (L : MathLib α) (op : Op3c1e α)

/-- the body of the loop over roots, src/cint3c1e.c:321-335, apart from `f_gout`: `tau`, `x`, the root finder, `t2` and
`envs->fac[0]`.  `fac` is `fac1i`. -/
def nucRoot3 (e : EnvG) (d : G2 α) (zeta : α) (cr : Nat → α) (i : Nat) (g : Ptr) (fac : α) : Prog α Bool := do
  let aijk := d.ai + d.aj + d.ak
  let dijk := fac / aijk
  let tau := nucMod K aijk zeta
  let x := aijk * rr2 d.rij cr * tau * tau
  let u := R.u e.nrys_roots x i
  let t2 := u / (1 + u) * tau * tau
  g3c1eNuc K e d cr t2 g (dijk * R.w e.nrys_roots x i * tau)
  pure true

/-- The loops of CINT3c1e_loop_nopt, src/cint3c1e.c:140-191, and CINT3c1e_nuc_loop_nopt, :285-350.  `common_factor`:
src/g3c1e.c:55-57 (the factor `fac` of the second is 1). -/
def Call3.triple1 (A : Arrays3c1e) : Nest3 α :=
  { iPrim := s.si.nprim, jPrim := s.sj.nprim, kPrim := s.sk.nprim
    iCtr := s.si.nctr, jCtr := s.sj.nctr, kCtr := s.sk.nctr
    ci := s.si.c, cj := s.sj.c, ck := s.sk.c
    common := X.common * (K.sqrtpi * K.pi * commonFacSp s.si.l * commonFacSp s.sj.l * commonFacSp s.sk.l)
    skip := fun ip jp kp => decide (s.eijk ip jp kp > 60)
    eij := fun ip jp kp => L.exp (-(s.eijk ip jp kp))
    g0 := fun ip jp kp fac => match op with
      | .ovlp => do
        g3c1eOvlp (s.env1 X) (s.g1 ip jp kp) A.g (fac / (s.aijk ip jp kp * K.sqrt (s.aijk ip jp kp)))
        pure true
      | .rinv _ _ => pure true
    gout := fun ip jp kp fac gout em => match op with
      | .ovlp => X.gout (s.env1 X) (s.g1 ip jp kp) A.idx A.g gout em
      | .rinv zeta cr => makeGout (X.gout (s.env1 X) (s.g1 ip jp kp) A.idx A.g) A.g gout fac
          ((List.range (s.env1 X).nrys_roots).map fun i => nucRoot3 R K (s.env1 X) (s.g1 ip jp kp) zeta cr i) em
    nf := (s.env1 X).nf, nComp := X.nComp, leng := s.leng1 X }

/-- CINT3c1e_loop_nopt, src/cint3c1e.c:60-193, and CINT3c1e_nuc_loop_nopt, :195-352.  `empty` is the driver's variable, `fl`
the local array `_empty[4]`, `loc` the local arrays of CINTg2e_index_xyz, `c` the incoming `cache`. -/
def loop3c1eRun (fpd : Nat) (gctr empty : Ptr) (buf c : Nat) (fl loc : Ptr) : Prog α Bool := do
  let A := arrays3c1e X s fpd buf c
  g2eIndex A.idx loc (s.env1 X)
  loop3cNopt (s.triple1 X R K L op A) ⟨gctr, empty, A.g, fl⟩ A.tbl false

/-- CINT3c1e_drv, src/cint3c1e.c:365-447, with `out` not NULL, `is_ssc` 0 and `int_type` 0 or 1.  `trans` transforms a block
using the remaining cache; `nfo` is the number of output functions of the shells (`nfi`, or `2l+1`; 1 for the absent fourth).
When the caller passes no cache the driver allocates one of size `cacheSize3c1e`.  c2s_sph_3c1e and c2s_cart_3c1e
(src/cart2sph.c:6458-6468) call the functions for `3c2e1`. -/
def drv3c1e (fpd : Nat) (trans : (buf c : Nat) → Ptr → Prog α Ptr) (nfo : Nat → Nat) (out : Ptr)
    (dims : Option Ptr) (buf c : Nat) (empty fl loc counts : Ptr) : Prog α Bool := do
  let nf := (s.env1 X).nf
  let nc := nf * s.si.nctr * s.sj.nctr * s.sk.nctr
  let m := mallocD fpd buf c (nc * X.nComp)
  stI empty 1
  let _ ← loop3c1eRun X s R K L op fpd m.1 empty buf m.2 fl loc
  let e ← ldI empty
  let S : Shape := { ic := s.si.nctr, jc := s.sj.nctr, kc := s.sk.nctr, lc := 1
                     di := nfo 0, dj := nfo 1, dk := nfo 2, dl := nfo 3, nf := nf }
  outStage 3 (decide (e = 0)) X.nComp nc (c2s3c S (trans buf m.2)) out m.1 dims counts
    (fun t => nfo t * four s.si.nctr s.sj.nctr s.sk.nctr 1 t)
  pure (decide (e = 0))

/-- int3c1e_cart, int3c1e_sph and, with `Op3c1e.rinv`, int3c1e_rinv_cart, int3c1e_rinv_sph; src/cint3c1e.c:459-467, 474-482, 494-502, 509-517 -/
def int3c1eInt : Int2e α where
  ng := { rys := 0 }
  gbits := 0
  nComp := 1
  common := 1
  gout := fun e _ idx g gout em => gout1e e.nf idx g gout em

end
end Verif.Model
