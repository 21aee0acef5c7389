import Verif.Model.Int2e
import Verif.Model.Int3c1e

/-!
One-electron integrals over four functions, src/g4c1e.c and src/cint4c1e.c: int4c1e_cart and int4c1e_sph.  These two have one
component (`ng = {0, 0, 0, 0, 0, 1, 1, 1}`, src/cint4c1e.c:327, 342), the number used throughout.  Memory layout of the cache:
Model/Drv1e.lean.
-/
namespace Verif.Model
open Verif Prog

variable {α : Type}

/-- `bufx[n]`, `bufy[n]`, `bufz[n]` of CINTg4c1e_ovlp, src/g4c1e.c:154-156 -/
def bufAx (b : Ptr) (bSize c n : Nat) : Ptr := b + (c * bSize + n)

/-- `b_size`, src/g4c1e.c:150-153 -/
def bSize4 (e : EnvG) : Nat :=
  let nmax := e.li_ceil + e.lj_ceil
  let mmax := e.lk_ceil + e.ll_ceil
  (nmax + mmax + 1) * (max nmax mmax + 1)

/-- The two halves of CINTg4c1e_ovlp (src/g4c1e.c:191-210, :228-247) fill the buffers by the same recursions, with the roles of
the two pairs exchanged: `tot` is `nmax+mmax`, `low` the upper limit of the second loop. -/
def g4c1eBuf [Field α] (b : Ptr) (bSize db tot low : Nat) (aijkl : α) (r1r12 r1r2 : Nat → α) : Prog α Unit := do
  (if tot > 0 then
    forN 3 fun c => do
      let x ← ld (bufAx b bSize c 0)
      st (bufAx b bSize c 1) (-(r1r12 c) * x)
  else pure ())
  forN (tot-1) fun m =>
    let i := m + 1
    forN 3 fun c => do
      let x0 ← ld (bufAx b bSize c (i-1))
      let x1 ← ld (bufAx b bSize c i)
      st (bufAx b bSize c (i+1)) (1/2 * (i:α) / aijkl * x0 - r1r12 c * x1)
  forN low fun m =>
    let j := m + 1
    let ptr := db * j
    forN (tot-j+1) fun t =>
      let i := ptr + t
      forN 3 fun c => do
        let x1 ← ld (bufAx b bSize c (i+1-db))
        let x0 ← ld (bufAx b bSize c (i-db))
        st (bufAx b bSize c i) (x1 + r1r2 c * x0)

/-- CINTg4c1e_ovlp, src/g4c1e.c:144-258; `b` is its argument `cache`, `fac` is `envs->fac[0]` -/
def g4c1eOvlp [Field α] (K : Consts α) (e : EnvG) (d : G2 α) (g b : Ptr) (fac : α) : Prog α Unit := do
  let nmax := e.li_ceil + e.lj_ceil
  let mmax := e.lk_ceil + e.ll_ceil
  let db := nmax + mmax + 1
  let bs := bSize4 e
  let aij := d.ai + d.aj
  let akl := d.ak + d.al
  let aijkl := aij + akl
  let dn := e.g2d_ijmax
  let dm := e.g2d_klmax
  st (bufAx b bs 0 0) 1
  st (bufAx b bs 1 0) 1
  st (bufAx b bs 2 0) (fac / (aijkl * K.sqrt aijkl))
  (if nmax ≥ mmax then do
    g4c1eBuf b bs db (nmax + mmax) mmax aijkl (fun c => rxij e d c - (aij * d.rij c + akl * d.rkl c) / aijkl)
      (fun c => rxij e d c - rxkl e d c)
    forN (mmax+1) fun j => forN (nmax+1) fun i => forN 3 fun c => do
      let x ← ld (bufAx b bs c (i + j*db))
      st (gAx g e c (i*dn + j*dm)) x
  else do
    g4c1eBuf b bs db (nmax + mmax) nmax aijkl (fun c => rxkl e d c - (aij * d.rij c + akl * d.rkl c) / aijkl)
      (fun c => rxkl e d c - rxij e d c)
    forN (mmax+1) fun j => forN (nmax+1) fun i => forN 3 fun c => do
      let x ← ld (bufAx b bs c (i*db + j))
      st (gAx g e c (i*dn + j*dm)) x)
  g0Hrr e d g

section
variable (s : Call2 α)

/-- `envs`, src/cint4c1e.c:327-329, 342-344; nothing in it depends on `omega` or on `env[PTR_EXPCUTOFF]` -/
def Call2.env4 : EnvG := initInt4c1e s.si.l s.sj.l s.sk.l s.sl.l { rys := 0 }
/-- `leng`, src/cint4c1e.c:102, `gbits` being 0 -/
def Call2.leng4 : Nat := s.env4.g_size * 3 * (2^0 + 1)
/-- size of the sparsity tables, src/cint4c1e.c:87 -/
def Call2.tblLen4 : Nat := s.si.nprim + s.sj.nprim + s.sk.nprim + s.sl.nprim + s.si.nprim * s.si.nctr +
  s.sj.nprim * s.sj.nctr + s.sk.nprim * s.sk.nctr + s.sl.nprim * s.sl.nctr
/-- `len`, src/cint4c1e.c:103-108 -/
def Call2.len4 : Nat :=
  let nf := s.env4.nf
  s.leng4 + nf * (s.si.nctr * s.sj.nctr * s.sk.nctr * s.sl.nctr) + nf * s.si.nctr * s.sj.nctr * s.sk.nctr
    + nf * s.si.nctr * s.sj.nctr + nf * s.si.nctr + nf

/-- The cache size asked for by CINT4c1e_drv, src/cint4c1e.c:250-261, :269-276, and allocated by it when the caller passes no
cache, :278-286; exact. -/
def cacheSize4c1e : Nat :=
  let nf := s.env4.nf
  let nc := nf * s.si.nctr * s.sj.nctr * s.sk.nctr * s.sl.nctr
  let pdata_size := s.si.nprim * s.si.nctr + s.sj.nprim * s.sj.nctr + s.sk.nprim * s.sk.nctr + s.sl.nprim * s.sl.nctr + nf * 3
  max (s.leng4 + nf + nc * 3 + pdata_size) (nc + nf * 32 * 2)

/-- the arrays of CINT4c1e_loop_nopt in the cache, src/cint4c1e.c:82, 87, 110; `b` is the rest of the cache, given to
CINTg4c1e_ovlp -/
structure Arrays4c1e where
  idx : Ptr
  tbl : Ptr
  g : Ptr
  b : Ptr

/-- MALLOC_INSTACK of these arrays -/
def arrays4c1e (fpd buf c : Nat) : Arrays4c1e :=
  let m1 := mallocI fpd buf c (s.env4.nf * 3)
  let m2 := mallocI fpd buf m1.2 s.tblLen4
  let m3 := mallocD fpd buf m2.2 s.len4
  { idx := m1.1, tbl := m2.1, g := m3.1, b := ⟨buf, m3.2 / fpd⟩ }

variable [Field α] [LinearOrder α] (K : Consts α) (L : MathLib α)

/-- `eij`, src/cint4c1e.c:152, 197-198 (`rirj` may hold the opposite difference, which has the same square) -/
def Call2.eij4 (ip jp : Nat) : α := rr2 s.si.r s.sj.r * s.si.a ip * s.sj.a jp / (s.si.a ip + s.sj.a jp)
/-- `ekl`, src/cint4c1e.c:153, 169-170 -/
def Call2.ekl4 (kp lp : Nat) : α := rr2 s.sk.r s.sl.r * s.sk.a kp * s.sl.a lp / (s.sk.a kp + s.sl.a lp)

/-- `envs` inside the primitive loops, src/cint4c1e.c:160-207 -/
def Call2.g4 (ip jp kp lp : Nat) : G2 α :=
  { ai := s.si.a ip, aj := s.sj.a jp, ak := s.sk.a kp, al := s.sl.a lp
    ri := s.si.r, rj := s.sj.r, rk := s.sk.r, rl := s.sl.r
    rij := fun c => (s.si.a ip * s.si.r c + s.sj.a jp * s.sj.r c) / (s.si.a ip + s.sj.a jp)
    rkl := fun c => (s.sk.a kp * s.sk.r c + s.sl.a lp * s.sl.r c) / (s.sk.a kp + s.sl.a lp)
    omega := 0 }

/-- `eijkl`, src/cint4c1e.c:208-213 -/
def Call2.eijkl4 (ip jp kp lp : Nat) : α :=
  let aij := s.si.a ip + s.sj.a jp
  let akl := s.sk.a kp + s.sl.a lp
  aij * akl / (aij + akl) * rr2 (s.g4 ip jp kp lp).rij (s.g4 ip jp kp lp).rkl + (s.eij4 ip jp + s.ekl4 kp lp)

/-- The loops of CINT4c1e_loop_nopt, src/cint4c1e.c:158-246.  They are those of CINT2e_loop_nopt with three differences: the
tests of src/cint4c1e.c:171, 199, 214; the exponential `expijkl` belongs to the whole quartet, here a factor inside `g0` (in C
it is multiplied onto `fac1i` before CINTg4c1e_ovlp); CINTg4c1e_ovlp returns nothing.  `common`: src/cint4c1e.c:154-156 with
`envs->common_factor` 1, src/g4c1e.c:53. -/
def Call2.quartet4 (A : Arrays4c1e) : Quartet α :=
  { iPrim := s.si.nprim, jPrim := s.sj.nprim, kPrim := s.sk.nprim, lPrim := s.sl.nprim
    iCtr := s.si.nctr, jCtr := s.sj.nctr, kCtr := s.sk.nctr, lCtr := s.sl.nctr
    ci := s.si.c, cj := s.sj.c, ck := s.sk.c, cl := s.sl.c
    common := K.sqrtpi * K.pi * commonFacSp s.si.l * commonFacSp s.sj.l * commonFacSp s.sk.l * commonFacSp s.sl.l
    skipKL := fun kp lp => decide (s.ekl4 kp lp > 60)
    skipIJ := fun ip jp kp lp => decide (s.eij4 ip jp + s.ekl4 kp lp > 60) || decide (s.eijkl4 ip jp kp lp > 60)
    eij := fun _ _ => 1
    ekl := fun _ _ => 1
    g0 := fun ip jp kp lp fac => do
      g4c1eOvlp K s.env4 (s.g4 ip jp kp lp) A.g A.b (fac * L.exp (-(s.eijkl4 ip jp kp lp)))
      pure true
    gout := fun _ _ _ _ _ gout em => gout1e s.env4.nf A.idx A.g gout em
    nf := s.env4.nf, nComp := 1, leng := s.leng4 }

/-- CINT4c1e_loop_nopt, src/cint4c1e.c:41-247.  `fl` is the local array `empty[5]`, except that its member `empty[3]`
(`*lempty`) is the separate cell `empty`; `loc` are the local arrays of CINTg2e_index_xyz, `c` the incoming `cache`. -/
def loop4c1eRun (fpd : Nat) (gctr empty : Ptr) (buf c : Nat) (fl loc : Ptr) : Prog α Bool := do
  let A := arrays4c1e s fpd buf c
  stI empty 1
  g2eIndex A.idx loc s.env4
  loop2eNopt (s.quartet4 K L A) (mem2e gctr empty A.g fl A.tbl) A.tbl false

/-- CINT4c1e_drv, src/cint4c1e.c:263-322, with `out` not NULL.  `trans` transforms a block using the remaining cache; `nfo` is
the number of output functions of the shells (`nfi`, or `2l+1`).  When the caller passes no cache the driver allocates one of
size `cacheSize4c1e`. -/
def drv4c1e (fpd : Nat) (trans : (buf c : Nat) → Ptr → Prog α Ptr) (nfo : Nat → Nat) (out : Ptr)
    (dims : Option Ptr) (buf c : Nat) (empty fl loc counts : Ptr) : Prog α Bool := do
  let nf := s.env4.nf
  let nc := nf * s.si.nctr * s.sj.nctr * s.sk.nctr * s.sl.nctr
  let m := mallocD fpd buf c nc
  let has ← loop4c1eRun s K L fpd m.1 empty buf m.2 fl loc
  let S : Shape := { ic := s.si.nctr, jc := s.sj.nctr, kc := s.sk.nctr, lc := s.sl.nctr
                     di := nfo 0, dj := nfo 1, dk := nfo 2, dl := nfo 3, nf := nf }
  outStage 4 has 1 nc (c2s2e1 S (trans buf m.2)) out m.1 dims counts
    (fun t => nfo t * four s.si.nctr s.sj.nctr s.sk.nctr s.sl.nctr t)
  pure has

end
end Verif.Model
