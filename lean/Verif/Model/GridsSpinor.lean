import Verif.Model.Grids
import Verif.Model.Spinor

/-! Spinor output of the integrals on a list of points, src/cart2sph.c, src/cint1e_grids.c. -/
namespace Verif.Model
open Verif Prog

variable {α : Type}

section
variable [Field α] [DecidableEq α]

/-- a_bra1_cart2spinor_si, src/cart2sph.c:4017-4067 -/
def bra1Si (tab : JTab) (gspR gspI gx gy gz g1 : Ptr) (ngrids nket : Nat) (kappa : Int) (l : Nat) : Prog α Unit :=
  let nf := lenCart l
  let nd := lenSpinorC2S kappa l
  let ndg := nd * ngrids
  tab.with kappa l fun c =>
  forN nket fun j => do
    forN ndg fun i => do
      st (gspR + (j*ndg+i)) 0
      st (gspI + (j*ndg+i)) 0
      st (gspR + nket*ndg + (j*ndg+i)) 0
      st (gspI + nket*ndg + (j*ndg+i)) 0
    forN nd fun i => forN nf fun n => do
      let caR ← ld (c.R + (i*nf*2+n))
      let caI ← ld (c.I + (i*nf*2+n))
      let cbR ← ld (c.R + (i*nf*2+nf+n))
      let cbI ← ld (c.I + (i*nf*2+nf+n))
      forN ngrids fun m => do
        let v1 ← ld (g1 + ((j*nf+n)*ngrids+m))
        let vx ← ld (gx + ((j*nf+n)*ngrids+m))
        let vy ← ld (gy + ((j*nf+n)*ngrids+m))
        let vz ← ld (gz + ((j*nf+n)*ngrids+m))
        addSt (gspR + ((j*nd+i)*ngrids+m)) (caR * v1 + caI * vz - cbR * vy + cbI * vx)
        addSt (gspI + ((j*nd+i)*ngrids+m)) (-caI * v1 + caR * vz + cbI * vy + cbR * vx)
        addSt (gspR + nket*ndg + ((j*nd+i)*ngrids+m)) (cbR * v1 - cbI * vz + caR * vy + caI * vx)
        addSt (gspI + nket*ndg + ((j*nd+i)*ngrids+m)) (-cbI * v1 - cbR * vz - caI * vy + caR * vx)

/-- a_bra1_cart2spinor_sf, src/cart2sph.c:4069-4115 (the arguments `gx`, `gy`, `gz` are not used) -/
def bra1Sf (tab : JTab) (gspR gspI g1 : Ptr) (ngrids nket : Nat) (kappa : Int) (l : Nat) : Prog α Unit :=
  let nf := lenCart l
  let nd := lenSpinorC2S kappa l
  let ndg := nd * ngrids
  tab.with kappa l fun c =>
  forN nket fun j => do
    forN ndg fun i => do
      st (gspR + (j*ndg+i)) 0
      st (gspI + (j*ndg+i)) 0
      st (gspR + nket*ndg + (j*ndg+i)) 0
      st (gspI + nket*ndg + (j*ndg+i)) 0
    forN nd fun i => forN nf fun n => do
      let caR ← ld (c.R + (i*nf*2+n))
      let caI ← ld (c.I + (i*nf*2+n))
      let cbR ← ld (c.R + (i*nf*2+nf+n))
      let cbI ← ld (c.I + (i*nf*2+nf+n))
      forN ngrids fun m => do
        let v1 ← ld (g1 + ((j*nf+n)*ngrids+m))
        addSt (gspR + ((j*nd+i)*ngrids+m)) (caR * v1)
        addSt (gspI + ((j*nd+i)*ngrids+m)) (-caI * v1)
        addSt (gspR + nket*ndg + ((j*nd+i)*ngrids+m)) (cbR * v1)
        addSt (gspI + nket*ndg + ((j*nd+i)*ngrids+m)) (-cbI * v1)

/-- the bra transformation for a block of points: `n` is the distance between the four components -/
def SpKind.braG (k : SpKind) (tab : JTab) (gspR gspI g : Ptr) (n ngrids nket : Nat) (kappa : Int) (l : Nat) : Prog α Unit :=
  if k.si then bra1Si tab gspR gspI g (g + n) (g + n + n) (g + n + n + n) ngrids nket kappa l
  else bra1Sf tab gspR gspI g ngrids nket kappa l

end

/-- zcopy_grids_ij, src/cart2sph.c:4531-4551 -/
def zcopyGridsIj (out gctrR gctrI : Ptr) (ngrids ni mgrids mi mj : Nat) : Prog α Unit :=
  forN mj fun j => forN mi fun i => forN mgrids fun m =>
    zcpy (out + j*(ngrids*ni*2)) (gctrR + j*(mgrids*mi)) (gctrI + j*(mgrids*mi)) (i*ngrids+m) (i*mgrids+m)

/-- the loops of c2s_sf_1e_grids, c2s_sf_1e_gridsi, c2s_si_1e_grids, c2s_si_1e_gridsi, src/cart2sph.c:5111-5312; `trans b`
transforms the numbers of a block of `b` points and says where the real and the imaginary parts are.  The functions c2s_si_*
advance four pointers; they keep their distances, and only the first is kept here. -/
def c2sZGrids (S : Shape) (ngrids : Nat) (trans : Nat → Ptr → Prog α (Ptr × Ptr)) (out gctr dims : Ptr) : Prog α Unit := do
  let ni ← ldI dims
  let _nj ← ldI (dims + 1)
  let Ng ← ldI (dims + 2)
  let ofj := ni.toNat * S.dj
  let _ ← forS (nblk ngrids) gctr fun t gctr =>
    let off := 104*t
    let b := bgrids ngrids off
    forS S.jc gctr fun jc gctr =>
    forS S.ic gctr fun ic gctr => do
      let tmp2 ← trans b gctr
      let pij := out + 2*(Ng.toNat * (ofj * jc + S.di * ic) + off)
      zcopyGridsIj pij tmp2.1 tmp2.2 Ng.toNat ni.toNat b S.di S.dj
      pure (gctr + b * S.nf)
  pure ()

/-- c2s_grids_zset0, src/cart2sph.c:4775-4780; `loc` holds the local arrays `counts1[4]`, `dims1[4]` -/
def c2sGridsZset0 [Zero α] (out dims counts loc : Ptr) : Prog α Unit := do
  let c2 ← ldI (counts + 2)
  let c0 ← ldI counts
  let c1 ← ldI (counts + 1)
  let c3 ← ldI (counts + 3)
  stI loc c2
  stI (loc + 1) c0
  stI (loc + 2) c1
  stI (loc + 3) c3
  let d2 ← ldI (dims + 2)
  let d0 ← ldI dims
  let d1 ← ldI (dims + 1)
  let d3 ← ldI (dims + 3)
  stI (loc + 4) d2
  stI (loc + 5) d0
  stI (loc + 6) d1
  stI (loc + 7) d3
  c2sZset0 out (loc + 4) loc

section
variable [Field α] [DecidableEq α]

/-- the transformation of one block in c2s_sf_1e_grids, c2s_sf_1e_gridsi, c2s_si_1e_grids, c2s_si_1e_gridsi,
src/cart2sph.c:5111-5312; `n` is `ngrids * nf * i_ctr * j_ctr` -/
def spTransGrids (k : SpKind) (tab : JTab) (fpd sh li lj : Nat) (ki kj : Int) (n : Nat) (buf c : Nat) (b : Nat) (gctr : Ptr) :
    Prog α (Ptr × Ptr) := do
  let di := lenSpinorC2S ki li
  let nfj := lenCart lj
  let nf2j := nfj + nfj
  let buflen := 104 * di * nf2j
  let m1 := mallocA fpd sh buf c buflen
  let m2 := mallocA fpd sh buf m1.2 buflen
  let m3 := mallocA fpd sh buf m2.2 buflen
  let m4 := mallocA fpd sh buf m3.2 buflen
  k.braG tab m1.1 m2.1 gctr n b nfj ki li
  k.ket tab m3.1 m4.1 m1.1 m2.1 (b*di) kj lj
  pure (m3.1, m4.1)

end

section
variable [Field α] [LinearOrder α] (X : IntG α) (s : CallG α) (R : Rys2 α) (K : Consts α) (L : MathLib α)

/-- CINT1e_grids_spinor_drv, src/cint1e_grids.c:278-327, with `out` not NULL.  `e1` is `ncomp_e1`, `nT` is `ncomp_tensor`
(`X.nComp` is their product); `ki`, `kj` are the numbers kappa of the shells, `loc2` holds the local arrays of
c2s_grids_zset0. -/
def drvGridsSp (e1 nT : Nat) (kd : SpKind) (tab : JTab) (ki kj : Int) (fpd sh : Nat) (out : Ptr)
    (dims : Option Ptr) (buf c : Nat) (fl loc counts loc2 : Ptr) : Prog α Bool := do
  let nf := (s.envG X).nf
  let nc := s.ngrids * nf * s.si.nctr * s.sj.nctr * e1
  let m := mallocA fpd sh buf c (nc * nT)
  let hasValue ← loopGrids X s R K L fpd sh m.1 buf m.2 fl loc
  let di := lenSpinorC2S ki s.si.l
  let dj := lenSpinorC2S kj s.sj.l
  stI counts (di * s.si.nctr : Nat)
  stI (counts + 1) (dj * s.sj.nctr : Nat)
  stI (counts + 2) (s.ngrids : Nat)
  stI (counts + 3) 1
  let dims := dims.getD counts
  let nout ← prodDims dims 3
  let S : Shape := { ic := s.si.nctr, jc := s.sj.nctr, di := di, dj := dj, nf := nf }
  if hasValue then
    forN nT fun n => c2sZGrids S s.ngrids (spTransGrids kd tab fpd sh s.si.l s.sj.l ki kj (s.ngrids * nf * s.si.nctr * s.sj.nctr)
      buf m.2) (out + 2*(nout*n)) (m.1 + nc*n) dims
  else
    forN nT fun n => c2sGridsZset0 (out + 2*(nout*n)) dims counts loc2
  pure hasValue

end
end Verif.Model
