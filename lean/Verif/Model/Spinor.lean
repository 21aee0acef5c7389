import Verif.Model.CjTable
import Verif.Model.Sph
import Verif.Model.Int2e
import Verif.Model.Int3c2e
import Verif.Model.Int2c2e

/-!
Cartesian to spinor transformation and the drivers of the `_spinor` functions, src/cart2sph.c,
src/cint1e.c, src/cint2e.c, src/cint3c2e.c.

A `double complex` is two consecutive doubles: element `k` of a complex array at `p` is the doubles
`p + 2*k` (real part) and `p + (2*k+1)` (imaginary part).
-/
namespace Verif.Model
open Verif Prog

variable {α : Type}

/-- the addresses of g_trans_cart2jR and g_trans_cart2jI -/
structure JTab where
  R : Ptr
  I : Ptr

/-- `coeffR` and `coeffI` as every kernel chooses them, src/cart2sph.c:3931-3937; `none` is NULL -/
def JTab.at (tab : JTab) (kappa : Int) (l : Nat) : Option JTab :=
  ((if kappa < 0 then cjGt else cjLt).getD l none).map fun o => ⟨tab.R + o, tab.I + o⟩

/-- run a kernel with its coefficients; all the kernels read them, so that NULL is undefined behaviour -/
def JTab.with (tab : JTab) (kappa : Int) (l : Nat) (f : JTab → Prog α Unit) : Prog α Unit :=
  match tab.at kappa l with
  | none => Prog.fail
  | some c => f c

section
variable [Field α] [DecidableEq α]

/-- `*p += e` -/
def addSt (p : Ptr) (e : α) : Prog α Unit := do
  let x ← ld p
  st p (x + e)

/-- local sums of the bra kernels -/
structure Sums (α : Type) where
  aR : α
  aI : α
  bR : α
  bI : α

/-- a_bra_cart2spinor_si, src/cart2sph.c:3920-3968 -/
def braSi (tab : JTab) (gspR gspI gx gy gz g1 : Ptr) (nket : Nat) (kappa : Int) (l : Nat) : Prog α Unit :=
  let nf := lenCart l
  let nd := lenSpinorC2S kappa l
  tab.with kappa l fun c =>
  forN nket fun j => forN nd fun i => do
    let s ← forS nf (⟨0, 0, 0, 0⟩ : Sums α) fun n s => do
      let v1 ← ld (g1 + (j*nf+n))
      let vx ← ld (gx + (j*nf+n))
      let vy ← ld (gy + (j*nf+n))
      let vz ← ld (gz + (j*nf+n))
      let caR ← ld (c.R + (i*nf*2+n))
      let caI ← ld (c.I + (i*nf*2+n))
      let cbR ← ld (c.R + (i*nf*2+nf+n))
      let cbI ← ld (c.I + (i*nf*2+nf+n))
      pure ⟨s.aR + (caR * v1 + caI * vz - cbR * vy + cbI * vx),
            s.aI + (-caI * v1 + caR * vz + cbI * vy + cbR * vx),
            s.bR + (cbR * v1 - cbI * vz + caR * vy + caI * vx),
            s.bI + (-cbI * v1 - cbR * vz - caI * vy + caR * vx)⟩
    st (gspR + (j*nd+i)) s.aR
    st (gspI + (j*nd+i)) s.aI
    st (gspR + nket*nd + (j*nd+i)) s.bR
    st (gspI + nket*nd + (j*nd+i)) s.bI

/-- a_bra_cart2spinor_sf, src/cart2sph.c:3970-4015 (the arguments `gx`, `gy`, `gz` are not used) -/
def braSf (tab : JTab) (gspR gspI g1 : Ptr) (nket : Nat) (kappa : Int) (l : Nat) : Prog α Unit :=
  let nf := lenCart l
  let nd := lenSpinorC2S kappa l
  tab.with kappa l fun c =>
  forN nket fun j => forN nd fun i => do
    let s ← forS nf (⟨0, 0, 0, 0⟩ : Sums α) fun n s => do
      let v1 ← ld (g1 + (j*nf+n))
      let caR ← ld (c.R + (i*nf*2+n))
      let caI ← ld (c.I + (i*nf*2+n))
      let cbR ← ld (c.R + (i*nf*2+nf+n))
      let cbI ← ld (c.I + (i*nf*2+nf+n))
      pure ⟨s.aR + caR * v1, s.aI + -caI * v1, s.bR + cbR * v1, s.bI + -cbI * v1⟩
    st (gspR + (j*nd+i)) s.aR
    st (gspI + (j*nd+i)) s.aI
    st (gspR + nket*nd + (j*nd+i)) s.bR
    st (gspI + nket*nd + (j*nd+i)) s.bI

/-- a_bra1_cart2spinor_zi, src/cart2sph.c:4118-4186 -/
def bra1Zi (tab : JTab) (gspR gspI gx gy gz g1 : Ptr) (ngrids nket : Nat) (kappa : Int) (l : Nat) : Prog α Unit :=
  let nf := lenCart l
  let nd := lenSpinorC2S kappa l
  let ndg := nd * ngrids
  let o := nket * nf * ngrids
  tab.with kappa l fun c =>
  forN nket fun j => do
    forN ndg fun i => do
      st (gspR + (j*ndg+i)) 0
      st (gspI + (j*ndg+i)) 0
      st (gspR + nket*ndg + (j*ndg+i)) 0
      st (gspI + nket*ndg + (j*ndg+i)) 0
    forN nd fun i => forN nf fun n => do
      let caR ← ld (c.R + (i*nf*2+n))
      let caI ← ld (c.I + (i*nf*2+n))
      let cbR ← ld (c.R + (i*nf*2+nf+n))
      let cbI ← ld (c.I + (i*nf*2+nf+n))
      forN ngrids fun m => do
        let x1R ← ld (g1 + ((j*nf+n)*ngrids+m))
        let x1I ← ld (g1 + o + ((j*nf+n)*ngrids+m))
        let xxR ← ld (gx + ((j*nf+n)*ngrids+m))
        let xxI ← ld (gx + o + ((j*nf+n)*ngrids+m))
        let xyR ← ld (gy + ((j*nf+n)*ngrids+m))
        let xyI ← ld (gy + o + ((j*nf+n)*ngrids+m))
        let xzR ← ld (gz + ((j*nf+n)*ngrids+m))
        let xzI ← ld (gz + o + ((j*nf+n)*ngrids+m))
        let v11R := x1R - xzI
        let v11I := x1I + xzR
        let v12R := xyR - xxI
        let v12I := xyI + xxR
        let v21R := -xyR - xxI
        let v21I := -xyI + xxR
        let v22R := x1R + xzI
        let v22I := x1I - xzR
        addSt (gspR + ((j*nd+i)*ngrids+m)) (caR * v11R + caI * v11I + cbR * v21R + cbI * v21I)
        addSt (gspI + ((j*nd+i)*ngrids+m)) (caR * v11I - caI * v11R + cbR * v21I - cbI * v21R)
        addSt (gspR + nket*ndg + ((j*nd+i)*ngrids+m)) (caR * v12R + caI * v12I + cbR * v22R + cbI * v22I)
        addSt (gspI + nket*ndg + ((j*nd+i)*ngrids+m)) (caR * v12I - caI * v12R + cbR * v22I - cbI * v22R)

/-- a_bra1_cart2spinor_zf, src/cart2sph.c:4188-4238 (the arguments `gx`, `gy`, `gz` are not used) -/
def bra1Zf (tab : JTab) (gspR gspI g1 : Ptr) (ngrids nket : Nat) (kappa : Int) (l : Nat) : Prog α Unit :=
  let nf := lenCart l
  let nd := lenSpinorC2S kappa l
  let ndg := nd * ngrids
  let o := nket * nf * ngrids
  tab.with kappa l fun c =>
  forN nket fun j => do
    forN ndg fun i => do
      st (gspR + (j*ndg+i)) 0
      st (gspI + (j*ndg+i)) 0
      st (gspR + nket*ndg + (j*ndg+i)) 0
      st (gspI + nket*ndg + (j*ndg+i)) 0
    forN nd fun i => forN nf fun n => do
      let caR ← ld (c.R + (i*nf*2+n))
      let caI ← ld (c.I + (i*nf*2+n))
      let cbR ← ld (c.R + (i*nf*2+nf+n))
      let cbI ← ld (c.I + (i*nf*2+nf+n))
      forN ngrids fun m => do
        let v1R ← ld (g1 + ((j*nf+n)*ngrids+m))
        let v1I ← ld (g1 + o + ((j*nf+n)*ngrids+m))
        addSt (gspR + ((j*nd+i)*ngrids+m)) (caR * v1R + caI * v1I)
        addSt (gspI + ((j*nd+i)*ngrids+m)) (caR * v1I - caI * v1R)
        addSt (gspR + nket*ndg + ((j*nd+i)*ngrids+m)) (cbR * v1R + cbI * v1I)
        addSt (gspI + nket*ndg + ((j*nd+i)*ngrids+m)) (cbR * v1I - cbI * v1R)

/-- a_ket_cart2spinor, src/cart2sph.c:4343-4402 -/
def ketSp (tab : JTab) (gspR gspI gcartR gcartI : Ptr) (nbra : Nat) (kappa : Int) (l : Nat) : Prog α Unit :=
  let nf2 := lenCart l * 2
  let nd := lenSpinorC2S kappa l
  tab.with kappa l fun c =>
  forN nd fun i => do
    forN nbra fun j => do
      st (gspR + (j+i*nbra)) 0
      st (gspI + (j+i*nbra)) 0
    forN nf2 fun n => do
      let cR ← ld (c.R + (i*nf2+n))
      let cI ← ld (c.I + (i*nf2+n))
      if cR ≠ 0 then
        if cI ≠ 0 then
          forN nbra fun j => do
            let gR ← ld (gcartR + (j+n*nbra))
            let gI ← ld (gcartI + (j+n*nbra))
            addSt (gspR + (j+i*nbra)) (cR * gR - cI * gI)
            addSt (gspI + (j+i*nbra)) (cI * gR + cR * gI)
        else
          forN nbra fun j => do
            let gR ← ld (gcartR + (j+n*nbra))
            let gI ← ld (gcartI + (j+n*nbra))
            addSt (gspR + (j+i*nbra)) (cR * gR)
            addSt (gspI + (j+i*nbra)) (cR * gI)
      else
        if cI ≠ 0 then
          forN nbra fun j => do
            let gR ← ld (gcartR + (j+n*nbra))
            let gI ← ld (gcartI + (j+n*nbra))
            addSt (gspR + (j+i*nbra)) (-cI * gI)
            addSt (gspI + (j+i*nbra)) (cI * gR)
        else pure ()

/-- `for (i = 0; i < size; i++) p[i] = -p[i]` -/
def negate (p : Ptr) (size : Nat) : Prog α Unit :=
  forN size fun i => do
    let x ← ld (p + i)
    st (p + i) (-x)

/-- a_iket_cart2spinor, src/cart2sph.c:4405-4415 -/
def iketSp (tab : JTab) (gspR gspI gcartR gcartI : Ptr) (nbra : Nat) (kappa : Int) (l : Nat) : Prog α Unit := do
  ketSp tab gspI gspR gcartR gcartI nbra kappa l
  negate gspR (lenSpinorC2S kappa l * nbra)

/-- a_ket1_cart2spinor, src/cart2sph.c:4417-4466 -/
def ket1Sp (tab : JTab) (gspR gspI gcartR gcartI : Ptr) (nbra counts : Nat) (kappa : Int) (l : Nat) : Prog α Unit :=
  let nf := lenCart l
  let nf2 := nf * 2
  let nd := lenSpinorC2S kappa l
  let nds := nd * nbra
  let nfs := nf * nbra
  let o := nfs * counts
  tab.with kappa l fun c =>
  forN nd fun i => do
    forN counts fun k => forN nbra fun j => do
      st (gspR + (k*nds+j+i*nbra)) 0
      st (gspI + (k*nds+j+i*nbra)) 0
    forN nf fun n => do
      let caR ← ld (c.R + (i*nf2+n))
      let caI ← ld (c.I + (i*nf2+n))
      let cbR ← ld (c.R + (i*nf2+nf+n))
      let cbI ← ld (c.I + (i*nf2+nf+n))
      forN counts fun k => forN nbra fun j => do
        let gaR ← ld (gcartR + (k*nfs+j+n*nbra))
        let gaI ← ld (gcartI + (k*nfs+j+n*nbra))
        let gbR ← ld (gcartR + o + (k*nfs+j+n*nbra))
        let gbI ← ld (gcartI + o + (k*nfs+j+n*nbra))
        addSt (gspR + (k*nds+j+i*nbra)) (caR * gaR - caI * gaI + cbR * gbR - cbI * gbI)
        addSt (gspI + (k*nds+j+i*nbra)) (caR * gaI + caI * gaR + cbR * gbI + cbI * gbR)

/-- a_iket1_cart2spinor, src/cart2sph.c:4469-4480 -/
def iket1Sp (tab : JTab) (gspR gspI gcartR gcartI : Ptr) (nbra counts : Nat) (kappa : Int) (l : Nat) : Prog α Unit := do
  ket1Sp tab gspI gspR gcartR gcartI nbra counts kappa l
  negate gspR (lenSpinorC2S kappa l * nbra * counts)

end

/-- the two stores of one complex element -/
def zcpy (dout gctrR gctrI : Ptr) (d s : Nat) : Prog α Unit := do
  cpy (dout + d*2) (gctrR + s)
  cpy (dout + (d*2+1)) (gctrI + s)

/-- zcopy_ij, src/cart2sph.c:4499-4510 -/
def zcopyIj (out gctrR gctrI : Ptr) (ni mi mj : Nat) : Prog α Unit :=
  forN mj fun j => forN mi fun i => zcpy out gctrR gctrI (j*ni+i) (j*mi+i)

/-- zcopy_iklj, src/cart2sph.c:4676-4705 -/
def zcopyIklj (fijkl gctrR gctrI : Ptr) (ni nj nk mi mj mk ml : Nat) : Prog α Unit := do
  let nij := ni * nj
  let nijk := nij * nk
  let mik := mi * mk
  let mikl := mik * ml
  let _ ← forS ml (fijkl, gctrR, gctrI) fun _ (s : Ptr × Ptr × Ptr) => do
    forN mk fun k => do
      let pijkl := s.1 + 2*(k*nij)
      let pgctrR := s.2.1 + k*mi
      let pgctrI := s.2.2 + k*mi
      forN mj fun j => forN mi fun i => zcpy pijkl pgctrR pgctrI (j*ni+i) (j*mikl+i)
    pure (s.1 + 2*nijk, s.2.1 + mik, s.2.2 + mik)
  pure ()

/-- `out[k] = 0` for a complex array -/
def zst0 [Zero α] (out : Ptr) (k : Nat) : Prog α Unit := do
  st (out + 2*k) 0
  st (out + (2*k+1)) 0

/-- c2s_zset0, src/cart2sph.c:4737-4766 -/
def c2sZset0 [Zero α] (out dims counts : Ptr) : Prog α Unit := do
  let ni ← ldI dims
  let nj ← ldI (dims + 1)
  let nk ← ldI (dims + 2)
  let nij := ni.toNat * nj.toNat
  let nijk := nij * nk.toNat
  if dims = counts then do
    let c3 ← ldI (counts + 3)
    forN (nijk * c3.toNat) fun i => zst0 out i
  else do
    let di ← ldI counts
    let dj ← ldI (counts + 1)
    let dk ← ldI (counts + 2)
    let dl ← ldI (counts + 3)
    let _ ← forS dl.toNat out fun _ out => do
      forN dk.toNat fun k =>
        let pout := out + 2*(k * nij)
        forN dj.toNat fun j => forN di.toNat fun i => zst0 pout (j*ni.toNat+i)
      pure (out + 2*nijk)
    pure ()

/-- the loops of c2s_sf_1e, c2s_sf_1ei, c2s_si_1e, c2s_si_1ei, src/cart2sph.c:4869-5038; `trans` transforms a block and
returns the arrays of the real and of the imaginary parts.  The functions c2s_si_* advance four pointers; they keep
their distances, and only the first is kept here. -/
def c2sZ1e (S : Shape) (trans : Ptr → Prog α (Ptr × Ptr)) (opij gctr dims : Ptr) : Prog α Unit := do
  let ni ← ldI dims
  let _nj ← ldI (dims + 1)
  let ofj := ni.toNat * S.dj
  let _ ← forS S.jc gctr fun jc gctr =>
    forS S.ic gctr fun ic gctr => do
      let t ← trans gctr
      zcopyIj (opij + 2*(ofj * jc + S.di * ic)) t.1 t.2 ni.toNat S.di S.dj
      pure (gctr + S.nf)
  pure ()

/-- the loops of c2s_sf_3c2e1, c2s_sf_3c2e1i, c2s_si_3c2e1, c2s_si_3c2e1i, src/cart2sph.c:5997-6248 -/
def c2sZ3c (S : Shape) (trans : Ptr → Prog α (Ptr × Ptr)) (opijk gctr dims : Ptr) : Prog α Unit := do
  let ni ← ldI dims
  let nj ← ldI (dims + 1)
  let nk ← ldI (dims + 2)
  let ofj := ni.toNat * S.dj
  let ofk := ni.toNat * nj.toNat * S.dk
  let _ ← forS S.kc gctr fun kc gctr =>
    forS S.jc gctr fun jc gctr =>
    forS S.ic gctr fun ic gctr => do
      let t ← trans gctr
      zcopyIklj (opijk + 2*(ofk * kc + ofj * jc + S.di * ic)) t.1 t.2 ni.toNat nj.toNat nk.toNat S.di S.dj S.dk 1
      pure (gctr + S.nf)
  pure ()

/-- the loops of c2s_sf_2e2, c2s_sf_2e2i, c2s_si_2e2, c2s_si_2e2i, src/cart2sph.c:5469-5590, 5687-5815;
`S.nf` is `nop * OF_CMPLX` -/
def c2sZ2e2 (S : Shape) (trans : Ptr → Prog α (Ptr × Ptr)) (fijkl opij dims : Ptr) : Prog α Unit := do
  let ni ← ldI dims
  let nj ← ldI (dims + 1)
  let nk ← ldI (dims + 2)
  let _nl ← ldI (dims + 3)
  let ofj := ni.toNat * S.dj
  let ofk := ni.toNat * nj.toNat * S.dk
  let ofl := ni.toNat * nj.toNat * nk.toNat * S.dl
  let _ ← forS S.lc opij fun lc opij =>
    forS S.kc opij fun kc opij =>
    forS S.jc opij fun jc opij =>
    forS S.ic opij fun ic opij => do
      let t ← trans opij
      let pfijkl := fijkl + 2*(ofl * lc + ofk * kc + ofj * jc + S.di * ic)
      zcopyIklj pfijkl t.1 t.2 ni.toNat nj.toNat nk.toNat S.di S.dj S.dk S.dl
      pure (opij + S.nf)
  pure ()

section
variable [Field α] [DecidableEq α]

/-- which of the transformations: `si` for those with the Pauli matrices (c2s_si_*), `ph` for those with a
factor i (c2s_*i) -/
structure SpKind where
  si : Bool
  ph : Bool

/-- the bra transformation of electron 1: `n` is the distance between the four components -/
def SpKind.bra (k : SpKind) (tab : JTab) (gspR gspI g : Ptr) (n nket : Nat) (kappa : Int) (l : Nat) : Prog α Unit :=
  if k.si then braSi tab gspR gspI g (g + n) (g + n + n) (g + n + n + n) nket kappa l
  else braSf tab gspR gspI g nket kappa l

/-- the bra transformation of electron 2 -/
def SpKind.bra1 (k : SpKind) (tab : JTab) (gspR gspI g : Ptr) (n ngrids nket : Nat) (kappa : Int) (l : Nat) :
    Prog α Unit :=
  if k.si then bra1Zi tab gspR gspI g (g + n) (g + n + n) (g + n + n + n) ngrids nket kappa l
  else bra1Zf tab gspR gspI g ngrids nket kappa l

def SpKind.ket (k : SpKind) (tab : JTab) (gspR gspI gcartR gcartI : Ptr) (nbra : Nat) (kappa : Int) (l : Nat) :
    Prog α Unit :=
  if k.ph then iketSp tab gspR gspI gcartR gcartI nbra kappa l else ketSp tab gspR gspI gcartR gcartI nbra kappa l

def SpKind.ket1 (k : SpKind) (tab : JTab) (gspR gspI gcartR gcartI : Ptr) (nbra counts : Nat) (kappa : Int) (l : Nat) :
    Prog α Unit :=
  if k.ph then iket1Sp tab gspR gspI gcartR gcartI nbra counts kappa l
  else ket1Sp tab gspR gspI gcartR gcartI nbra counts kappa l

/-- the transformation of one block in c2s_sf_1e, c2s_sf_1ei, c2s_si_1e, c2s_si_1ei, src/cart2sph.c:4869-5038; `n` is
`nf * i_ctr * j_ctr` -/
def spTrans1e (k : SpKind) (tab : JTab) (fpd li lj : Nat) (ki kj : Int) (n : Nat) (buf c : Nat) (gctr : Ptr) :
    Prog α (Ptr × Ptr) := do
  let di := lenSpinorC2S ki li
  let dj := lenSpinorC2S kj lj
  let nfj := lenCart lj
  let nf2j := nfj + nfj
  let m1 := mallocD fpd buf c (di*nf2j)
  let m2 := mallocD fpd buf m1.2 (di*nf2j)
  let m3 := mallocD fpd buf m2.2 (di*dj)
  let m4 := mallocD fpd buf m3.2 (di*dj)
  k.bra tab m1.1 m2.1 gctr n nfj ki li
  k.ket tab m3.1 m4.1 m1.1 m2.1 di kj lj
  pure (m3.1, m4.1)

/-- the transformation of one block in c2s_sf_3c2e1, c2s_sf_3c2e1i, src/cart2sph.c:5997-6104, and c2s_si_3c2e1,
c2s_si_3c2e1i, l.6108-6248; `n` is `nf * i_ctr * j_ctr * k_ctr` -/
def spTrans3c (k : SpKind) (sph : Ptr) (tab : JTab) (fpd li lj lk : Nat) (ki kj : Int) (n : Nat) (buf c : Nat)
    (gctr : Ptr) : Prog α (Ptr × Ptr) := do
  let di := lenSpinorC2S ki li
  let dj := lenSpinorC2S kj lj
  let dk := lk*2+1
  let nfi := lenCart li
  let nfj := lenCart lj
  let nfk := lenCart lk
  let nf2j := nfj + nfj
  let nfik := nfi*nfk
  let buflen := nfi*dk*nfj
  let m0 := mallocD fpd buf c (if k.si then buflen*4 else buflen)
  let m1 := mallocD fpd buf m0.2 (di*dk*nf2j)
  let m2 := mallocD fpd buf m1.2 (di*dk*nf2j)
  let m3 := mallocD fpd buf m2.2 (di*dk*dj)
  let m4 := mallocD fpd buf m3.2 (di*dk*dj)
  if k.si then do
    let pgx ← sph2eInner sph m0.1 gctr lk nfi nfj (nfi*dk) nfik
    let pgy ← sph2eInner sph (m0.1 + buflen) (gctr + n) lk nfi nfj (nfi*dk) nfik
    let pgz ← sph2eInner sph (m0.1 + buflen + buflen) (gctr + n + n) lk nfi nfj (nfi*dk) nfik
    let pg1 ← sph2eInner sph (m0.1 + buflen + buflen + buflen) (gctr + n + n + n) lk nfi nfj (nfi*dk) nfik
    braSi tab m1.1 m2.1 pgx pgy pgz pg1 (dk*nfj) ki li
  else do
    let pbuf ← sph2eInner sph m0.1 gctr lk nfi nfj (nfi*dk) nfik
    braSf tab m1.1 m2.1 pbuf (dk*nfj) ki li
  k.ket tab m3.1 m4.1 m1.1 m2.1 (di*dk) kj lj
  pure (m3.1, m4.1)

/-- c2s_sf_2e1, c2s_sf_2e1i, c2s_si_2e1, c2s_si_2e1i, src/cart2sph.c:5385-5463, 5592-5685; `nblk` is
`i_ctr * j_ctr * k_ctr * l_ctr` -/
def c2sZ2e1 (k : SpKind) (tab : JTab) (fpd li lj lk ll : Nat) (ki kj : Int) (nblk : Nat) (buf c : Nat)
    (opij gctr : Ptr) : Prog α Unit := do
  let di := lenSpinorC2S ki li
  let dj := lenSpinorC2S kj lj
  let nfi := lenCart li
  let nfj := lenCart lj
  let nfk := lenCart lk
  let nfl := lenCart ll
  let nf := nfi * nfk * nfl * nfj
  let no := di * nfk * nfl * dj
  let m1 := mallocD fpd buf c (di * nfk * nfl * (nfj + nfj))
  let m2 := mallocD fpd buf m1.2 (di * nfk * nfl * (nfj + nfj))
  let _ ← forS nblk (gctr, opij) fun _ (s : Ptr × Ptr) => do
    k.bra tab m1.1 m2.1 s.1 (nf*nblk) (nfk * nfl * nfj) ki li
    k.ket tab s.2 (s.2 + no) m1.1 m2.1 (di * nfk * nfl) kj lj
    pure (s.1 + nf, s.2 + no*2)
  pure ()

/-- the transformation of one block in c2s_sf_2e2, c2s_sf_2e2i, c2s_si_2e2, c2s_si_2e2i, src/cart2sph.c:5469-5590,
5687-5815.  The order of the scratch arrays and the length of `tmp2R`, `tmp2I` differ between these; `len2` is
`buflen` in c2s_si_2e2, c2s_si_2e2i, and there is c2s_si_2e2i in which `tmp2R`, `tmp2I` come first. -/
def spTrans2e2 (k : SpKind) (tab : JTab) (fpd ll lk : Nat) (kk kl : Int) (di dj : Nat) (nblk : Nat) (buf c : Nat)
    (opij : Ptr) : Prog α (Ptr × Ptr) := do
  let dk := lenSpinorC2S kk lk
  let dl := lenSpinorC2S kl ll
  let nfk := lenCart lk
  let nfl := lenCart ll
  let nop := di * nfk * nfl * dj
  let len1 := di * dk * (nfl + nfl) * dj
  let len2 := if k.si then len1 else di * dk * dl * dj
  let m1 := mallocD fpd buf c len1
  let m2 := mallocD fpd buf m1.2 len1
  let m3 := mallocD fpd buf m2.2 len2
  let m4 := mallocD fpd buf m3.2 len2
  let (t1R, t1I, t2R, t2I) := if k.si && k.ph then (m3.1, m4.1, m1.1, m2.1) else (m1.1, m2.1, m3.1, m4.1)
  k.bra1 tab t1R t1I opij (nop*2*nblk) di (nfl*dj) kk lk
  k.ket1 tab t2R t2I t1R t1I (di*dk) dj kl ll
  pure (t2R, t2I)

/-- The part of the drivers after the primitive loops: CINT1e_spinor_drv, src/cint1e.c:258-276 (`r = 2`),
CINT3c2e_spinor_drv, src/cint3c2e.c:667-683 (`r = 3`), CINT2e_spinor_drv, src/cint2e.c:925-948 (`r = 4`); `f n out dims`
transforms the components of tensor element `n`.  The products are exact here. -/
def zOutStage (r : Nat) (hasValue : Bool) (nTens : Nat) (f : Nat → Ptr → Ptr → Prog α Unit)
    (out : Ptr) (dims : Option Ptr) (counts : Ptr) (cnt : Nat → Nat) : Prog α Unit := do
  forN 4 fun t => stI (counts + t) (cnt t)
  let dims := dims.getD counts
  let nout ← prodDims dims r
  if hasValue then
    forN nTens fun n => f n (out + 2*(nout*n)) dims
  else
    forN nTens fun n => c2sZset0 (out + 2*(nout*n)) dims counts

end

section
variable [Field α] [LinearOrder α] (K : Consts α) (L : MathLib α)

/-- CINT1e_spinor_drv, src/cint1e.c:239-282, with `out` not NULL.  `e1` is `ncomp_e1`, `nT` is `ncomp_tensor`
(`X.nComp` is their product); `ki`, `kj` are the numbers kappa of the shells. -/
def drv1eSp (X : Int1e α) (s : Call α) (e1 nT : Nat) (kd : SpKind) (tab : JTab) (ki kj : Int) (fpd : Nat) (out : Ptr)
    (dims : Option Ptr) (buf c : Nat) (fl loc counts : Ptr) : Prog α Bool := do
  let nf := (s.env X).nf
  let nc := nf * s.si.nctr * s.sj.nctr * e1
  let m := mallocD fpd buf c (nc * nT)
  let hasValue ← loop1eRun X s K L fpd m.1 buf m.2 fl loc
  let di := lenSpinorC2S ki s.si.l
  let dj := lenSpinorC2S kj s.sj.l
  let S : Shape := { ic := s.si.nctr, jc := s.sj.nctr, di := di, dj := dj, nf := nf }
  zOutStage 2 hasValue nT (fun n out dims => c2sZ1e S
      (spTrans1e kd tab fpd s.si.l s.sj.l ki kj (nf * s.si.nctr * s.sj.nctr) buf m.2) out (m.1 + nc*n) dims)
    out dims counts
    (fun t => if t = 0 then di * s.si.nctr else if t = 1 then dj * s.sj.nctr else 1)
  pure hasValue

/-- CINT2c2e_spinor_drv, src/cint2c2e.c:294-347, with `out` not NULL; `loop gctr cache` is the loop function.  The cache
size is that of CINT2c2e_drv.  The function ends the program if the operator has components in spin space: here `nT` is
`ncomp_tensor`, the number of all components. -/
def drv2c2eSp (X : Int2e α) (s : Call2c α) (loop : Ptr → Nat → Prog α Bool) (kd : SpKind) (tab : JTab)
    (ki kk : Int) (fpd : Nat) (out : Ptr) (dims : Option Ptr) (buf c : Nat) (empty counts : Ptr) : Prog α Bool := do
  let nf := (s.env X).nf
  let nc := nf * s.si.nctr * s.sk.nctr
  let m := mallocD fpd buf c (nc * X.nComp)
  stI empty 1
  let _ ← loop m.1 m.2
  let e ← ldI empty
  let di := lenSpinorC2S ki s.si.l
  let dk := lenSpinorC2S kk s.sk.l
  let S : Shape := { ic := s.si.nctr, jc := s.sk.nctr, di := di, dj := dk, nf := nf }
  zOutStage 2 (decide (e = 0)) X.nComp (fun n out dims => c2sZ1e S
      (spTrans1e kd tab fpd s.si.l s.sk.l ki kk nc buf m.2) out (m.1 + nc*n) dims)
    out dims counts
    (fun t => four di dk 1 1 t * four s.si.nctr s.sk.nctr 1 1 t)
  pure (decide (e = 0))

/-- `cache_size` of CINT3c2e_spinor_drv, src/cint3c2e.c:641-648 -/
def cacheSize3c2eSp (X : Int2e α) (s : Call3 α) : Nat :=
  let nf := (s.env X).nf
  let nc := nf * s.si.nctr * s.sj.nctr * s.sk.nctr
  let pdata_size := s.si.nprim * s.sj.nprim * 5 + s.si.nprim * s.si.nctr + s.sj.nprim * s.sj.nctr
    + s.sk.nprim * s.sk.nctr + (s.si.nprim + s.sj.nprim) * 2 + s.sk.nprim + nf * 3 + 16
  max (s.leng X + nf * X.nComp + nc * X.nComp * 3 + pdata_size) (nc * X.nComp + nf * 14 * 2)

/-- CINT3c2e_spinor_drv, src/cint3c2e.c:626-687, with `out` not NULL and `is_ssc` 0; `loop gctr cache` is the loop function,
`e1` is `ncomp_e1`, `nT` is `ncomp_e2 * ncomp_tensor`. -/
def drv3c2eSp (X : Int2e α) (s : Call3 α) (loop : Ptr → Nat → Prog α Bool) (e1 nT : Nat) (kd : SpKind) (sph : Ptr) (tab : JTab)
    (ki kj : Int) (fpd : Nat) (out : Ptr) (dims : Option Ptr) (buf c : Nat) (empty counts : Ptr) : Prog α Bool := do
  let nf := (s.env X).nf
  let nc := nf * s.si.nctr * s.sj.nctr * s.sk.nctr
  let m := mallocD fpd buf c (nc * X.nComp)
  stI empty 1
  let _ ← loop m.1 m.2
  let e ← ldI empty
  let di := lenSpinorC2S ki s.si.l
  let dj := lenSpinorC2S kj s.sj.l
  let dk := s.sk.l*2+1
  let S : Shape := { ic := s.si.nctr, jc := s.sj.nctr, kc := s.sk.nctr, di := di, dj := dj, dk := dk, nf := nf }
  zOutStage 3 (decide (e = 0)) nT (fun n out dims => c2sZ3c S
      (spTrans3c kd sph tab fpd s.si.l s.sj.l s.sk.l ki kj nc buf m.2) out (m.1 + nc*e1*n) dims)
    out dims counts
    (fun t => four di dj dk 1 t * four s.si.nctr s.sj.nctr s.sk.nctr 1 t)
  pure (decide (e = 0))

/-- `n1` of CINT2e_spinor_drv, src/cint2e.c:884-885 -/
def Call2.n1 (s : Call2 α) (ki kj : Int) : Nat :=
  lenSpinorC2S ki s.si.l * s.si.nctr * lenCart s.sk.l * s.sk.nctr * lenCart s.sl.l * s.sl.nctr *
    (lenSpinorC2S kj s.sj.l * s.sj.nctr)

/-- `cache_size` of CINT2e_spinor_drv, src/cint2e.c:886-892 -/
def cacheSize2eSp (X : Int2e α) (s : Call2 α) (e2 : Nat) (ki kj : Int) : Nat :=
  let nf := (s.env X).nf
  let nc := nf * s.si.nctr * s.sj.nctr * s.sk.nctr * s.sl.nctr
  let pdata_size := (s.si.nprim * s.sj.nprim + s.sk.nprim * s.sl.nprim) * 5 + s.si.nprim * s.si.nctr
    + s.sj.nprim * s.sj.nctr + s.sk.nprim * s.sk.nctr + s.sl.nprim * s.sl.nctr
    + (s.si.nprim + s.sj.nprim + s.sk.nprim + s.sl.nprim) * 2 + nf * 3
  max (s.leng X + nf * X.nComp + nc * X.nComp * 3 + pdata_size)
    (nc * X.nComp + s.n1 ki kj * e2 * 2 + nf * 32 * 2)

/-- CINT2e_spinor_drv, src/cint2e.c:871-953, with `out` not NULL; `loop gctr cache` is the loop function, `e1`, `e2`, `nT` are
`ncomp_e1`, `ncomp_e2`, `ncomp_tensor`; `k1`, `k2` are the transformations for the two electrons. -/
def drv2eSp (X : Int2e α) (s : Call2 α) (loop : Ptr → Nat → Prog α Bool) (e1 e2 nT : Nat) (k1 k2 : SpKind) (tab : JTab)
    (kap : Nat → Int) (fpd : Nat) (out : Ptr) (dims : Option Ptr) (buf c : Nat) (empty counts : Ptr) : Prog α Bool := do
  let nf := (s.env X).nf
  let nblk := s.si.nctr * s.sj.nctr * s.sk.nctr * s.sl.nctr
  let nc := nf * s.si.nctr * s.sj.nctr * s.sk.nctr * s.sl.nctr
  let m := mallocD fpd buf c (nc * X.nComp)
  stI empty 1
  let _ ← loop m.1 m.2
  let e ← ldI empty
  let di := lenSpinorC2S (kap 0) s.si.l
  let dj := lenSpinorC2S (kap 1) s.sj.l
  let dk := lenSpinorC2S (kap 2) s.sk.l
  let dl := lenSpinorC2S (kap 3) s.sl.l
  let n1 := s.n1 (kap 0) (kap 1)
  let S : Shape := { ic := s.si.nctr, jc := s.sj.nctr, kc := s.sk.nctr, lc := s.sl.nctr
                     di := di, dj := dj, dk := dk, dl := dl, nf := di * lenCart s.sk.l * lenCart s.sl.l * dj * 2 }
  let mo := mallocD fpd buf m.2 (n1 * e2 * 2)
  zOutStage 4 (decide (e = 0)) nT (fun n out dims => do
      forN e2 fun m' => c2sZ2e1 k1 tab fpd s.si.l s.sj.l s.sk.l s.sl.l (kap 0) (kap 1) nblk buf mo.2
        (mo.1 + 2*(n1*m')) (m.1 + nc*e1*(n*e2+m'))
      c2sZ2e2 S (spTrans2e2 k2 tab fpd s.sl.l s.sk.l (kap 2) (kap 3) di dj nblk buf mo.2) out mo.1 dims)
    out dims counts
    (fun t => four di dj dk dl t * four s.si.nctr s.sj.nctr s.sk.nctr s.sl.nctr t)
  pure (decide (e = 0))

end
end Verif.Model
