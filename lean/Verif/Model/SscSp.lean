import Verif.Model.Spinor

/-!
Three-centre integrals between spinors with Cartesian functions in the third shell: int3c2e_spinor_ssc,
int3c2e_spsp1_spinor_ssc, src/cint3c2e.c:738-757; the output functions c2s_sf_3c2e1_ssc, c2s_sf_3c2e1i_ssc, c2s_si_3c2e1_ssc,
c2s_si_3c2e1i_ssc, src/cart2sph.c:6250-6448.
-/
namespace Verif.Model
open Verif Verif.Prog

variable {α : Type} [Field α] [LinearOrder α]

/-- the transformation of one block in c2s_sf_3c2e1_ssc, c2s_sf_3c2e1i_ssc, src/cart2sph.c:6250-6340, and c2s_si_3c2e1_ssc,
c2s_si_3c2e1i_ssc, l.6341-6448; `n` is `nf * i_ctr * j_ctr * k_ctr` -/
def spTransSsc (k : SpKind) (tab : JTab) (fpd li lj lk : Nat) (ki kj : Int) (n : Nat) (buf c : Nat) (gctr : Ptr) :
    Prog α (Ptr × Ptr) := do
  let di := lenSpinorC2S ki li
  let dj := lenSpinorC2S kj lj
  let nfj := lenCart lj
  let nfk := lenCart lk
  let nf2j := nfj + nfj
  let m1 := mallocD fpd buf c (di*nfk*nf2j)
  let m2 := mallocD fpd buf m1.2 (di*nfk*nf2j)
  let m3 := mallocD fpd buf m2.2 (di*nfk*dj)
  let m4 := mallocD fpd buf m3.2 (di*nfk*dj)
  k.bra tab m1.1 m2.1 gctr n (nfk*nfj) ki li
  k.ket tab m3.1 m4.1 m1.1 m2.1 (di*nfk) kj lj
  pure (m3.1, m4.1)

/-- CINT3c2e_spinor_drv, src/cint3c2e.c:626-687, with `out` not NULL and `is_ssc` 1; `loop gctr cache` is the loop function,
`e1` is `ncomp_e1`, `nT` is `ncomp_e2 * ncomp_tensor`.  The cache size is that of the driver with `is_ssc` 0. -/
def drv3c2eSscSp (X : Int2e α) (s : Call3 α) (loop : Ptr → Nat → Prog α Bool) (e1 nT : Nat) (kd : SpKind) (tab : JTab)
    (ki kj : Int) (fpd : Nat) (out : Ptr) (dims : Option Ptr) (buf c : Nat) (empty counts : Ptr) : Prog α Bool := do
  let nf := (s.env X).nf
  let nc := nf * s.si.nctr * s.sj.nctr * s.sk.nctr
  let m := mallocD fpd buf c (nc * X.nComp)
  stI empty 1
  let _ ← loop m.1 m.2
  let e ← ldI empty
  let di := lenSpinorC2S ki s.si.l
  let dj := lenSpinorC2S kj s.sj.l
  let nfk := lenCart s.sk.l
  let S : Shape := { ic := s.si.nctr, jc := s.sj.nctr, kc := s.sk.nctr, di := di, dj := dj, dk := nfk, nf := nf }
  zOutStage 3 (decide (e = 0)) nT (fun n out dims => c2sZ3c S
      (spTransSsc kd tab fpd s.si.l s.sj.l s.sk.l ki kj nc buf m.2) out (m.1 + nc*e1*n) dims)
    out dims counts
    (fun t => four di dj nfk 1 t * four s.si.nctr s.sj.nctr s.sk.nctr 1 t)
  pure (decide (e = 0))

end Verif.Model
