import Verif.Model.Out
import Verif.Model.Sph

/-! Three-centre integrals with spherical first two indices and a Cartesian third one (`_ssc`). -/
namespace Verif.Model
open Verif Prog

variable {α : Type} [Field α]

/-- the transformation of one block in c2s_sph_3c2e1_ssc, src/cart2sph.c:5976-5987, with its scratch
arrays -/
def sscTrans (tab : Ptr) (fpd li lj lk : Nat) (buf c : Nat) (gctr : Ptr) : Prog α Ptr := do
  let nfi := lenCart li
  let nfk := lenCart lk
  let dj := lj*2+1
  let nfik := nfi * nfk
  let buflen := nfi*nfk*dj
  let m1 := mallocD fpd buf c buflen
  let m2 := mallocD fpd buf m1.2 buflen
  let tmp1 ← ketSph tab lj m1.1 gctr nfik nfik
  braSph tab li m2.1 (nfk*dj) tmp1

/-- c2s_sph_3c2e1_ssc, src/cart2sph.c:5956-5992.  The argument `dims` is not used; blocks of
successive contractions of the first shell are placed `nfi` apart. -/
def c2s3cSsc (li lj lk ictr jctr kctr nf : Nat) (trans : Ptr → Prog α Ptr) (bufijk gctr _dims : Ptr) :
    Prog α Unit := do
  let di := li*2+1
  let dj := lj*2+1
  let nfi := lenCart li
  let nfk := lenCart lk
  let ni := di * ictr
  let nj := dj * jctr
  let nk := nfk * kctr
  let ofj := ni * dj
  let ofk := ni * nj * nfk
  let _ ← forS kctr gctr fun kc gctr =>
    forS jctr gctr fun jc gctr =>
    forS ictr gctr fun ic gctr => do
      let tmp1 ← trans gctr
      let pijk := bufijk + (ofk * kc + ofj * jc + nfi * ic)
      dcopyIklj pijk tmp1 ni nj nk di dj nfk 1
      pure (gctr + nf)
  pure ()

/-- The part of CINT3c2e_drv after the primitive loops, src/cint3c2e.c:592-620, when called by
int3c2e_sph_ssc (l.729-736): `f_e1_c2s` is c2s_sph_3c2e1_ssc, not c2s_sph_3c2e1, so `counts` gets the
Cartesian sizes.  `o` doubles of the cache are in use. -/
def sscStage (hasValue : Bool) (l nctr : Nat → Nat) (out gctr : Ptr) (dims : Option Ptr) (counts tab : Ptr)
    (fpd buf o : Nat) : Prog α Unit :=
  let nf := lenCart (l 0) * lenCart (l 1) * lenCart (l 2)
  outStage 3 hasValue 1 (nf * nctr 0 * nctr 1 * nctr 2)
    (c2s3cSsc (l 0) (l 1) (l 2) (nctr 0) (nctr 1) (nctr 2) nf (sscTrans tab fpd (l 0) (l 1) (l 2) buf (fpd*o)))
    out gctr dims counts
    (fun t => if t = 3 then 1 else lenCart (l t) * nctr t)

end Verif.Model
