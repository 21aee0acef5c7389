import Verif.Model.C2sTable
import Verif.Model.Fblas
import Verif.Model.Drv1e

/-!
Cartesian to real spherical transformation, src/cart2sph.c (PYPZPX not defined).  `tab` is the
address of g_trans_cart2sph.
-/
namespace Verif.Model
open Verif Prog

variable {α : Type}

section
variable [Zero α] [Add α] [Mul α]

/-- `g_c2s[l].cart2sph`, src/cart2sph.c:3561-3578 -/
def c2sAt (tab : Ptr) (l : Nat) : Ptr := tab + c2sOff.getD l 0

/-- `s + coeff[a] * g[pos b] + …` -/
def combFrom (coeff g : Ptr) (pos : Nat → Nat) : List (Nat × Nat) → α → Prog α α
  | [], s => pure s
  | t :: ts, s => do
    let c ← ld (coeff + t.1)
    let x ← ld (g + pos t.2)
    combFrom coeff g pos ts (s + c * x)

/-- `coeff[a] * g[pos b] + …`, the right hand sides of the d, f, g kernels -/
def comb (coeff g : Ptr) (pos : Nat → Nat) : List (Nat × Nat) → Prog α α
  | [] => pure 0
  | t :: ts => do
    let c ← ld (coeff + t.1)
    let x ← ld (g + pos t.2)
    combFrom coeff g pos ts (c * x)

/-- the body of the loops of the d, f, g kernels: `gsph[dst m] = …` for every row -/
def stRows (coeff gsph gcart : Ptr) (dst src : Nat → Nat) : List (Nat × List (Nat × Nat)) → Prog α Unit
  | [] => pure ()
  | r :: rs => do
    let v ← comb coeff gcart src r.2
    st (gsph + dst r.1) v
    stRows coeff gsph gcart dst src rs

/-- {d,f,g}_bra_cart2spheric, src/cart2sph.c:3679-3694, 3719-3745, 3775-3813 (the pointers advance by
`2l+1` and `nf` per column) -/
def rowsBra (rows : List (Nat × List (Nat × Nat))) (coeff gsph : Ptr) (nket : Nat) (gcart : Ptr) (l : Nat) :
    Prog α Ptr := do
  forN nket fun i => stRows coeff (gsph + i*(2*l+1)) (gcart + i*lenCart l) (fun m => m) (fun b => b) rows
  pure gsph

/-- {d,f,g}_ket_cart2spheric, src/cart2sph.c:3695-3716, 3746-3772, 3814-3852 -/
def rowsKet (rows : List (Nat × List (Nat × Nat))) (coeff gsph gcart : Ptr) (lds nbra : Nat) : Prog α Ptr := do
  forN nbra fun i => stRows coeff gsph gcart (fun m => m*lds+i) (fun b => b*nbra+i) rows
  pure gsph

/-- c2s_bra_sph, src/cart2sph.c:3858-3874: s_bra, p_bra (l.3599-3646, they return `gcart`), the d, f, g
kernels and a_bra_cart2spheric, l.3581-3587 -/
def braSph (tab : Ptr) (l : Nat) (gsph : Ptr) (nket : Nat) (gcart : Ptr) : Prog α Ptr :=
  match l with
  | 0 => pure gcart
  | 1 => pure gcart
  | 2 => rowsBra dBraRows (c2sAt tab 2) gsph nket gcart 2
  | 3 => rowsBra fBraRows (c2sAt tab 3) gsph nket gcart 3
  | 4 => rowsBra gBraRows (c2sAt tab 4) gsph nket gcart 4
  | l => do
    dgemmTN (l*2+1) nket (lenCart l) (c2sAt tab l) gcart gsph
    pure gsph

/-- c2s_ket_sph, src/cart2sph.c:3876-3893: s_ket, p_ket (l.3608-3656, they return `gcart`), the d, f, g
kernels and a_ket_cart2spheric, l.3589-3596 -/
def ketSph (tab : Ptr) (l : Nat) (gsph gcart : Ptr) (lds nbra : Nat) : Prog α Ptr :=
  match l with
  | 0 => pure gcart
  | 1 => pure gcart
  | 2 => rowsKet dKetRows (c2sAt tab 2) gsph gcart lds nbra
  | 3 => rowsKet fKetRows (c2sAt tab 3) gsph gcart lds nbra
  | 4 => rowsKet gKetRows (c2sAt tab 4) gsph gcart lds nbra
  | l => do
    dgemmNN1 nbra (l*2+1) (lenCart l) gcart (c2sAt tab l) gsph lds
    pure gsph

/-- c2s_ket_sph1, src/cart2sph.c:3897-3914: s_ket_cart2spheric_copy (l.3618-3630) and
p_ket_cart2spheric_copy (l.3658-3676) copy, the others are those of c2s_ket_sph -/
def ketSph1 (tab : Ptr) (l : Nat) (gsph gcart : Ptr) (lds nbra : Nat) : Prog α Ptr :=
  match l with
  | 0 => do
    forN nbra fun i => cpy (gsph + i) (gcart + i)
    pure gsph
  | 1 => do
    forN nbra fun i => do
      cpy (gsph + (0*lds+i)) (gcart + (0*nbra+i))
      cpy (gsph + (1*lds+i)) (gcart + (1*nbra+i))
      cpy (gsph + (2*lds+i)) (gcart + (2*nbra+i))
    pure gsph
  | l => ketSph tab l gsph gcart lds nbra

/-- sph2e_inner, src/cart2sph.c:4789-4827 (the switch selects the kernel that c2s_ket_sph has) -/
def sph2eInner (tab : Ptr) (gsph gcart : Ptr) (l nbra ncall sizsph sizcart : Nat) : Prog α Ptr :=
  match l with
  | 0 => pure gcart
  | 1 => pure gcart
  | l => do
    forN ncall fun n => do
      let _ ← ketSph tab l (gsph + n*sizsph) (gcart + n*sizcart) nbra nbra
      pure ()
    pure gsph

/-- the transformation of one block in c2s_sph_1e, src/cart2sph.c:4833-4863, with its scratch arrays -/
def sphTrans1e (tab : Ptr) (fpd li lj : Nat) (buf c : Nat) (gctr : Ptr) : Prog α Ptr := do
  let nfi := lenCart li
  let dj := lj*2+1
  let m1 := mallocD fpd buf c (nfi*dj)
  let m2 := mallocD fpd buf m1.2 (nfi*dj)
  let tmp1 ← ketSph tab lj m1.1 gctr nfi nfi
  braSph tab li m2.1 dj tmp1

/-- the transformation of one block in c2s_sph_2e1, src/cart2sph.c:5324-5380 -/
def sphTrans2e (tab : Ptr) (fpd li lj lk ll : Nat) (buf c : Nat) (gctr : Ptr) : Prog α Ptr := do
  let nfi := lenCart li
  let nfk := lenCart lk
  let nfl := lenCart ll
  let dj := lj*2+1
  let dk := lk*2+1
  let dl := ll*2+1
  let nfik := nfi * nfk
  let nfikl := nfik * nfl
  let dlj := dl * dj
  let buflen := nfikl*dj
  let buf1 := (mallocD fpd buf c (buflen*4)).1
  let buf2 := buf1 + buflen
  let buf3 := buf2 + buflen
  let buf4 := buf3 + buflen
  let tmp1 ← ketSph tab lj buf1 gctr nfikl nfikl
  let tmp1 ← sph2eInner tab buf2 tmp1 ll nfik dj (nfik*dl) nfikl
  let tmp1 ← sph2eInner tab buf3 tmp1 lk nfi dlj (nfi*dk) nfik
  braSph tab li buf4 (dk*dlj) tmp1

/-- the transformation of one block in c2s_sph_3c2e1, src/cart2sph.c:5884-5924 -/
def sphTrans3c (tab : Ptr) (fpd li lj lk : Nat) (buf c : Nat) (gctr : Ptr) : Prog α Ptr := do
  let nfi := lenCart li
  let nfk := lenCart lk
  let dj := lj*2+1
  let dk := lk*2+1
  let nfik := nfi*nfk
  let buflen := nfi*nfk*dj
  let buf1 := (mallocD fpd buf c (buflen*3)).1
  let buf2 := buf1 + buflen
  let buf3 := buf2 + buflen
  let tmp1 ← ketSph tab lj buf1 gctr nfik nfik
  let tmp1 ← sph2eInner tab buf2 tmp1 lk nfi dj (nfi*dk) nfik
  braSph tab li buf3 (dk*dj) tmp1

end
end Verif.Model
