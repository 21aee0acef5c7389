import Verif.Spec.OperV
import Verif.Spec.Eri

/-! Two-electron integrals with operators on the functions of both electrons, and those of the library written with them. -/
namespace Verif.Spec

/-- a sum of products of an operator on the functions of electron 1 and one on those of electron 2 -/
abbrev Op2 := List (Term × Term)

/-- the complex number of a term -/
noncomputable def Term.coef (t : Term) : ℂ := (t.re : ℂ) + Complex.I * (t.im : ℂ)

/-- the value of a product: the numbers times
`∬ (bra₁ f)(r₁) (ket₁ g)(r₁) V(r₁,r₂) (bra₂ h)(r₂) (ket₂ k)(r₂) dr₁ dr₂`, for `f`, `g`, `h`, `k` centred at `A`, `B`, `C`, `D` -/
noncomputable def Op2.valT (V : Pt → Pt → ℝ) (O A B C D : Pt) (f g h k : Pt → ℝ) (x : Term × Term) : ℂ :=
  x.1.coef * x.2.coef * (((x.1.geo.map fun c => A c - B c).prod * (x.2.geo.map fun c => C c - D c).prod *
    repulsion V (fun r => Word.act O A x.1.bra f r * Word.act O B x.1.ket g r)
      (fun r => Word.act O C x.2.bra h r * Word.act O D x.2.ket k r) : ℝ) : ℂ)

noncomputable def Op2.val (V : Pt → Pt → ℝ) (O A B C D : Pt) (f g h k : Pt → ℝ) (P : Op2) : ℂ :=
  (P.map (Op2.valT V O A B C D f g h k)).sum

/-- the contraction of quantities given for each quartet of primitives -/
noncomputable def contract4C (ni nj nk nl : ℕ) (ci cj ck cl : ℕ → ℝ) (f : ℕ → ℕ → ℕ → ℕ → ℂ) (ic jc kc lc : ℕ) : ℂ :=
  ∑ lp ∈ Finset.range nl, ∑ kp ∈ Finset.range nk, ∑ jp ∈ Finset.range nj, ∑ ip ∈ Finset.range ni,
    ((cl (nl*lc+lp) * ck (nk*kc+kp) * cj (nj*jc+jp) * ci (ni*ic+ip) : ℝ) : ℂ) * f ip jp kp lp

/-- what stands next to the interaction `V`: nothing, `σ₁ · σ₂` (Gaunt), `[σ₁ · (-∇₁V)] (σ₂ · r₁)` or `[σ₁ · (-∇₁V)] (σ₂ · r₂)`
(the two parts of the gauge term of the Breit interaction) -/
inductive Inter2 where
  | none | gaunt | gauge1 | gauge2

/-- An integral `fac · (bra1 i, ket1 j | bra2 k, ket2 l)`, with `inter` next to the interaction.  Each electron
with spin contributes a factor `o₃ + i (o₀ σ_x + o₁ σ_y + o₂ σ_z)`, with components `o`, times `i` if `imag`; the numbers
returned are the products of components of both electrons. -/
structure Def2e where
  num : Int := 1
  den : Nat := 1
  imag1 : Bool := false
  imag2 : Bool := false
  spin1 : Bool := false
  spin2 : Bool := false
  inter : Inter2 := .none
  bra1 : List Quat := [1]
  ket1 : List Quat := [1]
  bra2 : List Quat := [1]
  ket2 : List Quat := [1]

/-- the tensor components, with `s` next to the interaction for both electrons -/
def Def2e.tensor (D : Def2e) (s : Quat) : List (Quat × Quat) :=
  (tens (tens (D.bra1.map Quat.dag) [s]) D.ket1).flatMap fun a =>
    (tens (tens (D.bra2.map Quat.dag) [s]) D.ket2).map fun b => (a, b)

/-- position -/
def r0 : Vec := fun k => .sf (.el .r0 k)

/-- `σ · (-∇V)` between operators on the left function (already moved to the left) and on the right one, see `Quat.grad` -/
def sigmaGrad (b k : Quat) : Quat :=
  Quat.grad 0 (b * sigma 0 * k) + (Quat.grad 1 (b * sigma 1 * k) + Quat.grad 2 (b * sigma 2 * k))

/-- the tensor components; each is a sum of products -/
def Def2e.comps (D : Def2e) : List (List (Quat × Quat)) :=
  let quads (f : Quat → Quat → Quat → Quat → List (Quat × Quat)) := D.bra1.flatMap fun b1 => D.ket1.flatMap fun k1 =>
    D.bra2.flatMap fun b2 => D.ket2.map fun k2 => f b1.dag k1 b2.dag k2
  match D.inter with
  | .none => (D.tensor 1).map fun x => [x]
  | .gaunt => ((D.tensor (sigma 0)).zip ((D.tensor (sigma 1)).zip (D.tensor (sigma 2)))).map fun x => [x.1, x.2.1, x.2.2]
  | .gauge1 => quads fun b1 k1 b2 k2 => PotDefs.ix.map fun c => (sigmaGrad b1 (r0 c * k1), b2 * sigma c * k2)
  | .gauge2 => quads fun b1 k1 b2 k2 => [(sigmaGrad b1 k1, b2 * dot sigma r0 * k2)]

/-- the components of the factor of one electron -/
def spinParts (spin imag : Bool) : List (Quat → Op) :=
  let ph : Op := if imag then .cst 0 (-1) else .cst 1 0
  let i : Op := .cst 0 (-1)
  if spin then [fun q => ph.mul (i.mul q.x), fun q => ph.mul (i.mul q.y), fun q => ph.mul (i.mul q.z), fun q => ph.mul q.one]
  else [fun q => ph.mul q.one]

/-- the operators of the numbers returned, in the order of the output: tensor component slowest, then the spin component of
electron 2, then of electron 1 -/
def Def2e.out (D : Def2e) : List Op2 :=
  D.comps.flatMap fun qs => (spinParts D.spin2 D.imag2).flatMap fun c2 => (spinParts D.spin1 D.imag1).map fun c1 =>
    qs.flatMap fun q => (c1 q.1).flatMap fun s => (c2 q.2).map fun t => (s, t)

/-! ### The integrals (compare scripts/auto_intor.cl) -/
namespace EriDefs
open PotDefs (nn ix)

def srsr12 : Def2e := { spin1 := true, spin2 := true, bra1 := [sr], ket1 := [sr], bra2 := [sr], ket2 := [sr] }
def spsp1 : Def2e := { spin1 := true, bra1 := [sp], ket1 := [sp] }
def spsp2 : Def2e := { spin2 := true, bra2 := [sp], ket2 := [sp] }
def spsp12 : Def2e := { spsp1 with spin2 := true, bra2 := [sp], ket2 := [sp] }
def spv1 : Def2e := { spin1 := true, bra1 := [sp] }
def vsp1 : Def2e := { spin1 := true, ket1 := [sp] }
def spv1spv2 : Def2e := { spv1 with spin2 := true, bra2 := [sp] }
def vsp1spv2 : Def2e := { vsp1 with spin2 := true, bra2 := [sp] }
def spv1vsp2 : Def2e := { spv1 with spin2 := true, ket2 := [sp] }
def vsp1vsp2 : Def2e := { vsp1 with spin2 := true, ket2 := [sp] }
def spv1spsp2 : Def2e := { spv1 with spin2 := true, bra2 := [sp], ket2 := [sp] }
def vsp1spsp2 : Def2e := { vsp1 with spin2 := true, bra2 := [sp], ket2 := [sp] }

/-- Gaunt integrals -/
def gau : Def2e := { num := -1, spin1 := true, spin2 := true, imag1 := true, imag2 := true, inter := .gaunt }
def ssp1ssp2 : Def2e := { gau with ket1 := [sp], ket2 := [sp] }
def ssp1sps2 : Def2e := { gau with ket1 := [sp], bra2 := [sp] }
def sps1ssp2 : Def2e := { gau with bra1 := [sp], ket2 := [sp] }
def sps1sps2 : Def2e := { gau with bra1 := [sp], bra2 := [sp] }
def cg_ssa10ssp2 : Def2e := { gau with num := 1, imag1 := false, bra1 := comps (cross rc sigma), ket2 := [sp] }
def giao_ssa10ssp2 : Def2e := { gau with num := 1, imag1 := false, bra1 := comps (cross r sigma), ket2 := [sp] }
def gssp1ssp2 : Def2e := { gau with num := 1, den := 2, imag1 := false, bra1 := comps gBra, ket1 := [sp], ket2 := [sp] }

/-- the gauge term -/
def gauge_r1_ssp1ssp2 : Def2e := { ssp1ssp2 with inter := .gauge1 }
def gauge_r1_ssp1sps2 : Def2e := { ssp1sps2 with inter := .gauge1 }
def gauge_r1_sps1ssp2 : Def2e := { sps1ssp2 with inter := .gauge1 }
def gauge_r1_sps1sps2 : Def2e := { sps1sps2 with inter := .gauge1 }
def gauge_r2_ssp1ssp2 : Def2e := { ssp1ssp2 with inter := .gauge2 }
def gauge_r2_ssp1sps2 : Def2e := { ssp1sps2 with inter := .gauge2 }
def gauge_r2_sps1ssp2 : Def2e := { sps1ssp2 with inter := .gauge2 }
def gauge_r2_sps1sps2 : Def2e := { sps1sps2 with inter := .gauge2 }

def ip1 : Def2e := { bra1 := comps nabla }
def ip2 : Def2e := { bra2 := comps nabla }
def ipspsp1 : Def2e := { spsp1 with bra1 := tens (comps nabla) [sp] }
def ip1spsp2 : Def2e := { spsp2 with bra1 := comps nabla }
def ipspsp1spsp2 : Def2e := { spsp12 with bra1 := tens (comps nabla) [sp] }
def srsr1 : Def2e := { spin1 := true, bra1 := [sr], ket1 := [sr] }
def ipsrsr1 : Def2e := { srsr1 with bra1 := tens (comps nabla) [sr] }
def ip1srsr2 : Def2e := { spin2 := true, bra1 := comps nabla, bra2 := [sr], ket2 := [sr] }
def ipsrsr1srsr2 : Def2e := { srsr12 with bra1 := tens (comps nabla) [sr] }
def ipip1 : Def2e := { bra1 := nn }
def ipvip1 : Def2e := { bra1 := comps nabla, ket1 := comps nabla }
def ip1ip2 : Def2e := { bra1 := comps nabla, bra2 := comps nabla }
def ipip1ipip2 : Def2e := { bra1 := nn, bra2 := nn }
def ipvip1ipvip2 : Def2e := { bra1 := comps nabla, ket1 := comps nabla, bra2 := comps nabla, ket2 := comps nabla }
def ig1 : Def2e := { den := 2, bra1 := comps gBra, ket1 := [I] }
def gg1 : Def2e := { den := 4, bra1 := tens (comps gBra) (comps gBra) }
def g1g2 : Def2e := { num := -1, den := 4, imag1 := true, imag2 := true, bra1 := comps gBra, bra2 := comps gBra }
/-- `(p i, × p j | k l)` -/
def p1vxp1 : Def2e := { ket1 := comps (cross (inBra p) p) }
/-- `(i, r_b j | ... )` with `-∂V/∂r_a`, see `Quat.grad` -/
def ip1v_rc1 : Def2e := { ket1 := ix.flatMap fun a => ix.map fun b => Quat.grad a (rc b) }
def ip1v_r1 : Def2e := { ket1 := ix.flatMap fun a => ix.map fun b => Quat.grad a (r b) }
def cg_sa10sp1 : Def2e := { den := 2, spin1 := true, imag1 := true, bra1 := comps (cross rc sigma), ket1 := [sp] }
def cg_sa10sp1spsp2 : Def2e := { cg_sa10sp1 with spin2 := true, bra2 := [sp], ket2 := [sp] }
def giao_sa10sp1 : Def2e := { den := 2, spin1 := true, imag1 := true, bra1 := comps (cross r sigma), ket1 := [sp] }
def giao_sa10sp1spsp2 : Def2e := { giao_sa10sp1 with spin2 := true, bra2 := [sp], ket2 := [sp] }
def g1 : Def2e := { den := 2, imag1 := true, bra1 := comps gBra }
def spgsp1 : Def2e := { den := 2, spin1 := true, imag1 := true, bra1 := tens (comps gBra) [sp], ket1 := [sp] }
def g1spsp2 : Def2e := { g1 with spin2 := true, bra2 := [sp], ket2 := [sp] }
def spgsp1spsp2 : Def2e := { spgsp1 with spin2 := true, bra2 := [sp], ket2 := [sp] }
/-- `(p i, · p j | k l)` -/
def pp1 : Def2e := { ket1 := [dot (inBra p) p] }
def pp2 : Def2e := { ket2 := [dot (inBra p) p] }
def pp1pp2 : Def2e := { ket1 := [dot (inBra p) p], ket2 := [dot (inBra p) p] }

end EriDefs

open EriDefs in
/-- the catalogue -/
def defs2e : List (String × Def2e) := [
  ("int2e_gauge_r1_ssp1ssp2", gauge_r1_ssp1ssp2), ("int2e_gauge_r1_ssp1sps2", gauge_r1_ssp1sps2),
  ("int2e_gauge_r1_sps1ssp2", gauge_r1_sps1ssp2), ("int2e_gauge_r1_sps1sps2", gauge_r1_sps1sps2),
  ("int2e_gauge_r2_ssp1ssp2", gauge_r2_ssp1ssp2), ("int2e_gauge_r2_ssp1sps2", gauge_r2_ssp1sps2),
  ("int2e_gauge_r2_sps1ssp2", gauge_r2_sps1ssp2), ("int2e_gauge_r2_sps1sps2", gauge_r2_sps1sps2),
  ("int2e_spv1", spv1), ("int2e_vsp1", vsp1), ("int2e_spsp2", spsp2), ("int2e_spv1spv2", spv1spv2),
  ("int2e_vsp1spv2", vsp1spv2), ("int2e_spv1vsp2", spv1vsp2), ("int2e_vsp1vsp2", vsp1vsp2),
  ("int2e_spv1spsp2", spv1spsp2), ("int2e_vsp1spsp2", vsp1spsp2), ("int2e_ssp1ssp2", ssp1ssp2),
  ("int2e_ssp1sps2", ssp1sps2), ("int2e_sps1ssp2", sps1ssp2), ("int2e_sps1sps2", sps1sps2),
  ("int2e_cg_ssa10ssp2", cg_ssa10ssp2), ("int2e_giao_ssa10ssp2", giao_ssa10ssp2), ("int2e_gssp1ssp2", gssp1ssp2),
  ("int2e_ip1", ip1), ("int2e_ip2", ip2), ("int2e_ipspsp1", ipspsp1), ("int2e_ip1spsp2", ip1spsp2),
  ("int2e_ipspsp1spsp2", ipspsp1spsp2), ("int2e_ipsrsr1", ipsrsr1), ("int2e_ip1srsr2", ip1srsr2),
  ("int2e_ipsrsr1srsr2", ipsrsr1srsr2), ("int2e_ipip1", ipip1), ("int2e_ipvip1", ipvip1), ("int2e_ip1ip2", ip1ip2),
  ("int2e_ipip1ipip2", ipip1ipip2), ("int2e_ipvip1ipvip2", ipvip1ipvip2), ("int2e_ig1", ig1), ("int2e_gg1", gg1),
  ("int2e_g1g2", g1g2), ("int2e_p1vxp1", p1vxp1), ("int2e_ip1v_rc1", ip1v_rc1), ("int2e_ip1v_r1", ip1v_r1), ("int2e_spsp1", spsp1), ("int2e_spsp1spsp2", spsp12),
  ("int2e_srsr1", srsr1), ("int2e_srsr1srsr2", srsr12), ("int2e_cg_sa10sp1", cg_sa10sp1),
  ("int2e_cg_sa10sp1spsp2", cg_sa10sp1spsp2), ("int2e_giao_sa10sp1", giao_sa10sp1),
  ("int2e_giao_sa10sp1spsp2", giao_sa10sp1spsp2), ("int2e_g1", g1), ("int2e_spgsp1", spgsp1),
  ("int2e_g1spsp2", g1spsp2), ("int2e_spgsp1spsp2", spgsp1spsp2), ("int2e_pp1", pp1), ("int2e_pp2", pp2),
  ("int2e_pp1pp2", pp1pp2)]

end Verif.Spec
