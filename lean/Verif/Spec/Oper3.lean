import Verif.Spec.Oper2

/-! Two-electron integrals with operators over three and two functions: the integrals over four functions with the constant
function 1 in the missing places. -/
namespace Verif.Spec

/-- `∬ (bra₁ f)(r₁) (ket₁ g)(r₁) V(r₁,r₂) (bra₂ h)(r₂) dr₁ dr₂`, summed over the terms -/
noncomputable def Op2.val3 (V : Pt → Pt → ℝ) (O A B C : Pt) (f g h : Pt → ℝ) (P : Op2) : ℂ :=
  Op2.val V O A B C C f g h (fun _ => 1) P

/-- `∬ (bra₁ f)(r₁) V(r₁,r₂) (bra₂ h)(r₂) dr₁ dr₂`, summed over the terms -/
noncomputable def Op2.val2 (V : Pt → Pt → ℝ) (O A C : Pt) (f h : Pt → ℝ) (P : Op2) : ℂ :=
  Op2.val V O A A C C f (fun _ => 1) h (fun _ => 1) P

/-- the contraction of quantities given for each triple of primitives -/
noncomputable def contract3C (ni nj nk : ℕ) (ci cj ck : ℕ → ℝ) (f : ℕ → ℕ → ℕ → ℂ) (ic jc kc : ℕ) : ℂ :=
  ∑ kp ∈ Finset.range nk, ∑ jp ∈ Finset.range nj, ∑ ip ∈ Finset.range ni,
    ((ck (nk*kc+kp) * cj (nj*jc+jp) * ci (ni*ic+ip) : ℝ) : ℂ) * f ip jp kp

/-- the contraction of quantities given for each pair of primitives -/
noncomputable def contract2C (ni nk : ℕ) (ci ck : ℕ → ℝ) (f : ℕ → ℕ → ℂ) (ic kc : ℕ) : ℂ :=
  ∑ kp ∈ Finset.range nk, ∑ ip ∈ Finset.range ni, ((ck (nk*kc+kp) * ci (ni*ic+ip) : ℝ) : ℂ) * f ip kp

/-! ### The integrals (compare scripts/auto_intor.cl) -/
namespace EriDefs
open PotDefs (nn)

def spsp1ip2 : Def2e := { spsp1 with bra2 := comps nabla }
def ipip2 : Def2e := { bra2 := nn }

end EriDefs

open EriDefs in
/-- the catalogue of integrals over three functions; the operators on the third are `bra2` -/
def defs3c : List (String × Def2e) := [
  ("int3c2e_ip1", ip1), ("int3c2e_ip2", ip2), ("int3c2e_pvp1", pp1), ("int3c2e_pvxp1", p1vxp1), ("int3c2e_ig1", ig1),
  ("int3c2e_spsp1", spsp1), ("int3c2e_ipspsp1", ipspsp1), ("int3c2e_spsp1ip2", spsp1ip2), ("int3c2e_ipip1", ipip1),
  ("int3c2e_ipip2", ipip2), ("int3c2e_ipvip1", ipvip1), ("int3c2e_ip1ip2", ip1ip2)]

open EriDefs in
/-- the catalogue of integrals over two functions; the operators are `bra1` and `bra2` -/
def defs2c : List (String × Def2e) := [
  ("int2c2e_ip1", ip1), ("int2c2e_ip2", ip2), ("int2c2e_ipip1", ipip1), ("int2c2e_ip1ip2", ip1ip2)]

end Verif.Spec
