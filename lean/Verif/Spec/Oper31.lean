import Verif.Spec.Oper3
import Verif.Spec.Triple

/-! One-electron integrals with operators over three functions. -/
namespace Verif.Spec

/-- `∫ (bra₁ f) (ket₁ g) (bra₂ h) V` for one term; `O` is the common origin, `A`, `B`, `C` the centres of the functions -/
noncomputable def Op2.valT31 (V : Pt → ℝ) (O A B C : Pt) (f g h : Pt → ℝ) (x : Term × Term) : ℂ :=
  x.1.coef * x.2.coef * (((x.1.geo.map fun c => A c - B c).prod *
    triple V (Word.act O A x.1.bra f) (Word.act O B x.1.ket g) (Word.act O C x.2.bra h) : ℝ) : ℂ)

/-- `∫ (bra₁ f) (ket₁ g) (bra₂ h) V`, summed over the terms -/
noncomputable def Op2.val31 (V : Pt → ℝ) (O A B C : Pt) (f g h : Pt → ℝ) (P : Op2) : ℂ :=
  (P.map (Op2.valT31 V O A B C f g h)).sum

/-! ### The integrals (compare scripts/auto_intor.cl and the comments of src/cint3c1e_a.c) -/
namespace TripleDefs

def p2 : Def2e := { bra2 := [dot p p] }
def ip1 : Def2e := { bra1 := comps nabla }
/-- powers of the distance from the centre of the third function -/
def r2k : Def2e := { bra2 := [dot r r] }
def r4k : Def2e := { bra2 := [dot r r * dot r r] }
def r6k : Def2e := { bra2 := [dot r r * dot r r * dot r r] }
def ip1_r2k : Def2e := { bra1 := comps nabla, bra2 := [dot r r] }
def ip1_r4k : Def2e := { bra1 := comps nabla, bra2 := [dot r r * dot r r] }
def ip1_r6k : Def2e := { bra1 := comps nabla, bra2 := [dot r r * dot r r * dot r r] }

end TripleDefs

open TripleDefs in
/-- the catalogue: name, whether the potential of the charge stands between the functions, the operators (`bra1`, `ket1`, `bra2` act
on the first, second, third function) -/
def defs31 : List (String × Bool × Def2e) := [
  ("int3c1e_p2", false, p2), ("int3c1e_iprinv", true, ip1), ("int3c1e_ip1", false, ip1), ("int3c1e_r2_origk", false, r2k),
  ("int3c1e_r4_origk", false, r4k), ("int3c1e_r6_origk", false, r6k), ("int3c1e_ip1_r2_origk", false, ip1_r2k),
  ("int3c1e_ip1_r4_origk", false, ip1_r4k), ("int3c1e_ip1_r6_origk", false, ip1_r6k)]

end Verif.Spec
