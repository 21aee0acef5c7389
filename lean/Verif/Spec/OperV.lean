import Verif.Spec.Oper
import Verif.Spec.Coulomb

/-! One-electron integrals with a potential between the operators, and those of the library written with them. -/
namespace Verif.Spec

/-- the value of a term with the function `V` of the position between bra and ket, for `f` centred at `A` and `g` centred at
`B`: `(re + i im) · ∏ (A - B)_k · ⟨ bra f | V | ket g ⟩` -/
noncomputable def Term.valV (V : Pt → ℝ) (O A B : Pt) (f g : Pt → ℝ) (t : Term) : ℂ :=
  ((t.re : ℂ) + Complex.I * (t.im : ℂ)) *
    (((t.geo.map fun k => A k - B k).prod * braketV V (Word.act O A t.bra f) (Word.act O B t.ket g) : ℝ) : ℂ)

noncomputable def Op.valV (V : Pt → ℝ) (O A B : Pt) (f g : Pt → ℝ) (P : Op) : ℂ := (P.map (Term.valV V O A B f g)).sum

/-- a vector operator acting on the bra -/
def inBra (v : Vec) : Vec := fun k => (v k).dag

/-- the derivative of the product of the functions on the left and on the right along direction `k` -/
def Op.grad (k : Fin 3) (P : Op) : Op :=
  P.flatMap fun t => [{ t with bra := (.d, k) :: t.bra }, { t with ket := (.d, k) :: t.ket }]

/-- An operator `q` with the gradient of the potential instead of the potential.  `nabla-rinv` of scripts/auto_intor.cl is
`-∂V/∂r_k`; integrated by parts, `∫ F G (-∂V/∂r_k) = ∫ ∂(F G)/∂r_k V`, the form the library evaluates and the one stated here. -/
def Quat.grad (k : Fin 3) (q : Quat) : Quat := ⟨q.one.grad k, q.x.grad k, q.y.grad k, q.z.grad k⟩

/-! ### The integrals (compare scripts/auto_intor.cl).  `Def1e.bra` acts on the left function, `Def1e.ket` on the right one, the
potential is in between; where components of both are contracted with each other, `inBra` marks those on the left. -/
namespace PotDefs

def nn : List Quat := tens (comps nabla) (comps nabla)
def nnn : List Quat := tens nn (comps nabla)
def ix : List (Fin 3) := [0, 1, 2]

/-- `⟨i|V|j⟩` -/
def v : Def1e := {}
def ipv : Def1e := { bra := comps nabla }
def ipipv : Def1e := { bra := nn }
def ipvip : Def1e := { bra := comps nabla, ket := comps nabla }
def ipipipv : Def1e := { bra := nnn }
def ipipvip : Def1e := { bra := nn, ket := comps nabla }
def ipipvipip : Def1e := { bra := nn, ket := nn }
def ipipipvip : Def1e := { bra := nnn, ket := comps nabla }
def ipipipipv : Def1e := { bra := tens nnn (comps nabla) }
/-- `⟨p i| V · |p j⟩` -/
def pvp : Def1e := { ket := [dot (inBra p) p] }
/-- `⟨p i| V × |p j⟩` -/
def pvxp : Def1e := { ket := comps (cross (inBra p) p) }
def ippvp : Def1e := { ket := ix.map fun a => dot (inBra fun k => p k * nabla a) p }
def ipippvp : Def1e := { ket := ix.flatMap fun a => ix.map fun b => dot (inBra fun k => p k * nabla a * nabla b) p }
/-- here the derivative of the ket is the slow index of the output -/
def ippvpip : Def1e :=
  { ket := ix.flatMap fun b => ix.map fun a => dot (inBra fun k => p k * nabla a) (fun k => p k * nabla b) }
def spv : Def1e := { spin := true, bra := [sp] }
def spvsp : Def1e := { spin := true, bra := [sp], ket := [sp] }
def srvsr : Def1e := { spin := true, bra := [sr], ket := [sr] }
def ipspvsp : Def1e := { spin := true, bra := tens (comps nabla) [sp], ket := [sp] }
def ipipspvsp : Def1e := { spin := true, bra := tens nn [sp], ket := [sp] }
def ipspvspip : Def1e := { spin := true, bra := tens (comps nabla) [sp], ket := tens [sp] (comps nabla) }
def igv : Def1e := { den := 2, bra := comps gBra, ket := [I] }
def gv : Def1e := { den := 2, imag := true, bra := comps gBra }
def ggv : Def1e := { den := 4, ket := tens (comps g) (comps g) }
def iv_rcxp : Def1e := { ket := tens [I] (comps (cross rc p)) }
def iv_rxp : Def1e := { ket := tens [I] (comps (cross r p)) }
def cg_sa10vsp : Def1e := { den := 2, spin := true, imag := true, bra := comps (cross rc sigma), ket := [sp] }
def giao_sa10vsp : Def1e := { den := 2, spin := true, imag := true, bra := comps (cross r sigma), ket := [sp] }
def spgvsp : Def1e := { den := 2, spin := true, imag := true, bra := tens (comps gBra) [sp], ket := [sp] }
def ipvr : Def1e := { bra := comps nabla, ket := comps r }
def ipviprip : Def1e := { bra := comps nabla, ket := tens (tens (comps nabla) (comps r)) (comps nabla) }
def vipiprip : Def1e := { ket := tens (tens (tens (comps nabla) (comps nabla)) (comps r)) (comps nabla) }
def ipipvrip : Def1e := { bra := nn, ket := tens (comps r) (comps nabla) }

/-! With `nabla-rinv`: everything is written in `ket`, `dag` marks the operators on the left. -/

/-- `⟨i| nabla-rinv |j⟩` -/
def drinv : Def1e := { ket := ix.map fun k => Quat.grad k 1 }
/-- `(nabla-rinv × p)` -/
def ia01p : Def1e := { ket := tens [I] (ix.map fun k => Quat.grad (k+1) (p (k+2)) + .cst (-1) 0 * Quat.grad (k+2) (p (k+1))) }
def giao_a11part : Def1e := { num := -1, den := 2, ket := ix.flatMap fun a => ix.map fun b => Quat.grad a (r b) }
def cg_a11part : Def1e := { num := -1, den := 2, ket := ix.flatMap fun a => ix.map fun b => Quat.grad a (rc b) }
/-- `⟨bra i| σ × nabla-rinv |j⟩` -/
def sigmaXgrad (bra : List Quat) : List Quat := bra.flatMap fun q => ix.map fun b =>
  Quat.grad (b+2) (q.dag * sigma (b+1)) + .cst (-1) 0 * Quat.grad (b+1) (q.dag * sigma (b+2))
/-- `⟨bra i| nabla-rinv × σ |ket j⟩` -/
def gradXsigma (bra : List Quat) (ket : Quat) : List Quat := bra.flatMap fun q => ix.map fun b =>
  Quat.grad (b+1) (q.dag * sigma (b+2) * ket) + .cst (-1) 0 * Quat.grad (b+2) (q.dag * sigma (b+1) * ket)
def cg_sa10sa01 : Def1e := { den := 2, spin := true, ket := sigmaXgrad (comps (cross sigma rc)) }
def giao_sa10sa01 : Def1e := { den := 2, spin := true, ket := sigmaXgrad (comps (cross sigma r)) }
def sa01sp : Def1e := { spin := true, imag := true, ket := gradXsigma [1] sp }
def spgsa01 : Def1e := { den := 2, spin := true, ket := gradXsigma (tens (comps gBra) [sp]) 1 }

end PotDefs

open PotDefs in
/-- the catalogue: name, whether the potential is that of all the nuclei (else of one charge), definition -/
def defsV : List (String × Bool × Def1e) := [
  ("int1e_ipipipnuc", true, ipipipv), ("int1e_ipipiprinv", false, ipipipv), ("int1e_ipipnucip", true, ipipvip),
  ("int1e_ipiprinvip", false, ipipvip), ("int1e_ipiprinvipip", false, ipipvipip), ("int1e_ipipiprinvip", false, ipipipvip),
  ("int1e_ipipipiprinv", false, ipipipipv), ("int1e_spnuc", true, spv), ("int1e_ipnuc", true, ipv),
  ("int1e_iprinv", false, ipv), ("int1e_ipspnucsp", true, ipspvsp), ("int1e_ipsprinvsp", false, ipspvsp),
  ("int1e_ippnucp", true, ippvp), ("int1e_ipprinvp", false, ippvp), ("int1e_ipipnuc", true, ipipv),
  ("int1e_ipnucip", true, ipvip), ("int1e_ipiprinv", false, ipipv), ("int1e_iprinvip", false, ipvip),
  ("int1e_ipippnucp", true, ipippvp), ("int1e_ippnucpip", true, ippvpip), ("int1e_ipipprinvp", false, ipippvp),
  ("int1e_ipprinvpip", false, ippvpip), ("int1e_ipipspnucsp", true, ipipspvsp), ("int1e_ipspnucspip", true, ipspvspip),
  ("int1e_ipipsprinvsp", false, ipipspvsp), ("int1e_ipsprinvspip", false, ipspvspip), ("int1e_ia01p", false, ia01p), ("int1e_giao_a11part", false, giao_a11part),
  ("int1e_cg_a11part", false, cg_a11part), ("int1e_ignuc", true, igv),
  ("int1e_pnucp", true, pvp), ("int1e_prinvp", false, pvp), ("int1e_prinvxp", false, pvxp), ("int1e_pnucxp", true, pvxp),
  ("int1e_ggnuc", true, ggv), ("int1e_rinv", false, v), ("int1e_drinv", false, drinv), ("int1e_inuc_rcxp", true, iv_rcxp),
  ("int1e_inuc_rxp", true, iv_rxp), ("int1e_spnucsp", true, spvsp), ("int1e_sprinvsp", false, spvsp),
  ("int1e_srnucsr", true, srvsr), ("int1e_gnuc", true, gv), ("int1e_cg_sa10sa01", false, cg_sa10sa01), ("int1e_cg_sa10nucsp", true, cg_sa10vsp),
  ("int1e_giao_sa10sa01", false, giao_sa10sa01), ("int1e_giao_sa10nucsp", true, giao_sa10vsp), ("int1e_sa01sp", false, sa01sp), ("int1e_spgnucsp", true, spgvsp), ("int1e_spgsa01", false, spgsa01),
  ("int1e_iprinvr", false, ipvr),
  ("int1e_iprinviprip", false, ipviprip), ("int1e_rinvipiprip", false, vipiprip), ("int1e_ipiprinvrip", false, ipipvrip)]

end Verif.Spec
