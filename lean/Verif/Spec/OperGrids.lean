import Verif.Spec.OperV
import Verif.Spec.GridPot

/-! What the generated integrals on a list of points are named after. -/
namespace Verif.Spec

/-- the catalogue; the potential between bra and ket is that of the charge at the point -/
def defsG : List (String × Def1e) :=
  [("int1e_grids_ip", PotDefs.ipv), ("int1e_grids_ipvip", PotDefs.ipvip), ("int1e_grids_spvsp", PotDefs.spvsp),
   ("int1e_grids_ipip", PotDefs.ipipv)]

end Verif.Spec
