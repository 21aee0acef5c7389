import Verif.Model.F12
import Verif.Model.Auto2e

/-! The derivatives of the integrals over the Yukawa interaction and the Slater-type geminal. -/
namespace Verif.Model

/-- `int2e_yp_X_sph`, `int2e_stg_X_sph` for `int2e_X` in the list: src/cint2e_f12.c:61-95 (ip1), 97-131 (ipip1), 133-167 (ipvip1),
169-203 (ip1ip2).  `ng` is set by the functions themselves, `f_gout` is the function of the integral over the Coulomb interaction of
the same name; `common_factor` is not changed.  The call is `drvF (G.int O)`; `stg` of the call selects the interaction.
The Cartesian and spinor versions do not exist in the code. -/
def f12Derivs : List (String × Gen2e) := [
  ("int2e_ip1", { ng := ⟨1, 0, 0, 0, 0⟩, gbits := 1, nComp := 3, prog := Auto2e.int2e_ip1.prog }),
  ("int2e_ipip1", { ng := ⟨2, 0, 0, 0, 0⟩, gbits := 2, nComp := 9, prog := Auto2e.int2e_ipip1.prog }),
  ("int2e_ipvip1", { ng := ⟨1, 1, 0, 0, 0⟩, gbits := 2, nComp := 9, prog := Auto2e.int2e_ipvip1.prog }),
  ("int2e_ip1ip2", { ng := ⟨1, 0, 1, 0, 0⟩, gbits := 2, nComp := 9, prog := Auto2e.int2e_ip1ip2.prog })]

end Verif.Model
