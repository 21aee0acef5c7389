import Verif.Model.Spinor
import Verif.Model.Oper2

/-! Generated by tools/autocode.py from src/autocode: the output functions and the factor of the `_spinor` wrapper of every
integral of Auto2e.lean and of Auto3c2e.lean. -/
namespace Verif.Model.Auto
open Verif.Model

/-- A wrapper int2e_*_spinor or int3c2e_*_spinor: the output functions for the two electrons (`c2s_sf_2e1` ⟨false, false⟩,
`c2s_sf_2e1i` ⟨false, true⟩, `c2s_si_2e1` ⟨true, false⟩, `c2s_si_2e1i` ⟨true, true⟩; likewise `2e2` and, for the only pair,
`3c2e1`), `ng[POS_E1]`, `ng[POS_E2]`, `ng[TENSOR]` and the factor `num/den` of `common_factor`. -/
structure SpWrap where
  name : String
  k1 : SpKind
  k2 : SpKind := ⟨false, false⟩
  e1 : Nat
  e2 : Nat
  nT : Nat
  num : Int := 1
  den : Nat := 1

/-- the integral as the spinor wrapper sets it up: the same `ng` and `f_gout`, its own factor -/
def SpWrap.gen (w : SpWrap) (G : Gen2e) : Gen2e := { G with num := w.num, den := w.den }

/-- the wrappers int2e_*_spinor (CINT2e_spinor_drv) -/
def spinor2e : List SpWrap := [
  { name := "int2e_gauge_r1_ssp1ssp2", k1 := ⟨true, true⟩, k2 := ⟨true, true⟩, e1 := 4, e2 := 4, nT := 1 },
  { name := "int2e_gauge_r1_ssp1sps2", k1 := ⟨true, true⟩, k2 := ⟨true, true⟩, e1 := 4, e2 := 4, nT := 1 },
  { name := "int2e_gauge_r1_sps1ssp2", k1 := ⟨true, true⟩, k2 := ⟨true, true⟩, e1 := 4, e2 := 4, nT := 1 },
  { name := "int2e_gauge_r1_sps1sps2", k1 := ⟨true, true⟩, k2 := ⟨true, true⟩, e1 := 4, e2 := 4, nT := 1 },
  { name := "int2e_gauge_r2_ssp1ssp2", k1 := ⟨true, true⟩, k2 := ⟨true, true⟩, e1 := 4, e2 := 4, nT := 1 },
  { name := "int2e_gauge_r2_ssp1sps2", k1 := ⟨true, true⟩, k2 := ⟨true, true⟩, e1 := 4, e2 := 4, nT := 1 },
  { name := "int2e_gauge_r2_sps1ssp2", k1 := ⟨true, true⟩, k2 := ⟨true, true⟩, e1 := 4, e2 := 4, nT := 1 },
  { name := "int2e_gauge_r2_sps1sps2", k1 := ⟨true, true⟩, k2 := ⟨true, true⟩, e1 := 4, e2 := 4, nT := 1 },
  { name := "int2e_spv1", k1 := ⟨true, false⟩, k2 := ⟨false, false⟩, e1 := 4, e2 := 1, nT := 1 },
  { name := "int2e_vsp1", k1 := ⟨true, false⟩, k2 := ⟨false, false⟩, e1 := 4, e2 := 1, nT := 1 },
  { name := "int2e_spsp2", k1 := ⟨false, false⟩, k2 := ⟨true, false⟩, e1 := 1, e2 := 4, nT := 1 },
  { name := "int2e_spv1spv2", k1 := ⟨true, false⟩, k2 := ⟨true, false⟩, e1 := 4, e2 := 4, nT := 1 },
  { name := "int2e_vsp1spv2", k1 := ⟨true, false⟩, k2 := ⟨true, false⟩, e1 := 4, e2 := 4, nT := 1 },
  { name := "int2e_spv1vsp2", k1 := ⟨true, false⟩, k2 := ⟨true, false⟩, e1 := 4, e2 := 4, nT := 1 },
  { name := "int2e_vsp1vsp2", k1 := ⟨true, false⟩, k2 := ⟨true, false⟩, e1 := 4, e2 := 4, nT := 1 },
  { name := "int2e_spv1spsp2", k1 := ⟨true, false⟩, k2 := ⟨true, false⟩, e1 := 4, e2 := 4, nT := 1 },
  { name := "int2e_vsp1spsp2", k1 := ⟨true, false⟩, k2 := ⟨true, false⟩, e1 := 4, e2 := 4, nT := 1 },
  { name := "int2e_ssp1ssp2", k1 := ⟨true, true⟩, k2 := ⟨true, true⟩, e1 := 4, e2 := 4, nT := 1 },
  { name := "int2e_ssp1sps2", k1 := ⟨true, true⟩, k2 := ⟨true, true⟩, e1 := 4, e2 := 4, nT := 1 },
  { name := "int2e_sps1ssp2", k1 := ⟨true, true⟩, k2 := ⟨true, true⟩, e1 := 4, e2 := 4, nT := 1 },
  { name := "int2e_sps1sps2", k1 := ⟨true, true⟩, k2 := ⟨true, true⟩, e1 := 4, e2 := 4, nT := 1 },
  { name := "int2e_cg_ssa10ssp2", k1 := ⟨true, false⟩, k2 := ⟨true, true⟩, e1 := 4, e2 := 4, nT := 3 },
  { name := "int2e_giao_ssa10ssp2", k1 := ⟨true, false⟩, k2 := ⟨true, true⟩, e1 := 4, e2 := 4, nT := 3 },
  { name := "int2e_gssp1ssp2", k1 := ⟨true, false⟩, k2 := ⟨true, true⟩, e1 := 4, e2 := 4, nT := 3, num := 1, den := 2 },
  { name := "int2e_ip1", k1 := ⟨false, false⟩, k2 := ⟨false, false⟩, e1 := 1, e2 := 1, nT := 3 },
  { name := "int2e_ip2", k1 := ⟨false, false⟩, k2 := ⟨false, false⟩, e1 := 1, e2 := 1, nT := 3 },
  { name := "int2e_ipspsp1", k1 := ⟨true, false⟩, k2 := ⟨false, false⟩, e1 := 4, e2 := 1, nT := 3 },
  { name := "int2e_ip1spsp2", k1 := ⟨false, false⟩, k2 := ⟨true, false⟩, e1 := 1, e2 := 4, nT := 3 },
  { name := "int2e_ipspsp1spsp2", k1 := ⟨true, false⟩, k2 := ⟨true, false⟩, e1 := 4, e2 := 4, nT := 3 },
  { name := "int2e_ipsrsr1", k1 := ⟨true, false⟩, k2 := ⟨false, false⟩, e1 := 4, e2 := 1, nT := 3 },
  { name := "int2e_ip1srsr2", k1 := ⟨false, false⟩, k2 := ⟨true, false⟩, e1 := 1, e2 := 4, nT := 3 },
  { name := "int2e_ipsrsr1srsr2", k1 := ⟨true, false⟩, k2 := ⟨true, false⟩, e1 := 4, e2 := 4, nT := 3 },
  { name := "int2e_ipip1", k1 := ⟨false, false⟩, k2 := ⟨false, false⟩, e1 := 1, e2 := 1, nT := 9 },
  { name := "int2e_ipvip1", k1 := ⟨false, false⟩, k2 := ⟨false, false⟩, e1 := 1, e2 := 1, nT := 9 },
  { name := "int2e_ip1ip2", k1 := ⟨false, false⟩, k2 := ⟨false, false⟩, e1 := 1, e2 := 1, nT := 9 },
  { name := "int2e_ipip1ipip2", k1 := ⟨false, false⟩, k2 := ⟨false, false⟩, e1 := 1, e2 := 1, nT := 81 },
  { name := "int2e_ipvip1ipvip2", k1 := ⟨false, false⟩, k2 := ⟨false, false⟩, e1 := 1, e2 := 1, nT := 81 },
  { name := "int2e_ig1", k1 := ⟨false, false⟩, k2 := ⟨false, false⟩, e1 := 1, e2 := 1, nT := 3, num := 1, den := 2 },
  { name := "int2e_gg1", k1 := ⟨false, false⟩, k2 := ⟨false, false⟩, e1 := 1, e2 := 1, nT := 9, num := 1, den := 4 },
  { name := "int2e_g1g2", k1 := ⟨false, true⟩, k2 := ⟨false, true⟩, e1 := 1, e2 := 1, nT := 9, num := -1, den := 4 },
  { name := "int2e_p1vxp1", k1 := ⟨false, false⟩, k2 := ⟨false, false⟩, e1 := 1, e2 := 1, nT := 3 },
  { name := "int2e_ip1v_rc1", k1 := ⟨false, false⟩, k2 := ⟨false, false⟩, e1 := 1, e2 := 1, nT := 9 },
  { name := "int2e_ip1v_r1", k1 := ⟨false, false⟩, k2 := ⟨false, false⟩, e1 := 1, e2 := 1, nT := 9 },
  { name := "int2e_spsp1", k1 := ⟨true, false⟩, k2 := ⟨false, false⟩, e1 := 4, e2 := 1, nT := 1 },
  { name := "int2e_spsp1spsp2", k1 := ⟨true, false⟩, k2 := ⟨true, false⟩, e1 := 4, e2 := 4, nT := 1 },
  { name := "int2e_srsr1", k1 := ⟨true, false⟩, k2 := ⟨false, false⟩, e1 := 4, e2 := 1, nT := 1 },
  { name := "int2e_srsr1srsr2", k1 := ⟨true, false⟩, k2 := ⟨true, false⟩, e1 := 4, e2 := 4, nT := 1 },
  { name := "int2e_cg_sa10sp1", k1 := ⟨true, true⟩, k2 := ⟨false, false⟩, e1 := 4, e2 := 1, nT := 3, num := 1, den := 2 },
  { name := "int2e_cg_sa10sp1spsp2", k1 := ⟨true, true⟩, k2 := ⟨true, false⟩, e1 := 4, e2 := 4, nT := 3, num := 1, den := 2 },
  { name := "int2e_giao_sa10sp1", k1 := ⟨true, true⟩, k2 := ⟨false, false⟩, e1 := 4, e2 := 1, nT := 3, num := 1, den := 2 },
  { name := "int2e_giao_sa10sp1spsp2", k1 := ⟨true, true⟩, k2 := ⟨true, false⟩, e1 := 4, e2 := 4, nT := 3, num := 1, den := 2 },
  { name := "int2e_g1", k1 := ⟨false, true⟩, k2 := ⟨false, false⟩, e1 := 1, e2 := 1, nT := 3, num := 1, den := 2 },
  { name := "int2e_spgsp1", k1 := ⟨true, true⟩, k2 := ⟨false, false⟩, e1 := 4, e2 := 1, nT := 3, num := 1, den := 2 },
  { name := "int2e_g1spsp2", k1 := ⟨false, true⟩, k2 := ⟨true, false⟩, e1 := 1, e2 := 4, nT := 3, num := 1, den := 2 },
  { name := "int2e_spgsp1spsp2", k1 := ⟨true, true⟩, k2 := ⟨true, false⟩, e1 := 4, e2 := 4, nT := 3, num := 1, den := 2 },
  { name := "int2e_pp1", k1 := ⟨false, false⟩, k2 := ⟨false, false⟩, e1 := 1, e2 := 1, nT := 1 },
  { name := "int2e_pp2", k1 := ⟨false, false⟩, k2 := ⟨false, false⟩, e1 := 1, e2 := 1, nT := 1 },
  { name := "int2e_pp1pp2", k1 := ⟨false, false⟩, k2 := ⟨false, false⟩, e1 := 1, e2 := 1, nT := 1 }]

/-- the wrappers int3c2e_*_spinor (CINT3c2e_spinor_drv, `is_ssc` 0) -/
def spinor3c : List SpWrap := [
  { name := "int3c2e_ip1", k1 := ⟨false, false⟩, e1 := 1, e2 := 1, nT := 3 },
  { name := "int3c2e_ip2", k1 := ⟨false, false⟩, e1 := 1, e2 := 1, nT := 3 },
  { name := "int3c2e_pvp1", k1 := ⟨false, false⟩, e1 := 1, e2 := 1, nT := 1 },
  { name := "int3c2e_pvxp1", k1 := ⟨false, false⟩, e1 := 1, e2 := 1, nT := 3 },
  { name := "int3c2e_ig1", k1 := ⟨false, false⟩, e1 := 1, e2 := 1, nT := 3, num := 1, den := 2 },
  { name := "int3c2e_spsp1", k1 := ⟨true, false⟩, e1 := 4, e2 := 1, nT := 1 },
  { name := "int3c2e_ipspsp1", k1 := ⟨true, false⟩, e1 := 4, e2 := 1, nT := 3 },
  { name := "int3c2e_spsp1ip2", k1 := ⟨true, false⟩, e1 := 4, e2 := 1, nT := 3 },
  { name := "int3c2e_ipip1", k1 := ⟨false, false⟩, e1 := 1, e2 := 1, nT := 9 },
  { name := "int3c2e_ipip2", k1 := ⟨false, false⟩, e1 := 1, e2 := 1, nT := 9 },
  { name := "int3c2e_ipvip1", k1 := ⟨false, false⟩, e1 := 1, e2 := 1, nT := 9 },
  { name := "int3c2e_ip1ip2", k1 := ⟨false, false⟩, e1 := 1, e2 := 1, nT := 9 }]

end Verif.Model.Auto
