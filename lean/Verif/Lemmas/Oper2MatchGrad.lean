import Verif.Lemmas.Oper2Key

/-! The generated two-electron integrals with the gradient of the interaction against the definitions of the same names. -/
namespace Verif.Lemmas
open Verif Verif.Model Verif.Spec

set_option maxRecDepth 100000

theorem match_int2e_gauge_r1_ssp1ssp2 : matches2e Auto2e.int2e_gauge_r1_ssp1ssp2 EriDefs.gauge_r1_ssp1ssp2 = true := by decide +kernel
theorem match_int2e_gauge_r1_ssp1sps2 : matches2e Auto2e.int2e_gauge_r1_ssp1sps2 EriDefs.gauge_r1_ssp1sps2 = true := by decide +kernel
theorem match_int2e_gauge_r1_sps1ssp2 : matches2e Auto2e.int2e_gauge_r1_sps1ssp2 EriDefs.gauge_r1_sps1ssp2 = true := by decide +kernel
theorem match_int2e_gauge_r1_sps1sps2 : matches2e Auto2e.int2e_gauge_r1_sps1sps2 EriDefs.gauge_r1_sps1sps2 = true := by decide +kernel
theorem match_int2e_gauge_r2_ssp1ssp2 : matches2e Auto2e.int2e_gauge_r2_ssp1ssp2 EriDefs.gauge_r2_ssp1ssp2 = true := by decide +kernel
theorem match_int2e_gauge_r2_ssp1sps2 : matches2e Auto2e.int2e_gauge_r2_ssp1sps2 EriDefs.gauge_r2_ssp1sps2 = true := by decide +kernel
theorem match_int2e_gauge_r2_sps1ssp2 : matches2e Auto2e.int2e_gauge_r2_sps1ssp2 EriDefs.gauge_r2_sps1ssp2 = true := by decide +kernel
theorem match_int2e_gauge_r2_sps1sps2 : matches2e Auto2e.int2e_gauge_r2_sps1sps2 EriDefs.gauge_r2_sps1sps2 = true := by decide +kernel
theorem match_int2e_ip1v_rc1 : matches2e Auto2e.int2e_ip1v_rc1 EriDefs.ip1v_rc1 = true := by decide +kernel
theorem match_int2e_ip1v_r1 : matches2e Auto2e.int2e_ip1v_r1 EriDefs.ip1v_r1 = true := by decide +kernel

end Verif.Lemmas
