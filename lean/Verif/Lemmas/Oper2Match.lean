import Verif.Lemmas.Oper2MatchGrad

/-! Every generated two-electron integral against the definition of the same name. -/
namespace Verif.Lemmas
open Verif Verif.Model Verif.Spec

set_option maxRecDepth 100000

theorem match_int2e_spv1 : matches2e Auto2e.int2e_spv1 EriDefs.spv1 = true := by decide +kernel
theorem match_int2e_vsp1 : matches2e Auto2e.int2e_vsp1 EriDefs.vsp1 = true := by decide +kernel
theorem match_int2e_spsp2 : matches2e Auto2e.int2e_spsp2 EriDefs.spsp2 = true := by decide +kernel
theorem match_int2e_spv1spv2 : matches2e Auto2e.int2e_spv1spv2 EriDefs.spv1spv2 = true := by decide +kernel
theorem match_int2e_vsp1spv2 : matches2e Auto2e.int2e_vsp1spv2 EriDefs.vsp1spv2 = true := by decide +kernel
theorem match_int2e_spv1vsp2 : matches2e Auto2e.int2e_spv1vsp2 EriDefs.spv1vsp2 = true := by decide +kernel
theorem match_int2e_vsp1vsp2 : matches2e Auto2e.int2e_vsp1vsp2 EriDefs.vsp1vsp2 = true := by decide +kernel
theorem match_int2e_spv1spsp2 : matches2e Auto2e.int2e_spv1spsp2 EriDefs.spv1spsp2 = true := by decide +kernel
theorem match_int2e_vsp1spsp2 : matches2e Auto2e.int2e_vsp1spsp2 EriDefs.vsp1spsp2 = true := by decide +kernel
theorem match_int2e_ssp1ssp2 : matches2e Auto2e.int2e_ssp1ssp2 EriDefs.ssp1ssp2 = true := by decide +kernel
theorem match_int2e_ssp1sps2 : matches2e Auto2e.int2e_ssp1sps2 EriDefs.ssp1sps2 = true := by decide +kernel
theorem match_int2e_sps1ssp2 : matches2e Auto2e.int2e_sps1ssp2 EriDefs.sps1ssp2 = true := by decide +kernel
theorem match_int2e_sps1sps2 : matches2e Auto2e.int2e_sps1sps2 EriDefs.sps1sps2 = true := by decide +kernel
theorem match_int2e_cg_ssa10ssp2 : matches2e Auto2e.int2e_cg_ssa10ssp2 EriDefs.cg_ssa10ssp2 = true := by decide +kernel
theorem match_int2e_giao_ssa10ssp2 : matches2e Auto2e.int2e_giao_ssa10ssp2 EriDefs.giao_ssa10ssp2 = true := by decide +kernel
theorem match_int2e_gssp1ssp2 : matches2e Auto2e.int2e_gssp1ssp2 EriDefs.gssp1ssp2 = true := by decide +kernel
theorem match_int2e_ip1 : matches2e Auto2e.int2e_ip1 EriDefs.ip1 = true := by decide +kernel
theorem match_int2e_ip2 : matches2e Auto2e.int2e_ip2 EriDefs.ip2 = true := by decide +kernel
theorem match_int2e_ipspsp1 : matches2e Auto2e.int2e_ipspsp1 EriDefs.ipspsp1 = true := by decide +kernel
theorem match_int2e_ip1spsp2 : matches2e Auto2e.int2e_ip1spsp2 EriDefs.ip1spsp2 = true := by decide +kernel
theorem match_int2e_ipspsp1spsp2 : matches2e Auto2e.int2e_ipspsp1spsp2 EriDefs.ipspsp1spsp2 = true := by decide +kernel
theorem match_int2e_ipsrsr1 : matches2e Auto2e.int2e_ipsrsr1 EriDefs.ipsrsr1 = true := by decide +kernel
theorem match_int2e_ip1srsr2 : matches2e Auto2e.int2e_ip1srsr2 EriDefs.ip1srsr2 = true := by decide +kernel
theorem match_int2e_ipsrsr1srsr2 : matches2e Auto2e.int2e_ipsrsr1srsr2 EriDefs.ipsrsr1srsr2 = true := by decide +kernel
theorem match_int2e_ipip1 : matches2e Auto2e.int2e_ipip1 EriDefs.ipip1 = true := by decide +kernel
theorem match_int2e_ipvip1 : matches2e Auto2e.int2e_ipvip1 EriDefs.ipvip1 = true := by decide +kernel
theorem match_int2e_ip1ip2 : matches2e Auto2e.int2e_ip1ip2 EriDefs.ip1ip2 = true := by decide +kernel
theorem match_int2e_ipip1ipip2 : matches2e Auto2e.int2e_ipip1ipip2 EriDefs.ipip1ipip2 = true := by decide +kernel
theorem match_int2e_ipvip1ipvip2 : matches2e Auto2e.int2e_ipvip1ipvip2 EriDefs.ipvip1ipvip2 = true := by decide +kernel
theorem match_int2e_ig1 : matches2e Auto2e.int2e_ig1 EriDefs.ig1 = true := by decide +kernel
theorem match_int2e_gg1 : matches2e Auto2e.int2e_gg1 EriDefs.gg1 = true := by decide +kernel
theorem match_int2e_g1g2 : matches2e Auto2e.int2e_g1g2 EriDefs.g1g2 = true := by decide +kernel
theorem match_int2e_p1vxp1 : matches2e Auto2e.int2e_p1vxp1 EriDefs.p1vxp1 = true := by decide +kernel
theorem match_int2e_spsp1 : matches2e Auto2e.int2e_spsp1 EriDefs.spsp1 = true := by decide +kernel
theorem match_int2e_spsp1spsp2 : matches2e Auto2e.int2e_spsp1spsp2 EriDefs.spsp12 = true := by decide +kernel
theorem match_int2e_srsr1 : matches2e Auto2e.int2e_srsr1 EriDefs.srsr1 = true := by decide +kernel
theorem match_int2e_srsr1srsr2 : matches2e Auto2e.int2e_srsr1srsr2 EriDefs.srsr12 = true := by decide +kernel
theorem match_int2e_cg_sa10sp1 : matches2e Auto2e.int2e_cg_sa10sp1 EriDefs.cg_sa10sp1 = true := by decide +kernel
theorem match_int2e_cg_sa10sp1spsp2 : matches2e Auto2e.int2e_cg_sa10sp1spsp2 EriDefs.cg_sa10sp1spsp2 = true := by decide +kernel
theorem match_int2e_giao_sa10sp1 : matches2e Auto2e.int2e_giao_sa10sp1 EriDefs.giao_sa10sp1 = true := by decide +kernel
theorem match_int2e_giao_sa10sp1spsp2 : matches2e Auto2e.int2e_giao_sa10sp1spsp2 EriDefs.giao_sa10sp1spsp2 = true := by decide +kernel
theorem match_int2e_g1 : matches2e Auto2e.int2e_g1 EriDefs.g1 = true := by decide +kernel
theorem match_int2e_spgsp1 : matches2e Auto2e.int2e_spgsp1 EriDefs.spgsp1 = true := by decide +kernel
theorem match_int2e_g1spsp2 : matches2e Auto2e.int2e_g1spsp2 EriDefs.g1spsp2 = true := by decide +kernel
theorem match_int2e_spgsp1spsp2 : matches2e Auto2e.int2e_spgsp1spsp2 EriDefs.spgsp1spsp2 = true := by decide +kernel
theorem match_int2e_pp1 : matches2e Auto2e.int2e_pp1 EriDefs.pp1 = true := by decide +kernel
theorem match_int2e_pp2 : matches2e Auto2e.int2e_pp2 EriDefs.pp2 = true := by decide +kernel
theorem match_int2e_pp1pp2 : matches2e Auto2e.int2e_pp1pp2 EriDefs.pp1pp2 = true := by decide +kernel

theorem all_match2 : List.Forall (fun x : (String × Gen2e) × (String × Def2e) => matches2e x.1.2 x.2.2 = true) (Auto2e.all2e.zip defs2e) :=
  ⟨match_int2e_gauge_r1_ssp1ssp2,
   match_int2e_gauge_r1_ssp1sps2,
   match_int2e_gauge_r1_sps1ssp2,
   match_int2e_gauge_r1_sps1sps2,
   match_int2e_gauge_r2_ssp1ssp2,
   match_int2e_gauge_r2_ssp1sps2,
   match_int2e_gauge_r2_sps1ssp2,
   match_int2e_gauge_r2_sps1sps2,
   match_int2e_spv1,
   match_int2e_vsp1,
   match_int2e_spsp2,
   match_int2e_spv1spv2,
   match_int2e_vsp1spv2,
   match_int2e_spv1vsp2,
   match_int2e_vsp1vsp2,
   match_int2e_spv1spsp2,
   match_int2e_vsp1spsp2,
   match_int2e_ssp1ssp2,
   match_int2e_ssp1sps2,
   match_int2e_sps1ssp2,
   match_int2e_sps1sps2,
   match_int2e_cg_ssa10ssp2,
   match_int2e_giao_ssa10ssp2,
   match_int2e_gssp1ssp2,
   match_int2e_ip1,
   match_int2e_ip2,
   match_int2e_ipspsp1,
   match_int2e_ip1spsp2,
   match_int2e_ipspsp1spsp2,
   match_int2e_ipsrsr1,
   match_int2e_ip1srsr2,
   match_int2e_ipsrsr1srsr2,
   match_int2e_ipip1,
   match_int2e_ipvip1,
   match_int2e_ip1ip2,
   match_int2e_ipip1ipip2,
   match_int2e_ipvip1ipvip2,
   match_int2e_ig1,
   match_int2e_gg1,
   match_int2e_g1g2,
   match_int2e_p1vxp1,
   match_int2e_ip1v_rc1,
   match_int2e_ip1v_r1,
   match_int2e_spsp1,
   match_int2e_spsp1spsp2,
   match_int2e_srsr1,
   match_int2e_srsr1srsr2,
   match_int2e_cg_sa10sp1,
   match_int2e_cg_sa10sp1spsp2,
   match_int2e_giao_sa10sp1,
   match_int2e_giao_sa10sp1spsp2,
   match_int2e_g1,
   match_int2e_spgsp1,
   match_int2e_g1spsp2,
   match_int2e_spgsp1spsp2,
   match_int2e_pp1,
   match_int2e_pp2,
   match_int2e_pp1pp2⟩

end Verif.Lemmas
