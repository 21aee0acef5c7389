import Verif.Model.Spinor

/-! Generated by tools/autocode.py from src/autocode: the output function of the `_spinor` wrapper of every integral of
Auto1e.lean and of AutoNuc.lean. -/
namespace Verif.Model.Auto
open Verif.Model

/-- name, output function (`c2s_sf_1e` ⟨false, false⟩, `c2s_sf_1ei` ⟨false, true⟩, `c2s_si_1e` ⟨true, false⟩,
`c2s_si_1ei` ⟨true, true⟩), `ng[POS_E1]`, `ng[TENSOR]` of the wrappers int1e_*_spinor -/
def spinor1e : List (String × SpKind × Nat × Nat) := [
  ("int1e_spspsp", ⟨true, false⟩, 4, 1),
  ("int1e_ipovlp", ⟨false, false⟩, 1, 3),
  ("int1e_ovlpip", ⟨false, false⟩, 1, 3),
  ("int1e_ipkin", ⟨false, false⟩, 1, 3),
  ("int1e_kinip", ⟨false, false⟩, 1, 3),
  ("int1e_ipipovlp", ⟨false, false⟩, 1, 9),
  ("int1e_ipovlpip", ⟨false, false⟩, 1, 9),
  ("int1e_ipipkin", ⟨false, false⟩, 1, 9),
  ("int1e_ipkinip", ⟨false, false⟩, 1, 9),
  ("int1e_ipipr", ⟨false, false⟩, 1, 27),
  ("int1e_iprip", ⟨false, false⟩, 1, 27),
  ("int1e_kin", ⟨false, false⟩, 1, 1),
  ("int1e_giao_irjxp", ⟨false, false⟩, 1, 3),
  ("int1e_cg_irxp", ⟨false, false⟩, 1, 3),
  ("int1e_igkin", ⟨false, false⟩, 1, 3),
  ("int1e_igovlp", ⟨false, false⟩, 1, 3),
  ("int1e_z", ⟨false, false⟩, 1, 1),
  ("int1e_zz", ⟨false, false⟩, 1, 1),
  ("int1e_r", ⟨false, false⟩, 1, 3),
  ("int1e_r2", ⟨false, false⟩, 1, 1),
  ("int1e_r4", ⟨false, false⟩, 1, 1),
  ("int1e_rr", ⟨false, false⟩, 1, 9),
  ("int1e_rrr", ⟨false, false⟩, 1, 27),
  ("int1e_rrrr", ⟨false, false⟩, 1, 81),
  ("int1e_z_origj", ⟨false, false⟩, 1, 1),
  ("int1e_zz_origj", ⟨false, false⟩, 1, 1),
  ("int1e_r_origj", ⟨false, false⟩, 1, 3),
  ("int1e_rr_origj", ⟨false, false⟩, 1, 9),
  ("int1e_r2_origj", ⟨false, false⟩, 1, 1),
  ("int1e_r4_origj", ⟨false, false⟩, 1, 1),
  ("int1e_p4", ⟨false, false⟩, 1, 1),
  ("int1e_irp", ⟨false, false⟩, 1, 9),
  ("int1e_irrp", ⟨false, false⟩, 1, 27),
  ("int1e_irpr", ⟨false, false⟩, 1, 27),
  ("int1e_ggovlp", ⟨false, false⟩, 1, 9),
  ("int1e_ggkin", ⟨false, false⟩, 1, 9),
  ("int1e_grjxp", ⟨false, false⟩, 1, 9),
  ("int1e_sigma", ⟨true, true⟩, 4, 3),
  ("int1e_spsigmasp", ⟨true, true⟩, 4, 3),
  ("int1e_srsr", ⟨true, false⟩, 4, 1),
  ("int1e_sr", ⟨true, true⟩, 4, 1),
  ("int1e_srsp", ⟨true, true⟩, 4, 1),
  ("int1e_spsp", ⟨false, false⟩, 1, 1),
  ("int1e_sp", ⟨true, false⟩, 4, 1),
  ("int1e_sprsp", ⟨true, false⟩, 4, 3),
  ("int1e_govlp", ⟨false, true⟩, 1, 3),
  ("int1e_cg_sa10sp", ⟨true, true⟩, 4, 3),
  ("int1e_giao_sa10sp", ⟨true, true⟩, 4, 3),
  ("int1e_spgsp", ⟨true, true⟩, 4, 3),
  ("int1e_r2_origi", ⟨false, false⟩, 1, 1),
  ("int1e_r4_origi", ⟨false, false⟩, 1, 1),
  ("int1e_r2_origi_ip2", ⟨false, false⟩, 1, 3),
  ("int1e_r4_origi_ip2", ⟨false, false⟩, 1, 3)]

/-- the same for the integrals of AutoNuc.lean -/
def spinorV : List (String × SpKind × Nat × Nat) := [
  ("int1e_ipipipnuc", ⟨false, false⟩, 1, 27),
  ("int1e_ipipiprinv", ⟨false, false⟩, 1, 27),
  ("int1e_ipipnucip", ⟨false, false⟩, 1, 27),
  ("int1e_ipiprinvip", ⟨false, false⟩, 1, 27),
  ("int1e_ipiprinvipip", ⟨false, false⟩, 1, 81),
  ("int1e_ipipiprinvip", ⟨false, false⟩, 1, 81),
  ("int1e_ipipipiprinv", ⟨false, false⟩, 1, 81),
  ("int1e_spnuc", ⟨true, false⟩, 4, 1),
  ("int1e_ipnuc", ⟨false, false⟩, 1, 3),
  ("int1e_iprinv", ⟨false, false⟩, 1, 3),
  ("int1e_ipspnucsp", ⟨true, false⟩, 4, 3),
  ("int1e_ipsprinvsp", ⟨true, false⟩, 4, 3),
  ("int1e_ippnucp", ⟨false, false⟩, 1, 3),
  ("int1e_ipprinvp", ⟨false, false⟩, 1, 3),
  ("int1e_ipipnuc", ⟨false, false⟩, 1, 9),
  ("int1e_ipnucip", ⟨false, false⟩, 1, 9),
  ("int1e_ipiprinv", ⟨false, false⟩, 1, 9),
  ("int1e_iprinvip", ⟨false, false⟩, 1, 9),
  ("int1e_ipippnucp", ⟨false, false⟩, 1, 9),
  ("int1e_ippnucpip", ⟨false, false⟩, 1, 9),
  ("int1e_ipipprinvp", ⟨false, false⟩, 1, 9),
  ("int1e_ipprinvpip", ⟨false, false⟩, 1, 9),
  ("int1e_ipipspnucsp", ⟨true, false⟩, 4, 9),
  ("int1e_ipspnucspip", ⟨true, false⟩, 4, 9),
  ("int1e_ipipsprinvsp", ⟨true, false⟩, 4, 9),
  ("int1e_ipsprinvspip", ⟨true, false⟩, 4, 9),
  ("int1e_ia01p", ⟨false, false⟩, 1, 3),
  ("int1e_giao_a11part", ⟨false, false⟩, 1, 9),
  ("int1e_cg_a11part", ⟨false, false⟩, 1, 9),
  ("int1e_ignuc", ⟨false, false⟩, 1, 3),
  ("int1e_pnucp", ⟨false, false⟩, 1, 1),
  ("int1e_prinvp", ⟨false, false⟩, 1, 1),
  ("int1e_prinvxp", ⟨false, false⟩, 1, 3),
  ("int1e_pnucxp", ⟨false, false⟩, 1, 3),
  ("int1e_ggnuc", ⟨false, false⟩, 1, 9),
  ("int1e_rinv", ⟨false, false⟩, 1, 1),
  ("int1e_drinv", ⟨false, false⟩, 1, 3),
  ("int1e_inuc_rcxp", ⟨false, false⟩, 1, 3),
  ("int1e_inuc_rxp", ⟨false, false⟩, 1, 3),
  ("int1e_spnucsp", ⟨true, false⟩, 4, 1),
  ("int1e_sprinvsp", ⟨true, false⟩, 4, 1),
  ("int1e_srnucsr", ⟨true, false⟩, 4, 1),
  ("int1e_gnuc", ⟨false, true⟩, 1, 3),
  ("int1e_cg_sa10sa01", ⟨true, false⟩, 4, 9),
  ("int1e_cg_sa10nucsp", ⟨true, true⟩, 4, 3),
  ("int1e_giao_sa10sa01", ⟨true, false⟩, 4, 9),
  ("int1e_giao_sa10nucsp", ⟨true, true⟩, 4, 3),
  ("int1e_sa01sp", ⟨true, true⟩, 4, 3),
  ("int1e_spgnucsp", ⟨true, true⟩, 4, 3),
  ("int1e_spgsa01", ⟨true, false⟩, 4, 9),
  ("int1e_iprinvr", ⟨false, false⟩, 1, 9),
  ("int1e_iprinviprip", ⟨false, false⟩, 1, 81),
  ("int1e_rinvipiprip", ⟨false, false⟩, 1, 81),
  ("int1e_ipiprinvrip", ⟨false, false⟩, 1, 81)]

end Verif.Model.Auto
