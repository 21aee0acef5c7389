{
 "claims": [
  {
   "property": "C01",
   "status": "proved",
   "theorems": [
    "Verif.Props.C01_cart_comp",
    "Verif.Props.C01_cart_max",
    "Verif.Props.C01_len_cart"
   ],
   "note": ""
  },
  {
   "property": "C02",
   "status": "proved",
   "theorems": [
    "Verif.Props.C02_offsets_tile",
    "Verif.Props.C02_cart",
    "Verif.Props.C02_spheric",
    "Verif.Props.C02_spinor",
    "Verif.Props.C02_empty_basis_writes"
   ],
   "note": ""
  },
  {
   "property": "C03",
   "status": "proved",
   "theorems": [
    "Verif.Props.C03_spinor_size",
    "Verif.Props.C03_kappa0"
   ],
   "note": ""
  },
  {
   "property": "C04",
   "status": "proved",
   "theorems": [
    "Verif.Props.C04_transpose",
    "Verif.Props.C04_plus_transpose",
    "Verif.Props.C04_ztranspose",
    "Verif.Props.C04_zdagger",
    "Verif.Props.C04_transpose_involutive"
   ],
   "note": ""
  },
  {
   "property": "C05",
   "status": "proved",
   "theorems": [
    "Verif.Props.C05_gemm_NN1",
    "Verif.Props.C05_gemm_TN",
    "Verif.Props.C05_gemm_NT",
    "Verif.Props.C05_gemm_is_matrix_mul"
   ],
   "note": ""
  },
  {
   "property": "C06",
   "status": "proved",
   "theorems": [
    "Verif.Props.C06_table",
    "Verif.Props.C06_first",
    "Verif.Props.C06_sparse_is_dense",
    "Verif.Props.C06_dense"
   ],
   "note": ""
  },
  {
   "property": "C07",
   "status": "proved",
   "theorems": [
    "Verif.Props.C07_table_two",
    "Verif.Props.C07_table_four",
    "Verif.Props.C07_table_three",
    "Verif.Props.C07_slab_int1e",
    "Verif.Props.C07_slab_grids",
    "Verif.Props.C07_slab_int2c2e",
    "Verif.Props.C07_slab_int2e",
    "Verif.Props.C07_slab_int4c1e",
    "Verif.Props.C07_slab_int3c2e",
    "Verif.Props.C07_slab_int3c1e",
    "Verif.Props.C07_entry_in_slab",
    "Verif.Props.C07_int2e",
    "Verif.Props.C07_shapes"
   ],
   "note": ""
  },
  {
   "property": "C08",
   "status": "proved",
   "theorems": [
    "Verif.Props.C08_loop",
    "Verif.Props.C08_empty_pair"
   ],
   "note": ""
  },
  {
   "property": "C09",
   "status": "proved",
   "theorems": [
    "Verif.Props.C09_loop_nopt",
    "Verif.Props.C09_empty_pair"
   ],
   "note": ""
  },
  {
   "property": "C10",
   "status": "proved",
   "theorems": [
    "Verif.Props.C10_general_loop",
    "Verif.Props.C10_dispatch",
    "Verif.Props.C10_dispatch_eq_general"
   ],
   "note": ""
  },
  {
   "property": "C11",
   "status": "partial",
   "theorems": [
    "Verif.Props.C11_two_centre_build",
    "Verif.Props.C11_two_centre_cart",
    "Verif.Props.C11_two_centre_sph",
    "Verif.Props.C11_build",
    "Verif.Props.C11_same_kept_cart_partial",
    "Verif.Props.C11_same_kept_sph_partial",
    "Verif.Props.C11_cart_partial",
    "Verif.Props.C11_sph_partial",
    "Verif.Props.C11_differs",
    "Verif.Props.C11_three_centre_build",
    "Verif.Props.C11_three_centre_cart",
    "Verif.Props.C11_three_centre_sph",
    "Verif.Props.C11_spinor_partial",
    "Verif.Props.C11_three_centre_spinor",
    "Verif.Props.C11_two_centre_spinor",
    "Verif.Props.C11_ssc_spinor"
   ],
   "note": "false of the code as stated: C11_differs exhibits a basis and a cutoff for which int2e_cart returns 0 with the optimizer and a positive number without. C11_cart_partial / C11_sph_partial prove equality for int2e when no pair estimate falls between the two cutoffs and omega >= 0; C11_same_kept_* for any omega when both screenings keep the same quartets. Two-centre integrals: proved without restriction (C11_two_centre_*). Three-centre integrals: proved for every integral with kinc <= iinc+jinc (int3c2e, ip1, ipip1, ...), the returned number excepted when the first shell's pair with itself is negligible (C11_three_centre_*); for integrals with more derivatives on the third function (ip2) the table screens with a larger increment and equality is not claimed. Spinor output: C11_spinor_partial, C11_three_centre_spinor, C11_two_centre_spinor."
  },
  {
   "property": "C12",
   "status": "proved",
   "theorems": [
    "Verif.Props.C12_pair_table",
    "Verif.Props.C12_no_table",
    "Verif.Props.C12_recompute"
   ],
   "note": ""
  },
  {
   "property": "C13",
   "status": "proved",
   "theorems": [
    "Verif.Props.C13_cutoff_2e",
    "Verif.Props.C13_cutoff_three_centre",
    "Verif.Props.C13_cutoff_two_centre",
    "Verif.Props.C13_cutoff_optimizer",
    "Verif.Props.C13_cutoff_f12",
    "Verif.Props.C13_dropped_negligible",
    "Verif.Props.C13_empty_pair_negligible",
    "Verif.Props.C13_kept_exact",
    "Verif.Props.C13_contracted_error"
   ],
   "note": ""
  },
  {
   "property": "C14",
   "status": "proved",
   "theorems": [
    "Verif.Props.C14_2c2e_cart",
    "Verif.Props.C14_2c2e_sph",
    "Verif.Props.C14_2c2e_loop",
    "Verif.Props.C14_2c2e_opt_cart",
    "Verif.Props.C14_2c2e_opt_sph",
    "Verif.Props.C14_2c2e_opt_loop",
    "Verif.Props.C14_loop",
    "Verif.Props.C14_cart",
    "Verif.Props.C14_sph",
    "Verif.Props.C14_spinor",
    "Verif.Props.C14_two_centre_spinor",
    "Verif.Props.C14_two_centre_opt_spinor"
   ],
   "note": "one-electron driver (overlap, nuclear attraction and all generated overlap-like integrals: every integral whose integrand evaluates correctly) and two-centre two-electron driver, Cartesian, spherical and spinor output; two-centre also with optimizer."
  },
  {
   "property": "C15",
   "status": "proved",
   "theorems": [
    "Verif.Props.C15_cart",
    "Verif.Props.C15_sph",
    "Verif.Props.C15_loop",
    "Verif.Props.C15_opt_cart",
    "Verif.Props.C15_opt_sph",
    "Verif.Props.C15_spinor",
    "Verif.Props.C15_opt_spinor"
   ],
   "note": "drivers without and with optimizer (built by CINTall_2e_optimizer's model), Cartesian, spherical and spinor output, for every integral whose integrand evaluates correctly (shown for electron repulsion)."
  },
  {
   "property": "C16",
   "status": "partial",
   "theorems": [
    "Verif.Props.C16_3c2e_cart",
    "Verif.Props.C16_3c2e_sph",
    "Verif.Props.C16_3c2e_loop",
    "Verif.Props.C16_grids_cart",
    "Verif.Props.C16_grids_sph",
    "Verif.Props.C16_grids_spinor",
    "Verif.Props.C16_3c1e_cart",
    "Verif.Props.C16_3c1e_sph",
    "Verif.Props.C16_3c1e_loop",
    "Verif.Props.C16_3c1e_overrun",
    "Verif.Props.C16_4c1e_cart",
    "Verif.Props.C16_4c1e_sph",
    "Verif.Props.C16_4c1e_fits",
    "Verif.Props.C16_4c1e_overrun",
    "Verif.Props.C16_4c1e_s_shells",
    "Verif.Props.C16_4c1e_too_small",
    "Verif.Props.C16_grids_operators",
    "Verif.Props.C16_3c2e_opt_cart",
    "Verif.Props.C16_3c2e_opt_sph",
    "Verif.Props.C16_3c2e_opt_loop",
    "Verif.Props.C16_3c2e_spinor",
    "Verif.Props.C16_3c2e_opt_spinor",
    "Verif.Props.C16_3c2e_ssc_spinor",
    "Verif.Props.C16_3c2e_ssc_opt_spinor"
   ],
   "note": "three-centre two-electron driver without and with optimizer, three-centre one-electron driver and driver for lists of points, Cartesian and spherical output, for every integral whose integrand evaluates correctly (shown for electron repulsion, overlap, rinv and int1e_grids). For the three-centre one-electron driver the property is false when FINT has the size of double (C16_3c1e_overrun) and proved for two FINTs per double. Spinor output of the three-centre driver without and with optimizer proved (C16_3c2e_spinor, C16_3c2e_opt_spinor; with Cartesian third index C16_3c2e_ssc_spinor, C16_3c2e_ssc_opt_spinor); spinor output on lists of points proved (C16_grids_spinor). One-electron integrals over four functions: the property is false (C16_4c1e_overrun: ordinary contracted s shells); C16_4c1e_fits proves it for quartets with few contractions and primitives, C16_4c1e_cart and C16_4c1e_sph that a cache of the size actually used suffices."
  },
  {
   "property": "C17",
   "status": "partial",
   "theorems": [
    "Verif.Props.C17_grids_cart",
    "Verif.Props.C17_grids_sph",
    "Verif.Props.C17_grids_spinor",
    "Verif.Props.C17_grids_operators",
    "Verif.Props.C17_cartesian_placement",
    "Verif.Props.C17_null_dims",
    "Verif.Props.C17_spherical_null_dims"
   ],
   "note": "Cartesian, spherical and spinor output of two-, three- and four-index integrals (spinor: C49_one_electron, C49_two_centre, C49_three_centre, C49_two_electron, whose elements are placed by dims) and of integrals on lists of points (also C17_grids_spinor), for all shapes; spinor ssc output: C20_spinor, C18_ssc_spinor. Partial because int3c2e_sph_ssc violates the property (C20_ssc_overrun)."
  },
  {
   "property": "C18",
   "status": "partial",
   "theorems": [
    "Verif.Props.C18_four_centre_cart",
    "Verif.Props.C18_four_centre_sph",
    "Verif.Props.C18_two_centre_cart",
    "Verif.Props.C18_two_centre_sph",
    "Verif.Props.C18_three_centre_cart",
    "Verif.Props.C18_three_centre_sph",
    "Verif.Props.C18_grids_cart",
    "Verif.Props.C18_grids_sph",
    "Verif.Props.C18_grids_dims_overread",
    "Verif.Props.C18_grids_spinor",
    "Verif.Props.C18_3c1e_cart",
    "Verif.Props.C18_3c1e_sph",
    "Verif.Props.C18_4c1e_cart",
    "Verif.Props.C18_4c1e_sph",
    "Verif.Props.C18_grids_operators",
    "Verif.Props.C18_grids_operators_spinor",
    "Verif.Props.C18_opt_cart",
    "Verif.Props.C18_opt_sph",
    "Verif.Props.C18_three_centre_opt_cart",
    "Verif.Props.C18_three_centre_opt_sph",
    "Verif.Props.C18_overwritten",
    "Verif.Props.C18_zero_block",
    "Verif.Props.C18_two_index_dims_over_read",
    "Verif.Props.C18_spherical_overwritten",
    "Verif.Props.C18_one_electron_sph",
    "Verif.Props.C18_one_electron_spinor",
    "Verif.Props.C18_four_centre_spinor",
    "Verif.Props.C18_three_centre_spinor",
    "Verif.Props.C18_two_centre_spinor",
    "Verif.Props.C18_opt_spinor",
    "Verif.Props.C18_three_centre_opt_spinor",
    "Verif.Props.C18_two_centre_opt_spinor",
    "Verif.Props.C18_two_centre_opt_cart",
    "Verif.Props.C18_two_centre_opt_sph",
    "Verif.Props.C18_ssc_spinor",
    "Verif.Props.C18_ssc_opt_spinor"
   ],
   "note": "zero block and overwriting for Cartesian, spherical and spinor output of the one-, two-, three- and four-centre drivers without and with optimizer, int3c1e, and integrals on lists of points. Partial only because two-index drivers and integrals on lists of points read dims[2] and dims[3] when the block is zero (C18_two_index_dims_over_read, C18_grids_dims_overread): the theorems assume that these can be read."
  },
  {
   "property": "C19",
   "status": "proved",
   "theorems": [
    "Verif.Props.C19_four_centre",
    "Verif.Props.C19_two_centre",
    "Verif.Props.C19_three_centre",
    "Verif.Props.C19_grids",
    "Verif.Props.C19_3c1e",
    "Verif.Props.C19_4c1e",
    "Verif.Props.C19_grids_operators",
    "Verif.Props.C19_bra",
    "Verif.Props.C19_ket",
    "Verif.Props.C19_ket1",
    "Verif.Props.C19_harmonics",
    "Verif.Props.C19_spherical_block",
    "Verif.Props.C19_one_electron"
   ],
   "note": ""
  },
  {
   "property": "C20",
   "status": "partial",
   "theorems": [
    "Verif.Props.C20_ssc_block_partial",
    "Verif.Props.C20_ssc_overrun",
    "Verif.Props.C20_ssc_zero_fill_overrun",
    "Verif.Props.C20_spinor",
    "Verif.Props.C20_spinor_opt",
    "Verif.Props.C20_spinor_eri",
    "Verif.Props.C20_spinor_operators"
   ],
   "note": "false of the code in general: C20_ssc_overrun and C20_ssc_zero_fill_overrun prove stores outside the block for every shape with l_i >= 2 and two contractions, and for zero results with a d or higher shell; C20_ssc_block_partial proves the property in the remaining cases. Spinor output (int3c2e_spinor_ssc, int3c2e_spsp1_spinor_ssc): proved without restriction, without and with an optimizer (C20_spinor, C20_spinor_opt, C20_spinor_eri, C20_spinor_operators)."
  },
  {
   "property": "C21",
   "status": "proved",
   "theorems": [
    "Verif.Props.C21_overlap",
    "Verif.Props.C21_overlap_exact",
    "Verif.Props.C21_overlap_spherical"
   ],
   "note": ""
  },
  {
   "property": "C22",
   "status": "proved",
   "theorems": [
    "Verif.Props.C22_symmetric",
    "Verif.Props.C22_symmetric_spherical"
   ],
   "note": ""
  },
  {
   "property": "C23",
   "status": "proved",
   "theorems": [
    "Verif.Props.C23_translation",
    "Verif.Props.C23_pairdata"
   ],
   "note": ""
  },
  {
   "property": "C24",
   "status": "proved",
   "theorems": [
    "Verif.Props.C24_derivative",
    "Verif.Props.C24_position"
   ],
   "note": ""
  },
  {
   "property": "C25",
   "status": "proved",
   "theorems": [
    "Verif.Props.C25_kinetic"
   ],
   "note": ""
  },
  {
   "property": "C26",
   "status": "proved",
   "theorems": [
    "Verif.Props.C26_transfer",
    "Verif.Props.C26_any_base"
   ],
   "note": ""
  },
  {
   "property": "C27",
   "status": "proved",
   "theorems": [
    "Verif.Props.C27_unrolled"
   ],
   "note": ""
  },
  {
   "property": "C28",
   "status": "proved",
   "theorems": [
    "Verif.Props.C28_recursion",
    "Verif.Props.C28_intermediates",
    "Verif.Props.C28_moments",
    "Verif.Props.C28_coefficients"
   ],
   "note": ""
  },
  {
   "property": "C29",
   "status": "proved",
   "theorems": [
    "Verif.Props.C29_two_centre_swap",
    "Verif.Props.C29_three_centre_swap",
    "Verif.Props.C29_swap_ij",
    "Verif.Props.C29_swap_kl",
    "Verif.Props.C29_swap_electrons",
    "Verif.Props.C29_spherical"
   ],
   "note": ""
  },
  {
   "property": "C30",
   "status": "proved",
   "theorems": [
    "Verif.Props.C30_nuc",
    "Verif.Props.C30_nuc_exact",
    "Verif.Props.C30_additive",
    "Verif.Props.C30_nuc_spherical",
    "Verif.Props.C30_nuc_spinor"
   ],
   "note": ""
  },
  {
   "property": "C31",
   "status": "proved",
   "theorems": [
    "Verif.Props.C31_grids_cart",
    "Verif.Props.C31_grids_sph",
    "Verif.Props.C31_one_by_one",
    "Verif.Props.C31_grids_spinor",
    "Verif.Props.C31_grids_operators"
   ],
   "note": ""
  },
  {
   "property": "C32",
   "status": "proved",
   "theorems": [
    "Verif.Props.C32_boys",
    "Verif.Props.C32_order_limit"
   ],
   "note": ""
  },
  {
   "property": "C33",
   "status": "proved",
   "theorems": [
    "Verif.Props.C33_interleaving",
    "Verif.Props.C33_completes",
    "Verif.Props.C33_calls",
    "Verif.Props.C33_repulsion"
   ],
   "note": "drivers without optimizer: one-electron integrals and int2e, Cartesian and spherical; basis data are parameters of the calls, dims and the transformation table are shared memory. The interleaving theorem itself is for arbitrary programs."
  },
  {
   "property": "C34",
   "status": "proved",
   "theorems": [
    "Verif.Props.C34_history",
    "Verif.Props.C34_delete_null",
    "Verif.Props.C34_delete_clears"
   ],
   "note": ""
  },
  {
   "property": "C35",
   "status": "proved",
   "theorems": [
    "Verif.Props.C35_roots_fit",
    "Verif.Props.C35_coefficients_fit",
    "Verif.Props.C35_roots_overrun",
    "Verif.Props.C35_roots_int2e",
    "Verif.Props.C35_roots_int3c2e",
    "Verif.Props.C35_roots_int2c2e",
    "Verif.Props.C35_roots_int1e",
    "Verif.Props.C35_roots_grids",
    "Verif.Props.C35_documented",
    "Verif.Props.C35_documented_fewer",
    "Verif.Props.C35_components"
   ],
   "note": ""
  },
  {
   "property": "C36",
   "status": "proved",
   "theorems": [
    "Verif.Props.C36_norm",
    "Verif.Props.C36_norm_pos"
   ],
   "note": ""
  },
  {
   "property": "C37",
   "status": "proved",
   "theorems": [
    "Verif.Props.C37_eri",
    "Verif.Props.C37_overlap"
   ],
   "note": ""
  },
  {
   "property": "C38",
   "status": "proved",
   "theorems": [
    "Verif.Props.C38_two_centre",
    "Verif.Props.C38_three_centre",
    "Verif.Props.C38_range_separation",
    "Verif.Props.C38_grids"
   ],
   "note": ""
  },
  {
   "property": "C39",
   "status": "proved",
   "theorems": [
    "Verif.Props.C39_one_electron_cart",
    "Verif.Props.C39_one_electron_sph",
    "Verif.Props.C39_four_centre_cart",
    "Verif.Props.C39_four_centre_sph",
    "Verif.Props.C39_two_centre_cart",
    "Verif.Props.C39_two_centre_sph",
    "Verif.Props.C39_three_centre_cart",
    "Verif.Props.C39_three_centre_sph",
    "Verif.Props.C39_three_functions_cart",
    "Verif.Props.C39_three_functions_sph",
    "Verif.Props.C39_four_centre_opt_cart",
    "Verif.Props.C39_four_centre_opt_sph",
    "Verif.Props.C39_three_centre_opt_cart",
    "Verif.Props.C39_three_centre_opt_sph",
    "Verif.Props.C39_two_centre_opt_cart",
    "Verif.Props.C39_two_centre_opt_sph",
    "Verif.Props.C39_four_centre_opt_spinor",
    "Verif.Props.C39_three_centre_opt_spinor",
    "Verif.Props.C39_two_centre_opt_spinor",
    "Verif.Props.C39_one_electron_spinor",
    "Verif.Props.C39_four_centre_spinor",
    "Verif.Props.C39_three_centre_spinor",
    "Verif.Props.C39_two_centre_spinor",
    "Verif.Props.C39_four_functions_cart",
    "Verif.Props.C39_four_functions_sph",
    "Verif.Props.C39_grids_cart",
    "Verif.Props.C39_grids_sph",
    "Verif.Props.C39_grids_spinor"
   ],
   "note": "Every integral of the model: one-, two-, three-, four-centre, three and four functions, grids; Cartesian, spherical, spinor; without an optimizer (C39_*_cart, _sph, _spinor) and with one (C39_*_opt_*). That malloc gives the block it is asked for is a hypothesis (failure of malloc is not modelled)."
  },
  {
   "property": "C40",
   "status": "proved",
   "theorems": [
    "Verif.Props.C40_loop"
   ],
   "note": ""
  },
  {
   "property": "C41",
   "status": "proved",
   "theorems": [
    "Verif.Props.C41_loop_nopt",
    "Verif.Props.C41_dispatch",
    "Verif.Props.C41_dispatch_eq_general"
   ],
   "note": ""
  },
  {
   "property": "C42",
   "status": "proved",
   "theorems": [
    "Verif.Props.C42_boys_lower",
    "Verif.Props.C42_lower_zero"
   ],
   "note": ""
  },
  {
   "property": "C43",
   "status": "proved",
   "theorems": [
    "Verif.Props.C43_operators",
    "Verif.Props.C43_operators_exact",
    "Verif.Props.C43_catalogue",
    "Verif.Props.C43_same_shell",
    "Verif.Props.C43_spsp_spin_part",
    "Verif.Props.C43_operators_spherical",
    "Verif.Props.C43_spinor_catalogue",
    "Verif.Props.C43_operators_spinor"
   ],
   "note": ""
  },
  {
   "property": "C44",
   "status": "proved",
   "theorems": [
    "Verif.Props.C44_eri",
    "Verif.Props.C44_eri_exact",
    "Verif.Props.C44_eri_spherical",
    "Verif.Props.C44_with_optimizer"
   ],
   "note": ""
  },
  {
   "property": "C45",
   "status": "proved",
   "theorems": [
    "Verif.Props.C45_three_centre",
    "Verif.Props.C45_three_centre_exact",
    "Verif.Props.C45_three_centre_spherical",
    "Verif.Props.C45_three_centre_with_optimizer"
   ],
   "note": ""
  },
  {
   "property": "C46",
   "status": "proved",
   "theorems": [
    "Verif.Props.C46_two_centre",
    "Verif.Props.C46_two_centre_exact",
    "Verif.Props.C46_two_centre_full_or_long",
    "Verif.Props.C46_two_centre_spherical"
   ],
   "note": ""
  },
  {
   "property": "C47",
   "status": "proved",
   "theorems": [
    "Verif.Props.C47_cart",
    "Verif.Props.C47_cart_exact",
    "Verif.Props.C47_spherical",
    "Verif.Props.C47_swap_ij",
    "Verif.Props.C47_swap_jk"
   ],
   "note": ""
  },
  {
   "property": "C48",
   "status": "proved",
   "theorems": [
    "Verif.Props.C48_grids",
    "Verif.Props.C48_grids_exact",
    "Verif.Props.C48_grids_spherical",
    "Verif.Props.C48_symmetric",
    "Verif.Props.C48_grids_two_component"
   ],
   "note": ""
  },
  {
   "property": "C49",
   "status": "proved",
   "theorems": [
    "Verif.Props.C49_grids",
    "Verif.Props.C49_orders",
    "Verif.Props.C49_harmonics",
    "Verif.Props.C49_one_electron",
    "Verif.Props.C49_high_l",
    "Verif.Props.C49_overlap",
    "Verif.Props.C49_two_electron",
    "Verif.Props.C49_two_electron_opt",
    "Verif.Props.C49_eri",
    "Verif.Props.C49_three_centre",
    "Verif.Props.C49_two_centre",
    "Verif.Props.C49_three_centre_eri",
    "Verif.Props.C49_two_centre_eri",
    "Verif.Props.C49_three_centre_opt"
   ],
   "note": "one-, two-, three- and four-centre integrals and integrals on lists of points; int1e_ovlp_spinor, int1e_nuc_spinor (C30_nuc_spinor), int1e_grids_spinor (C48_grids_two_component) and all generated one-electron integrals (C43, C50), int2e_spinor (also with optimizer), int3c2e_spinor, int2c2e_spinor as integrals over two-component functions; tables checked entry by entry in the kernel."
  },
  {
   "property": "C50",
   "status": "proved",
   "theorems": [
    "Verif.Props.C50_potential",
    "Verif.Props.C50_potential_exact",
    "Verif.Props.C50_catalogue",
    "Verif.Props.C50_same_shell",
    "Verif.Props.C50_gradient",
    "Verif.Props.C50_drinv",
    "Verif.Props.C50_potential_spherical",
    "Verif.Props.C50_spinor_catalogue",
    "Verif.Props.C50_potential_spinor"
   ],
   "note": "54 generated integrals with nuc or rinv potential or its gradient, Cartesian, spherical and spinor output, exact root finder assumed; int1e_a01gp is not translated (DESIGN.md observation 25); the gradient of the potential is meant after partial integration, which C50_gradient shows to be the derivative with respect to the position of the charge (C50_drinv for int1e_drinv)."
  },
  {
   "property": "C51",
   "status": "proved",
   "theorems": [
    "Verif.Props.C51_repulsion",
    "Verif.Props.C51_repulsion_exact",
    "Verif.Props.C51_spherical",
    "Verif.Props.C51_catalogue",
    "Verif.Props.C51_same_shell",
    "Verif.Props.C51_same_shell_kl",
    "Verif.Props.C51_spinor_catalogue",
    "Verif.Props.C51_spinor",
    "Verif.Props.C51_spinor_same_shell"
   ],
   "note": "58 generated four-centre integrals (with the gauge integrals of the Breit interaction), Cartesian, spherical and spinor output (C51_spinor: over two-component functions, with the operators as 2x2 matrices for each electron), exact root finder assumed; int2e_ipvg1_xp1 and int2e_ipvg2_xp1 are not translated (DESIGN.md observation 25); the gradient of the interaction is meant after partial integration."
  },
  {
   "property": "C52",
   "status": "proved",
   "theorems": [
    "Verif.Props.C52_two_centre",
    "Verif.Props.C52_two_centre_exact",
    "Verif.Props.C52_two_centre_spherical",
    "Verif.Props.C52_three_centre",
    "Verif.Props.C52_three_centre_exact",
    "Verif.Props.C52_three_centre_spherical",
    "Verif.Props.C52_catalogue",
    "Verif.Props.C52_same_shell",
    "Verif.Props.C52_spinor_catalogue",
    "Verif.Props.C52_spinor",
    "Verif.Props.C52_spinor_same_shell"
   ],
   "note": "12 generated three-centre (Cartesian, spherical and spinor output) and 4 generated two-centre repulsion integrals (the library has no spinor version of these), exact root finder assumed."
  },
  {
   "property": "C53",
   "status": "proved",
   "theorems": [
    "Verif.Props.C53_cart",
    "Verif.Props.C53_cart_exact",
    "Verif.Props.C53_spherical",
    "Verif.Props.C53_swap_ij",
    "Verif.Props.C53_swap_jk",
    "Verif.Props.C53_swap_kl"
   ],
   "note": "int4c1e_cart and int4c1e_sph without restriction on shells; the cache must have the size the loop function uses (Mem41.hneed), because the queried size may be too small. int4c1e_spinor prints 'not implemented' in the code."
  },
  {
   "property": "C54",
   "status": "partial",
   "theorems": [
    "Verif.Props.C54_cart_partial",
    "Verif.Props.C54_exact_partial",
    "Verif.Props.C54_spherical_partial",
    "Verif.Props.C54_ip1_r6_origk_repaired",
    "Verif.Props.C54_catalogue",
    "Verif.Props.C54_ip1_r6_origk_depends_on_memory"
   ],
   "note": "eight of the nine integrals (theorems with suffix _partial). False of the code for int3c1e_ip1_r6_origk, whose y component is computed from an array that is never set: C54_ip1_r6_origk_depends_on_memory; C54_ip1_r6_origk_repaired proves the property for the program with the missing line. Spinor output is not implemented in the library."
  },
  {
   "property": "C55",
   "status": "proved",
   "theorems": [
    "Verif.Props.C55_catalogue",
    "Verif.Props.C55_spinor_catalogue",
    "Verif.Props.C55_grids",
    "Verif.Props.C55_grids_exact",
    "Verif.Props.C55_grids_spherical",
    "Verif.Props.C55_grids_spinor",
    "Verif.Props.C55_components"
   ],
   "note": ""
  },
  {
   "property": "C56",
   "status": "proved",
   "theorems": [
    "Verif.Props.C56_schmidt_moments",
    "Verif.Props.C56_schmidt",
    "Verif.Props.C56_schmidt_negligible",
    "Verif.Props.C56_solver_exists"
   ],
   "note": "one and two roots: no assumption besides exact library functions; three and more: the polynomial solver (QR iteration) is assumed to find the roots. Arguments below the turn-over point, where the moments are truncated series, are covered only by the moment version C56_schmidt_moments."
  },
  {
   "property": "C57",
   "status": "partial",
   "theorems": [
    "Verif.Props.C57_sr_roots_sound",
    "Verif.Props.C57_roots_sound",
    "Verif.Props.C57_sr_roots_return_partial",
    "Verif.Props.C57_sr_roots_17_18_exit",
    "Verif.Props.C57_sr_roots_unsupported",
    "Verif.Props.C57_sr_roots_lower_limit",
    "Verif.Props.C57_sr_roots_one_two"
   ],
   "note": "first half proved for all inputs (C57_sr_roots_sound, C57_roots_sound). Second half false of the code for 17 and 18 roots (C57_sr_roots_17_18_exit: the process ends although the roots were found); proved for the other supported numbers of roots (C57_sr_roots_return_partial)."
  },
  {
   "property": "C58",
   "status": "partial",
   "theorems": [
    "Verif.Props.C58_same_result",
    "Verif.Props.C58_values",
    "Verif.Props.C58_reads_past_block",
    "Verif.Props.C58_int2e_partial",
    "Verif.Props.C58_int2e_spherical_partial",
    "Verif.Props.C58_int3c2e_partial",
    "Verif.Props.C58_int2c2e_partial"
   ],
   "note": "integrand: same result for every block and number of roots whenever the double behind the block may be read (C58_same_result, C58_values). Whole calls: total angular momentum up to 13 (at most seven roots), theorems with suffix _partial. From eight roots on the code reads one double behind the block, which the model counts as an error (C58_reads_past_block), so whole calls with more roots are missing."
  },
  {
   "property": "C59",
   "status": "proved",
   "theorems": [
    "Verif.Props.C59_f12",
    "Verif.Props.C59_yukawa",
    "Verif.Props.C59_slater",
    "Verif.Props.C59_no_exponent",
    "Verif.Props.C59_runs"
   ],
   "note": "calls without optimizer, spherical output (the only one the library offers). The quadrature of CINTstg_roots is a parameter assumed exact (its tables are not in the repository); such a quadrature exists for every number of points (exists_stg)."
  },
  {
   "property": "C60",
   "status": "proved",
   "theorems": [
    "Verif.Props.C60_derivatives",
    "Verif.Props.C60_exact",
    "Verif.Props.C60_runs"
   ],
   "note": "calls without optimizer, spherical output (the only one the library offers); the quadrature of CINTstg_roots is a parameter assumed exact, as in C59."
  },
  {
   "property": "C61",
   "status": "proved",
   "theorems": [
    "Verif.Props.C61_spin_free",
    "Verif.Props.C61_spin_free_spherical",
    "Verif.Props.C61_spin_free_spinor",
    "Verif.Props.C61_wrappers",
    "Verif.Props.C61_cache",
    "Verif.Props.C61_breit"
   ],
   "note": "values for calls in which nothing is screened (with screening for the Cartesian spin-free integrals); exact Rys quadrature assumed as in C51; malloc is assumed to succeed; the spinor variants of the spin-free integrals have the opposite sign (observation 29)."
  },
  {
   "property": "C62",
   "status": "proved",
   "theorems": [
    "Verif.Props.C62_small",
    "Verif.Props.C62_large",
    "Verif.Props.C62_middle",
    "Verif.Props.C62_far",
    "Verif.Props.C62_refused",
    "Verif.Props.C62_end_undefined"
   ],
   "note": "exact arithmetic, also for the comparisons with the limits; the contents of the tables are arbitrary, so nothing is said about how well the series approximate the roots; the limits of the second table, whose file is not in the repository, are assumed to be 20 starting at 12. For x equal to its last limit the behaviour is proved undefined (observation 32)."
  },
  {
   "property": "C63",
   "status": "proved",
   "theorems": [
    "Verif.Props.C63_wheeler",
    "Verif.Props.C63_laguerre",
    "Verif.Props.C63_laguerre_succeeds",
    "Verif.Props.C63_laguerre_singular",
    "Verif.Props.C63_ortho_exists",
    "Verif.Props.C63_solver_exists"
   ],
   "note": "exact arithmetic; exp, sqrt, erf, erfc exact; the eigenvalue solver for two and more rows is a parameter of which only 'an orthonormal eigensystem when it reports success' is assumed (C63_solver_exists: there is one). The Jacobi moments are not modelled; C63_wheeler covers the rest of that method for any moments of a positive functional."
  },
  {
   "property": "C64",
   "status": "proved",
   "theorems": [
    "Verif.Props.C64_in_range",
    "Verif.Props.C64_upper_wrong_cell",
    "Verif.Props.C64_upper_past_end",
    "Verif.Props.C64_lower_outside",
    "Verif.Props.C64_refused",
    "Verif.Props.C64_nodes"
   ],
   "note": "exact arithmetic, libm functions exact, the conversion to int drops the fraction. The contents of the tables (roots_xw.dat, not in the repository) and of COS_14_14 are arbitrary, except in C64_nodes, which takes the exact cosines (the table of the source agrees with them to 5e-15). The property is false of the code for 1e3 <= U < 1e4 and 1e-8 < U < 1e-7: what happens instead is proved (C64_upper_wrong_cell, C64_upper_past_end, C64_lower_outside)."
  }
 ]
}