{
 "C17": {
  "status": "partial",
  "note": "Cartesian, spherical and spinor output of two-, three- and four-index integrals (spinor: C49_one_electron, C49_two_centre, C49_three_centre, C49_two_electron, whose elements are placed by dims) and of integrals on lists of points (also C17_grids_spinor), for all shapes; spinor ssc output: C20_spinor, C18_ssc_spinor. Partial because int3c2e_sph_ssc violates the property (C20_ssc_overrun)."
 },
 "C18": {
  "status": "partial",
  "note": "zero block and overwriting for Cartesian, spherical and spinor output of the one-, two-, three- and four-centre drivers without and with optimizer, int3c1e, and integrals on lists of points. Partial only because two-index drivers and integrals on lists of points read dims[2] and dims[3] when the block is zero (C18_two_index_dims_over_read, C18_grids_dims_overread): the theorems assume that these can be read."
 },
 "C14": {
  "note": "one-electron driver (overlap, nuclear attraction and all generated overlap-like integrals: every integral whose integrand evaluates correctly) and two-centre two-electron driver, Cartesian, spherical and spinor output; two-centre also with optimizer."
 },
 "C20": {
  "status": "partial",
  "note": "false of the code in general: C20_ssc_overrun and C20_ssc_zero_fill_overrun prove stores outside the block for every shape with l_i >= 2 and two contractions, and for zero results with a d or higher shell; C20_ssc_block_partial proves the property in the remaining cases. Spinor output (int3c2e_spinor_ssc, int3c2e_spsp1_spinor_ssc): proved without restriction, without and with an optimizer (C20_spinor, C20_spinor_opt, C20_spinor_eri, C20_spinor_operators)."
 },
 "C15": {
  "status": "proved",
  "note": "drivers without and with optimizer (built by CINTall_2e_optimizer's model), Cartesian, spherical and spinor output, for every integral whose integrand evaluates correctly (shown for electron repulsion)."
 },
 "C33": {
  "status": "proved",
  "note": "drivers without optimizer: one-electron integrals and int2e, Cartesian and spherical; basis data are parameters of the calls, dims and the transformation table are shared memory. The interleaving theorem itself is for arbitrary programs."
 },
 "C11": {
  "status": "partial",
  "note": "false of the code as stated: C11_differs exhibits a basis and a cutoff for which int2e_cart returns 0 with the optimizer and a positive number without. C11_cart_partial / C11_sph_partial prove equality for int2e when no pair estimate falls between the two cutoffs and omega >= 0; C11_same_kept_* for any omega when both screenings keep the same quartets. Two-centre integrals: proved without restriction (C11_two_centre_*). Three-centre integrals: proved for every integral with kinc <= iinc+jinc (int3c2e, ip1, ipip1, ...), the returned number excepted when the first shell's pair with itself is negligible (C11_three_centre_*); for integrals with more derivatives on the third function (ip2) the table screens with a larger increment and equality is not claimed. Spinor output: C11_spinor_partial, C11_three_centre_spinor, C11_two_centre_spinor."
 },
 "C16": {
  "status": "partial",
  "note": "three-centre two-electron driver without and with optimizer, three-centre one-electron driver and driver for lists of points, Cartesian and spherical output, for every integral whose integrand evaluates correctly (shown for electron repulsion, overlap, rinv and int1e_grids). For the three-centre one-electron driver the property is false when FINT has the size of double (C16_3c1e_overrun) and proved for two FINTs per double. Spinor output of the three-centre driver without and with optimizer proved (C16_3c2e_spinor, C16_3c2e_opt_spinor; with Cartesian third index C16_3c2e_ssc_spinor, C16_3c2e_ssc_opt_spinor); spinor output on lists of points proved (C16_grids_spinor). One-electron integrals over four functions: the property is false (C16_4c1e_overrun: ordinary contracted s shells); C16_4c1e_fits proves it for quartets with few contractions and primitives, C16_4c1e_cart and C16_4c1e_sph that a cache of the size actually used suffices."
 },
 "C39": {
  "note": "Every integral of the model: one-, two-, three-, four-centre, three and four functions, grids; Cartesian, spherical, spinor; without an optimizer (C39_*_cart, _sph, _spinor) and with one (C39_*_opt_*). That malloc gives the block it is asked for is a hypothesis (failure of malloc is not modelled)."
 },
 "C49": {
  "note": "one-, two-, three- and four-centre integrals and integrals on lists of points; int1e_ovlp_spinor, int1e_nuc_spinor (C30_nuc_spinor), int1e_grids_spinor (C48_grids_two_component) and all generated one-electron integrals (C43, C50), int2e_spinor (also with optimizer), int3c2e_spinor, int2c2e_spinor as integrals over two-component functions; tables checked entry by entry in the kernel."
 },
 "C50": {
  "note": "54 generated integrals with nuc or rinv potential or its gradient, Cartesian, spherical and spinor output, exact root finder assumed; int1e_a01gp is not translated (DESIGN.md observation 25); the gradient of the potential is meant after partial integration, which C50_gradient shows to be the derivative with respect to the position of the charge (C50_drinv for int1e_drinv)."
 },
 "C51": {
  "note": "58 generated four-centre integrals (with the gauge integrals of the Breit interaction), Cartesian, spherical and spinor output (C51_spinor: over two-component functions, with the operators as 2x2 matrices for each electron), exact root finder assumed; int2e_ipvg1_xp1 and int2e_ipvg2_xp1 are not translated (DESIGN.md observation 25); the gradient of the interaction is meant after partial integration."
 },
 "C52": {
  "note": "12 generated three-centre (Cartesian, spherical and spinor output) and 4 generated two-centre repulsion integrals (the library has no spinor version of these), exact root finder assumed."
 },
 "C53": {
  "note": "int4c1e_cart and int4c1e_sph without restriction on shells; the cache must have the size the loop function uses (Mem41.hneed), because the queried size may be too small. int4c1e_spinor prints 'not implemented' in the code."
 },
 "C54": {
  "status": "partial",
  "note": "eight of the nine integrals (theorems with suffix _partial). False of the code for int3c1e_ip1_r6_origk, whose y component is computed from an array that is never set: C54_ip1_r6_origk_depends_on_memory; C54_ip1_r6_origk_repaired proves the property for the program with the missing line. Spinor output is not implemented in the library."
 },
 "C56": {
  "note": "one and two roots: no assumption besides exact library functions; three and more: the polynomial solver (QR iteration) is assumed to find the roots. Arguments below the turn-over point, where the moments are truncated series, are covered only by the moment version C56_schmidt_moments."
 },
 "C57": {
  "status": "partial",
  "note": "first half proved for all inputs (C57_sr_roots_sound, C57_roots_sound). Second half false of the code for 17 and 18 roots (C57_sr_roots_17_18_exit: the process ends although the roots were found); proved for the other supported numbers of roots (C57_sr_roots_return_partial)."
 },
 "C58": {
  "status": "partial",
  "note": "integrand: same result for every block and number of roots whenever the double behind the block may be read (C58_same_result, C58_values). Whole calls: total angular momentum up to 13 (at most seven roots), theorems with suffix _partial. From eight roots on the code reads one double behind the block, which the model counts as an error (C58_reads_past_block), so whole calls with more roots are missing."
 },
 "C59": {
  "status": "proved",
  "note": "calls without optimizer, spherical output (the only one the library offers). The quadrature of CINTstg_roots is a parameter assumed exact (its tables are not in the repository); such a quadrature exists for every number of points (exists_stg)."
 },
 "C60": {
  "status": "proved",
  "note": "calls without optimizer, spherical output (the only one the library offers); the quadrature of CINTstg_roots is a parameter assumed exact, as in C59."
 },
 "C61": {
  "status": "proved",
  "note": "values for calls in which nothing is screened (with screening for the Cartesian spin-free integrals); exact Rys quadrature assumed as in C51; malloc is assumed to succeed; the spinor variants of the spin-free integrals have the opposite sign (observation 29)."
 },
 "C62": {
  "status": "proved",
  "note": "exact arithmetic, also for the comparisons with the limits; the contents of the tables are arbitrary, so nothing is said about how well the series approximate the roots; the limits of the second table, whose file is not in the repository, are assumed to be 20 starting at 12. For x equal to its last limit the behaviour is proved undefined (observation 32)."
 },
 "C63": {
  "status": "proved",
  "note": "exact arithmetic; exp, sqrt, erf, erfc exact; the eigenvalue solver for two and more rows is a parameter of which only 'an orthonormal eigensystem when it reports success' is assumed (C63_solver_exists: there is one). The Jacobi moments are not modelled; C63_wheeler covers the rest of that method for any moments of a positive functional."
 },
 "C64": {
  "status": "proved",
  "note": "exact arithmetic, libm functions exact, the conversion to int drops the fraction. The contents of the tables (roots_xw.dat, not in the repository) and of COS_14_14 are arbitrary, except in C64_nodes, which takes the exact cosines (the table of the source agrees with them to 5e-15). The property is false of the code for 1e3 <= U < 1e4 and 1e-8 < U < 1e-7: what happens instead is proved (C64_upper_wrong_cell, C64_upper_past_end, C64_lower_outside)."
 }
}