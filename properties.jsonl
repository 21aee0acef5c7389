{"id": "C01", "title": "Cartesian component order is complete, duplicate-free and fixed", "statement": "A Cartesian shell of angular momentum l contributes exactly (l+1)(l+2)/2 functions x^a y^b z^c: one for every exponent triple with a+b+c=l, none twice, in descending lexicographic order of (a,b,c); the enumeration never writes outside the CART_MAX-sized scratch arrays for any l the library admits.", "quantifier": "every angular momentum l (array-bound part: every l <= ANG_MAX)", "why_tests_cant": "tests look at s,p,d,f shells only; the order is an ABI contract for every l and a single misplaced component silently permutes integrals", "anchors": ["src/cint_bas.c:CINTcart_comp", "src/cint_bas.c:CINTlen_cart", "include/cint.h.in:CART_MAX"]}
{"id": "C02", "title": "Shell offset tables tile the AO index range", "statement": "The offset table produced for a basis (Cartesian, spherical or spinor) starts at 0, consecutive shells occupy adjacent disjoint intervals whose length is the shell's function count, every AO index below the total belongs to exactly one shell, and the total equals what the CINTtot_cgto_* call returns.", "quantifier": "every basis table (any number of shells, any angular momenta, contraction counts and kappa values)", "why_tests_cant": "holds for all shell lists; a test fixes a few molecules", "anchors": ["src/cint_bas.c:CINTshells_cart_offset", "src/cint_bas.c:CINTshells_spheric_offset", "src/cint_bas.c:CINTshells_spinor_offset", "src/cint_bas.c:CINTtot_cgto_cart"]}
{"id": "C03", "title": "Spinor shell sizes follow kappa", "statement": "The number of spinor functions of a shell is 2l+2 for kappa<0, 2l for kappa>0 and, for kappa=0, the sum of both, i.e. twice the number of real spherical functions of the shell; the two internal implementations of this rule (basis queries and output transformation) agree.", "quantifier": "every l and every kappa", "why_tests_cant": "two independent copies of the rule must agree on the whole integer range", "anchors": ["src/cint_bas.c:CINTlen_spinor", "src/cint_bas.c:CINTcgto_spinor", "src/cart2sph.c:_len_spinor"]}
{"id": "C04", "title": "Component reordering is an exact transposition", "statement": "For multi-component operators the buffer of shape (elements x components) produced by the primitive loops is delivered component-major: component c of element e lands at position c*elements+e, added to what was there when accumulating and overwriting when not; nothing outside the block is touched and no uninitialised value is read, for every shape including those not divisible by the unrolling factor.", "quantifier": "every pair of matrix dimensions (m,n) and all contents", "why_tests_cant": "the kernels are unrolled by 4 with hand-written remainders; tests cover few remainders", "anchors": ["src/fblas.c:CINTdmat_transpose", "src/fblas.c:CINTdplus_transpose", "src/fblas.c:CINTzmat_transpose", "src/fblas.c:CINTzmat_dagger"]}
{"id": "C05", "title": "Dense matrix kernels compute matrix products", "statement": "The internal BLAS replacements compute C = A*B, A^T*B and A*B^T in column-major layout for every m,n,k, fully overwrite C and stay inside the operands.", "quantifier": "all m,n,k and all matrices", "why_tests_cant": "unbounded shapes", "anchors": ["src/fblas.c:CINTdgemm_NN", "src/fblas.c:CINTdgemm_NN1", "src/fblas.c:CINTdgemm_TN", "src/fblas.c:CINTdgemm_NT"]}
{"id": "C06", "title": "Skipping zero contraction coefficients never changes a contraction", "statement": "For every coefficient matrix, contracting a primitive block with the sparse coefficient list gives the same contracted block as contracting with all coefficients: first primitive initialises every contraction (also those with zero coefficient), later primitives accumulate. The sparse list enumerates exactly the non-zero coefficients, each once, in order.", "quantifier": "every number of primitives, contractions, every zero/non-zero pattern and every block length", "why_tests_cant": "all sparsity patterns of all sizes; a bug only shows for particular patterns (e.g. zero in the first primitive)", "anchors": ["src/optimizer.c:CINTOpt_non0coeff_byshell", "src/g1e.c:CINTprim_to_ctr_0", "src/g1e.c:CINTprim_to_ctr_1"]}
{"id": "C07", "title": "Polynomial index tables are correct and in range", "statement": "For every combination of shells the index table used to assemble integrals lists, for every tuple of Cartesian components in output order, the addresses of the matching x, y and z intermediates; every address lies inside the x, y or z slab it belongs to, and different component powers never share an address.", "quantifier": "all angular momenta and all derivative increments of 2-, 3- and 4-index integrals", "why_tests_cant": "index arithmetic over 4 angular momenta and strides; tests hit a handful", "anchors": ["src/g1e.c:CINTg1e_index_xyz", "src/g2e.c:CINTg2e_index_xyz", "src/g2e.c:CINTinit_int2e_EnvVars", "src/g1e.c:CINTinit_int1e_EnvVars"]}
{"id": "C08", "title": "One-electron contraction loop yields the contracted integral", "statement": "For every pair of shells the one-electron driver loop delivers, for every contraction pair and component, the sum over all unscreened primitive pairs of coefficient_i*coefficient_j*primitive integral; it returns non-zero exactly when some pair is unscreened; buffers shared between contraction levels never corrupt the result.", "quantifier": "every primitive/contraction count, coefficient matrix, component count and screening pattern", "why_tests_cant": "buffer aliasing depends on which of the counts equal 1 and on the screening pattern: exponentially many paths", "anchors": ["src/cint1e.c:CINT1e_loop"]}
{"id": "C09", "title": "Two-electron contraction loop yields the contracted integral", "statement": "For every shell quartet the two-electron driver loop (no optimizer) delivers, for all contraction quadruples and components, the four-fold contraction sum over all unscreened primitive quadruples, with result independent of stale cache contents, and reports emptiness exactly when every quadruple is screened.", "quantifier": "every primitive/contraction count (each 1 or >1), coefficient matrices, component counts and screening patterns", "why_tests_cant": "16 aliasing configurations times all screening patterns, unbounded sizes", "anchors": ["src/cint2e.c:CINT2e_loop_nopt"]}
{"id": "C10", "title": "Specialised contraction loops agree with the general loop", "statement": "The loops selected for shells with one contraction function deliver the same contracted integrals, the same emptiness flag and the same memory footprint as the general loop; the dispatch never selects a specialised loop for a shell quartet it does not support.", "quantifier": "all shell quartets/triples with an optimizer", "why_tests_cant": "dispatch and specialised code must agree on all inputs", "anchors": ["src/cint2e.c:CINT2e_1111_loop", "src/cint2e.c:CINT2e_n111_loop", "src/cint2e.c:CINT2e_loop", "src/cint2e.c:CINTf_2e_loop", "src/cint3c2e.c:CINTf_3c2e_loop"]}
{"id": "C11", "title": "Passing an optimizer does not change integral values", "statement": "For every basis and every shell combination, an integral evaluated with an optimizer built for the same basis and integral type equals the one evaluated with a NULL optimizer.", "quantifier": "all bases, shell tuples, env settings (cutoff, omega)", "why_tests_cant": "stated in the README for every input; the cached data must coincide with the recomputed data and screening decisions must coincide for every pair", "anchors": ["README.rst", "src/optimizer.c:CINTOpt_setij", "src/optimizer.c:gen_idx", "src/cint2e.c:CINT2e_drv"]}
{"id": "C12", "title": "Optimizer pair table never overruns its pool and serves every ordered shell pair", "statement": "Building an optimizer writes only inside the pair pool it allocated; afterwards the entry for every ordered shell pair is either the data that recomputation for this pair would give or a marker used exactly when recomputation reports that all primitive pairs are negligible; pair data for (j,i) is the transpose of that for (i,j).", "quantifier": "every basis", "why_tests_cant": "quadratic table with triangular construction; needs induction on shells", "anchors": ["src/optimizer.c:CINTOpt_setij", "src/optimizer.c:CINTset_pairdata"]}
{"id": "C13", "title": "Screening only drops negligible primitive pairs", "statement": "A primitive pair is skipped only if its exponential prefactor estimate exceeds the cutoff in force, an entire shell pair is reported zero only if all its primitive pairs are, and any pair that is kept is evaluated with its exact product centre and prefactor.", "quantifier": "all exponents, coefficients, distances and cutoffs", "why_tests_cant": "real-valued decision logic over unbounded inputs", "anchors": ["src/optimizer.c:CINTset_pairdata", "src/optimizer.c:CINTOpt_log_max_pgto_coeff", "src/cint1e.c:CINT1e_loop"]}
{"id": "C14", "title": "Queried cache size suffices: one-electron integrals", "statement": "A work array of the size returned by calling a one-electron (or two-centre two-electron) integral with out=NULL is never overrun by the subsequent evaluation, including alignment padding, scratch of nested calls and output transformation.", "quantifier": "all shells, contraction counts, derivative orders, alignments of the cache pointer to 8 bytes, 4- and 8-byte integer builds", "why_tests_cant": "overrun depends on the interplay of all sizes", "anchors": ["src/cint1e.c:int1e_cache_size", "src/cint1e.c:CINT1e_drv", "src/cint1e.c:CINT1e_loop", "src/cint2c2e.c:CINT2c2e_drv", "src/misc.h:MALLOC_INSTACK"]}
{"id": "C15", "title": "Queried cache size suffices: four-centre two-electron integrals", "statement": "Same property for the four-centre two-electron integrals, with and without optimizer, Cartesian and spherical.", "quantifier": "all shell quartets, contraction counts, derivative orders", "why_tests_cant": "the returned size is smaller than the sum of the buffers reserved; it only suffices because of aliasing", "anchors": ["src/cint2e.c:CINT2e_drv", "src/cint2e.c:CINT2e_loop_nopt", "src/cint2e.c:CINT2e_loop", "src/cart2sph.c:c2s_sph_2e1"]}
{"id": "C16", "title": "Queried cache size suffices: three-centre, four-function and grid integrals", "statement": "Same property for 3-centre 2-electron, 3-centre 1-electron, 4-centre 1-electron and grid integrals.", "quantifier": "all shell triples / quartets / grid counts, contraction counts, derivative orders, 4- and 8-byte integer builds", "why_tests_cant": "as above", "anchors": ["src/cint3c2e.c:CINT3c2e_drv", "src/cint3c1e.c:CINT3c1e_drv", "src/cint1e_grids.c:int1e_grids_cache_size", "src/g1e_grids.c:CINTg0_1e_grids", "src/cint4c1e.c:CINT4c1e_drv"]}
{"id": "C17", "title": "dims controls placement and padding is untouched", "statement": "With dims given, element (i,j[,k,l]) of component c is stored at column-major position given by dims; exactly the elements inside the shell block are written, and memory outside (padding between rows, other shells' blocks) keeps its value; dims=NULL is equivalent to passing the compact shell counts.", "quantifier": "all shell sizes, all dims at least as large as the block, all contents of out", "why_tests_cant": "hand-specialised copy kernels for several row lengths; arbitrary strides", "anchors": ["src/cart2sph.c:dcopy_ij", "src/cart2sph.c:dcopy_iklj", "src/cart2sph.c:c2s_cart_1e", "src/cart2sph.c:c2s_cart_2e1", "src/cint1e.c:CINT1e_drv"]}
{"id": "C18", "title": "Return value 0 means the block is completely zero; otherwise it is completely overwritten", "statement": "After every call the whole shell block of every component has been assigned: with zeros when 0 is returned, with the integral values otherwise. Hence the result never depends on previous contents of out or cache, i.e. on the history of calls.", "quantifier": "every input and every previous content of out and cache", "why_tests_cant": "history independence quantifies over all earlier memory contents", "anchors": ["src/cart2sph.c:c2s_dset0", "src/cart2sph.c:c2s_zset0", "src/cint1e.c:CINT1e_drv", "src/cint2e.c:CINT2e_drv", "README.rst"]}
{"id": "C19", "title": "Cartesian to spherical transformation is the tabulated linear map", "statement": "For every angular momentum the spherical integrals are obtained from Cartesian ones by applying the l-specific transformation matrix to each index, irrespective of the specialised code used for s, p, d, f, g shells and of whether the index is bra or ket.", "quantifier": "all l, block sizes and contents", "why_tests_cant": "specialised sparse kernels vs table-driven generic kernel for all block sizes", "anchors": ["src/cart2sph.c:a_bra_cart2spheric", "src/cart2sph.c:d_bra_cart2spheric", "src/cart2sph.c:f_ket_cart2spheric", "src/cart2sph.c:g_bra_cart2spheric", "src/cart2sph.c:sph2e_inner"]}
{"id": "C20", "title": "Three-centre integrals with a Cartesian auxiliary index fill their block", "statement": "int3c2e_sph_ssc writes the block (2l_i+1)n_i x (2l_j+1)n_j x nf_k n_k densely and consistently with its zero-fill. int3c2e_spinor_ssc and int3c2e_spsp1_spinor_ssc fill the block with the integrals over two-component functions of the first two shells and Cartesian functions of the third.", "quantifier": "all shell triples", "why_tests_cant": "placement arithmetic for all contraction counts", "anchors": ["src/cart2sph.c:c2s_sph_3c2e1_ssc", "src/cint3c2e.c:CINT3c2e_drv", "src/cart2sph.c:c2s_sf_3c2e1_ssc", "src/cart2sph.c:c2s_si_3c2e1_ssc", "src/cint3c2e.c:int3c2e_spinor_ssc"]}
{"id": "C21", "title": "Overlap integrals are the true Gaussian integrals", "statement": "In exact arithmetic int1e_ovlp_cart returns, for every pair of contracted Cartesian shells without screened primitives, the integral over R^3 of the product of the two contracted Gaussian functions in the library's normalisation of s and p functions.", "quantifier": "all exponents > 0, centres, coefficients, angular momenta and contraction counts", "why_tests_cant": "infinitely many real inputs", "anchors": ["src/g1e.c:CINTg1e_ovlp", "src/cint1e.c:int1e_ovlp_cart", "src/cint1e.c:CINT1e_loop", "src/cint1e.c:CINTgout1e"]}
{"id": "C22", "title": "Overlap matrix is symmetric under exchange of the shells", "statement": "int1e_ovlp for shells (i,j) is the transpose of int1e_ovlp for (j,i).", "quantifier": "all shell pairs (both recursion branches)", "why_tests_cant": "different code paths (ibase true/false) are taken for the two orders", "anchors": ["src/g1e.c:CINTg1e_ovlp", "src/g1e.c:CINTinit_int1e_EnvVars"]}
{"id": "C23", "title": "Translation invariance", "statement": "Shifting all centres by the same vector leaves overlap intermediates and pair data (except the shifted product centre) unchanged.", "quantifier": "all geometries and shifts", "why_tests_cant": "continuous family", "anchors": ["src/g1e.c:CINTg1e_ovlp", "src/optimizer.c:CINTset_pairdata"]}
{"id": "C24", "title": "Derivative and position operators act correctly on intermediates", "statement": "Applying the library's nabla (bra or ket) to one-electron intermediates gives the intermediates of the differentiated Gaussian, and the position operator gives those of the Gaussian multiplied by the coordinate relative to the requested origin.", "quantifier": "all orders, exponents, centres", "why_tests_cant": "continuous family and unbounded orders", "anchors": ["src/g1e.c:CINTnabla1i_1e", "src/g1e.c:CINTnabla1j_1e", "src/g1e.c:CINTx1i_1e", "src/g1e.c:CINTx1j_1e"]}
{"id": "C25", "title": "Kinetic energy integrals are -1/2 of the Laplacian overlap", "statement": "int1e_kin returns the integral of chi_i times (-1/2 Laplacian chi_j).", "quantifier": "all shells in exact arithmetic", "why_tests_cant": "continuous family", "anchors": ["src/autocode/intor1.c:CINTgout1e_int1e_kin", "src/g1e.c:CINTnabla1j_1e"]}
{"id": "C26", "title": "All horizontal recursion orders give the same intermediates", "statement": "The four bra/ket base choices (lj, kj, il, ik) of the two-electron horizontal recursion produce, from the same two-dimensional intermediates, the four-index intermediates defined by the transfer relation; the choice of base does not change any integral.", "quantifier": "all angular momenta, all centres", "why_tests_cant": "four different stride layouts and loop nests", "anchors": ["src/g2e.c:CINTg0_lj2d_4d", "src/g2e.c:CINTg0_kj2d_4d", "src/g2e.c:CINTg0_il2d_4d", "src/g2e.c:CINTg0_ik2d_4d"]}
{"id": "C27", "title": "Unrolled low-angular-momentum kernels equal the general recursion", "statement": "For every combination of angular momenta with total at most 3 the hand-unrolled two-electron kernels (full-range and short-range) produce exactly the intermediates of the general recursion, for all recursion coefficients.", "quantifier": "all recursion coefficients/centres for each of the 35 + 35 unrolled kernels", "why_tests_cant": "polynomial identities over continuous inputs in ~3600 lines of generated code", "anchors": ["src/g2e.c:_g0_2d4d_0000", "src/g2e.c:CINTg0_2e_2d4d_unrolled", "src/g2e.c:CINTsrg0_2e_2d4d_unrolled"]}
{"id": "C28", "title": "Two-dimensional recursion generates Gaussian moments", "statement": "For every quadrature node the two-dimensional two-electron intermediates equal the moments of the bivariate Gaussian determined by the recursion coefficients (b00,b10,b01,c00,c0p), for all orders.", "quantifier": "all orders (n,m) and all coefficients", "why_tests_cant": "double recursion over unbounded orders", "anchors": ["src/g2e.c:CINTg0_2e_2d"]}
{"id": "C29", "title": "Permutational symmetry of electron-repulsion intermediates", "statement": "Exchanging i<->j, k<->l or the two electrons leaves the assembled primitive electron-repulsion integral unchanged (transposed accordingly) in exact arithmetic, although different strides, base choices and recursion directions are used.", "quantifier": "all shell quartets and geometries", "why_tests_cant": "8 code paths over continuous inputs", "anchors": ["src/g2e.c:CINTg0_2e", "src/g2e.c:CINTinit_int2e_EnvVars", "src/cint2e.c:CINTgout2e"]}
{"id": "C30", "title": "Nuclear attraction sums every nucleus exactly once with its charge", "statement": "int1e_nuc is the sum over all atoms of -Z times the attraction to that nucleus (fractional charge when that nuclear model is set); atoms of zero charge do not contribute, and the value is additive when the atom list is concatenated.", "quantifier": "all atom tables", "why_tests_cant": "unbounded atom lists and three nuclear models", "anchors": ["src/cint1e.c:CINTgout1e_nuc", "src/cint1e.c:CINT1e_loop", "src/g1e.c:CINTnuc_mod"]}
{"id": "C31", "title": "Grid blocking is invisible", "statement": "Integrals on a list of grid points are evaluated for each point exactly once and stored at the position of the point, independent of how the list is cut in blocks of GRID_BLKSIZE.", "quantifier": "all numbers of grid points", "why_tests_cant": "block boundaries for unbounded counts", "anchors": ["src/cint1e_grids.c:CINT1e_grids_loop", "src/cart2sph.c:c2s_cart_1e_grids", "src/g1e_grids.c:CINTgout1e_grids"]}
{"id": "C32", "title": "Boys function recursions are exact", "statement": "The auxiliary functions F_m(t)=int_0^1 u^(2m) exp(-t u^2) du are propagated exactly by the upward and downward recursions used, for all t>0 and all orders, given the exact starting value; at t=0 the values returned are exact.", "quantifier": "all t >= 0 and m", "why_tests_cant": "continuous", "anchors": ["src/fmt.c:gamma_inc_like", "src/fmt.c:fmt1_gamma_inc_like"]}
{"id": "C33", "title": "Concurrent calls with separate outputs do not interfere", "statement": "Threads evaluating integrals concurrently, sharing the basis tables and optimizer read-only and owning their out and cache buffers, obtain under every interleaving of their memory accesses the results of sequential execution.", "quantifier": "all schedules", "why_tests_cant": "tests cannot enumerate interleavings", "anchors": ["README.rst", "src/cint2e.c:CINT2e_drv", "src/optimizer.c"]}
{"id": "C34", "title": "Optimizer lifecycle is leak-free and never double-frees", "statement": "Every sequence init, queries, delete of optimizers frees each allocated block exactly once; deleting a NULL optimizer is a no-op and the handle is NULL afterwards.", "quantifier": "all histories of optimizer creations and deletions", "why_tests_cant": "histories", "anchors": ["src/optimizer.c:CINTinit_2e_optimizer", "src/optimizer.c:CINTdel_optimizer", "src/optimizer.c:CINTOpt_setij", "src/optimizer.c:CINTOpt_set_non0coeff"]}
{"id": "C35", "title": "Fixed-size scratch arrays are never exceeded", "statement": "For shells up to the documented ANG_MAX, the number of quadrature roots and components never exceeds the fixed array sizes (MXRYSROOTS, CART_MAX) that hold them, or the exact condition under which it does is known.", "quantifier": "all shells with l <= ANG_MAX and all derivative increments", "why_tests_cant": "combination of four angular momenta", "anchors": ["include/cint.h.in:MXRYSROOTS", "src/g2e.c:CINTinit_int2e_EnvVars", "src/g2e.c:CINTg0_2e"]}
{"id": "C36", "title": "Primitive normalisation constant normalises the radial function", "statement": "CINTgto_norm(l,a)^2 times the integral of r^(2l+2) exp(-2 a r^2) over r>0 is 1.", "quantifier": "all l >= 0 and a > 0", "why_tests_cant": "continuous family", "anchors": ["src/misc.c:CINTgto_norm"]}
{"id": "C37", "title": "Integrals are linear in contraction coefficients", "statement": "The contracted block is multilinear in the coefficient matrices of the shells (for a fixed set of unscreened primitives).", "quantifier": "all coefficient matrices", "why_tests_cant": "algebraic law over all inputs", "anchors": ["src/cint1e.c:CINT1e_loop", "src/cint2e.c:CINT2e_loop_nopt"]}
{"id": "C38", "title": "Short-range plus long-range equals full Coulomb", "statement": "For primitives evaluated with the doubled root set (low order), the attenuated integral with omega<0 equals the full Coulomb integral minus the long-range integral with |omega|, for each primitive.", "quantifier": "all geometries, exponents and omega", "why_tests_cant": "continuous family", "anchors": ["src/g2e.c:CINTg0_2e", "src/g2e.c:_srg0_2d4d_0000"]}
{"id": "C39", "title": "cint2 and Fortran wrappers forward arguments unchanged", "statement": "Every cint2-style/Fortran wrapper returns exactly what the libcint3 function returns for dims=NULL, cache=NULL and the same arguments.", "quantifier": "all arguments", "why_tests_cant": "argument permutations", "anchors": ["src/misc.h:ALL_CINT", "src/c2f.h:ALL_CINT_FORTRAN_"]}
{"id": "C40", "title": "Two-centre two-electron contraction loop yields the contracted integral", "statement": "For every pair of shells the two-centre two-electron driver loop adds, for every contraction pair and component, the contraction sum over the primitive pairs to the output and reports emptiness exactly when no primitive contributed and the output was empty before; sharing of buffers between contraction levels never corrupts the result.", "quantifier": "all primitive and contraction counts, coefficient matrices, component counts, evaluator outcomes and initial memory contents", "why_tests_cant": "The buffer sharing pattern depends on which of the counts are one; tests cover a handful of shapes.", "anchors": ["src/cint2c2e.c:CINT2c2e_loop", "src/cint2c2e.c:CINT2c2e_loop_nopt"]}
{"id": "C41", "title": "Three-centre contraction loops yield the contracted integral", "statement": "For every triple of shells the three-centre loops (two-electron without optimizer, two-electron with optimizer through any of the specialised loops, one-electron) add, for every combination of contractions and components, the contraction sum over all unscreened primitive triples; the specialised loops agree with the general one; emptiness is reported exactly when nothing contributed.", "quantifier": "all primitive and contraction counts, coefficient matrices, component counts, screening decisions, evaluator outcomes and initial memory contents", "why_tests_cant": "Four loops times eight contraction patterns times aliasing of scratch blocks and flags; values depend on uninitialised scratch when a flag is mishandled.", "anchors": ["src/cint3c2e.c:CINT3c2e_loop_nopt", "src/cint3c2e.c:CINT3c2e_loop", "src/cint3c2e.c:CINT3c2e_111_loop", "src/cint3c2e.c:CINT3c2e_n11_loop", "src/cint3c2e.c:CINT3c2e_1n1_loop", "src/cint3c1e.c:CINT3c1e_loop_nopt"]}
{"id": "C42", "title": "Boys function with a lower limit", "statement": "The auxiliary functions with a lower integration limit used for short-range Coulomb integrals, int_s^1 u^(2m) exp(-t u^2) du, are returned exactly at t=0 and at and above the turn-over point, with a bounded one-sided error from the series below it, and are replaced by zero only when they are below exp(-200).", "quantifier": "all t >= 0, 0 < s < 1 and m < 40", "why_tests_cant": "continuous family; termination and truncation of a series", "anchors": ["src/fmt.c:fmt_erfc_like", "src/fmt.c:fmt1_erfc_like", "src/fmt.c:_pow"]}
{"id": "C43", "title": "One-electron operator integrals are the integrals of the operators they are named after", "statement": "Each of the generated one-electron integrals built from overlaps (kinetic energy, multipole moments r, rr, rrr, rrrr, r2, r4, angular momentum, p4, gradients and second derivatives of overlap and kinetic energy, the spin-dependent sp/sr families and the GIAO derivatives) returns, component by component, the integral of its defining operator between the two contracted functions, times its documented factor; the shells-equal shortcut of the GIAO integrals skips only zero blocks.", "quantifier": "all integrals of the family, all shells, centres, common origins and components, in exact arithmetic", "why_tests_cant": "continuous family of inputs; a wrong term in one of hundreds of generated products is visible only for particular angular momenta", "anchors": ["src/autocode/intor1.c", "src/autocode/grad1.c", "src/autocode/grad2.c", "src/autocode/dkb.c", "scripts/auto_intor.cl", "src/g1e.h:G1E_D_I", "src/cint1e_a.c:CINTgout1e_int1e_r4_origi_ip2"]}
{"id": "C44", "title": "Electron repulsion integrals are the integrals of the selected interaction", "statement": "Every element of the block returned by the Cartesian or spherical four-centre electron repulsion integral is the double integral of the product of the two charge distributions with 1/r12, erf(omega r12)/r12 or erfc(|omega| r12)/r12, as selected by env[PTR_RANGE_OMEGA], contracted over the primitives that survive the screening (all of them, and then exactly the integral of the contracted functions, when nothing is screened).", "quantifier": "all shell quartets up to the supported angular momentum, all exponents, coefficients, centres, omega, dims and contents of memory, in exact arithmetic and given root finders that return exact Rys quadratures", "why_tests_cant": "continuous family of inputs and unbounded contraction lengths; reference values exist only for single points", "anchors": ["src/cint2e.c:int2e_cart", "src/cint2e.c:int2e_sph", "src/cint2e.c:CINT2e_drv", "src/cint2e.c:CINT2e_loop_nopt", "src/g2e.c:CINTg0_2e", "src/cint2e.c:CINTgout2e"]}
{"id": "C45", "title": "Three-centre electron repulsion integrals are the integrals of the selected interaction", "statement": "Every element of the block returned by the Cartesian or spherical three-centre two-electron integral (ij|k) is the double integral of the product of the first two functions with the third over 1/r12, erf(omega r12)/r12 or erfc(|omega| r12)/r12, as selected by env[PTR_RANGE_OMEGA], contracted over the primitives that survive the screening (all of them, and then exactly the integral of the contracted functions, when nothing is screened); the block is symmetric in the first two shells.", "quantifier": "all shell triples up to the supported angular momentum, all exponents, coefficients, centres, omega, dims and contents of memory, in exact arithmetic and given root finders that return exact Rys quadratures", "why_tests_cant": "continuous family of inputs and unbounded contraction lengths; reference values exist only for single points", "anchors": ["src/cint3c2e.c:int3c2e_cart", "src/cint3c2e.c:int3c2e_sph", "src/cint3c2e.c:CINT3c2e_drv", "src/cint3c2e.c:CINT3c2e_loop_nopt", "src/g3c2e.c:CINTinit_int3c2e_EnvVars", "src/g2e.c:CINTg0_2e"]}
{"id": "C46", "title": "Two-centre electron repulsion integrals are the integrals of the selected interaction", "statement": "Every element of the block returned by the Cartesian or spherical two-centre two-electron integral (i|k) is the double integral of the two functions over 1/r12, erf(omega r12)/r12 or erfc(|omega| r12)/r12, as selected by env[PTR_RANGE_OMEGA]; no primitive is left out unless the interaction is short-ranged and the exponent of its integral exceeds the cutoff. Exchanging the shells transposes the block.", "quantifier": "all shell pairs up to the supported angular momentum, all exponents, coefficients, centres, omega, dims and contents of memory, in exact arithmetic and given root finders that return exact Rys quadratures", "why_tests_cant": "continuous family of inputs and unbounded contraction lengths; reference values exist only for single points", "anchors": ["src/cint2c2e.c:int2c2e_cart", "src/cint2c2e.c:int2c2e_sph", "src/cint2c2e.c:CINT2c2e_drv", "src/cint2c2e.c:CINT2c2e_loop_nopt", "src/g2c2e.c:CINTinit_int2c2e_EnvVars", "src/g2e.c:CINTg0_2e"]}
{"id": "C47", "title": "One-electron integrals over three functions are the integrals of the product of three functions", "statement": "Every element of the block returned by the Cartesian or spherical three-centre one-electron integral (int3c1e, int3c1e_rinv) is the integral over space of the product of the three contracted functions, multiplied for rinv by the potential of the point or Gaussian charge at env[PTR_RINV_ORIG]; a triple of primitives is left out only if the exponential prefactor of its product is below exp(-60). Permuting the shells permutes the indices of the block.", "quantifier": "all shell triples up to the supported angular momentum, all exponents, coefficients, centres, charge positions and widths, dims and contents of memory, in exact arithmetic and given root finders that return exact Rys quadratures", "why_tests_cant": "continuous family of inputs and unbounded contraction lengths; reference values exist only for single points", "anchors": ["src/cint3c1e.c:int3c1e_cart", "src/cint3c1e.c:int3c1e_sph", "src/cint3c1e.c:int3c1e_rinv_cart", "src/cint3c1e.c:int3c1e_rinv_sph", "src/cint3c1e.c:CINT3c1e_drv", "src/cint3c1e.c:CINT3c1e_loop_nopt", "src/cint3c1e.c:CINT3c1e_nuc_loop_nopt", "src/g3c1e.c:CINTg3c1e_ovlp", "src/g3c1e.c:CINTg3c1e_nuc"]}
{"id": "C48", "title": "Integrals on grid points are the matrix elements of the potential of a charge at each point", "statement": "Every element of the block returned by int1e_grids_cart, int1e_grids_sph and int1e_grids_spinor is, for each point of the list, the matrix element between the two contracted functions of the potential of a unit point charge (env[PTR_RINV_ZETA] = 0) or normalised Gaussian charge centred at the point, interacting by 1/r, erf(omega r)/r or erfc(|omega| r)/r as selected by env[PTR_RANGE_OMEGA]; a primitive pair is left out only if its estimate exceeds the cutoff, a point only with the short-range interaction and if the exponent of the leading Gaussian factor exceeds the rest of the cutoff or 40. Exchanging the shells transposes the block at every point.", "quantifier": "all shell pairs up to the supported angular momentum, all exponents, coefficients, centres, omega, zeta >= 0, lists of points of any length, dims and contents of memory, in exact arithmetic and given root finders that return exact Rys quadratures", "why_tests_cant": "continuous family of inputs and unbounded contraction lengths and lists; reference values exist only for single points", "anchors": ["src/cint1e_grids.c:int1e_grids_cart", "src/cint1e_grids.c:int1e_grids_sph", "src/cint1e_grids.c:CINT1e_grids_drv", "src/cint1e_grids.c:CINT1e_grids_loop", "src/g1e_grids.c:CINTinit_int1e_grids_EnvVars", "src/g1e_grids.c:CINTg0_1e_grids", "src/g1e_grids.c:CINTgout1e_grids"]}
{"id": "C49", "title": "Spinor integrals are the integrals over two-component functions with the documented angular part", "statement": "Every element of the complex block returned by a one-, two-, three- or four-centre integral, or integral on a list of points, with spinor output is the matrix element of the operator (a scalar, or a scalar and a spin vector combined with the Pauli matrices) between the two-component functions obtained from the Cartesian functions with one fixed table, the function of the first shell conjugated; the table holds the spinor spherical harmonics with j = l - 1/2 (kappa > 0), j = l + 1/2 (kappa < 0), or both (kappa = 0), m_j = -j, ..., j, with the phase of Condon and Shortley, to relative error 4e-15. For electron repulsion this is the repulsion between the two charge distributions sum_sigma f_sigma* g_sigma (int2e_spinor), between such a distribution and a real spherical function (int3c2e_spinor), and the sum over spin of the repulsion between the components (int2c2e_spinor). For l >= 13 there is no table.", "quantifier": "all shell pairs, triples and quartets with l < 13, all kappa, contractions, dims, contents of memory and of the cache, all integrals of the catalogue and every integral whose integrand evaluates correctly, with and without optimizer, in exact arithmetic", "why_tests_cant": "continuous family of inputs, unbounded contraction lengths; tables of 13 x (4l+2) x (l+1)(l+2) complex coefficients", "anchors": ["src/cart2sph.c:c2s_sf_1e", "src/cart2sph.c:c2s_sf_1ei", "src/cart2sph.c:c2s_si_1e", "src/cart2sph.c:c2s_si_1ei", "src/cart2sph.c:g_trans_cart2jR", "src/cart2sph.c:g_trans_cart2jI", "src/cint1e.c:CINT1e_spinor_drv", "src/cint1e.c:int1e_ovlp_spinor", "src/cint2e.c:CINT2e_spinor_drv", "src/cint2e.c:int2e_spinor", "src/cint3c2e.c:CINT3c2e_spinor_drv", "src/cint3c2e.c:int3c2e_spinor", "src/cint2c2e.c:CINT2c2e_spinor_drv", "src/cint2c2e.c:int2c2e_spinor", "src/cart2sph.c:c2s_sf_2e1", "src/cart2sph.c:c2s_si_2e1", "src/cart2sph.c:c2s_sf_2e2", "src/cart2sph.c:c2s_si_2e2", "src/cart2sph.c:c2s_sf_3c2e1", "src/cart2sph.c:c2s_si_3c2e1", "src/cart2sph.c:c2s_sf_1e_grids", "src/cint1e_grids.c:CINT1e_grids_drv"]}
{"id": "C50", "title": "Generated one-electron integrals with a potential are the integrals of the operators they are named after", "statement": "Every component of every element returned by the integrals int1e_*nuc*, int1e_*rinv*, int1e_*a01*, int1e_*a11part of the catalogue (derivatives, momenta, sigma.p, GIAO and position operators on either side of the potential, or of its gradient) is the documented factor times the integral of the potential - that of all the nuclei with their charges and charge models, or of one unit charge at env[PTR_RINV_ORIG] with exponent env[PTR_RINV_ZETA] - between the two contracted functions after the operators have acted on them. A primitive pair is left out only if its estimate exceeds the cutoff. Where the gradient of the potential stands, its integral is meant after partial integration: that of the potential with the derivative of the product of the functions; this is the derivative of the integral with respect to the position of the charge, so int1e_drinv returns the derivatives of int1e_rinv with respect to env[PTR_RINV_ORIG]. The functions that return zeros without calculation when both shells are the same return the right value.", "quantifier": "all 54 integrals, all shell pairs up to the supported angular momentum, all exponents, coefficients, centres, nuclei, origins, dims and contents of memory, in exact arithmetic and given a root finder that returns exact Rys quadrature", "why_tests_cant": "continuous family of inputs and unbounded contraction lengths; up to 81 components per integral, for most of which no independent reference value exists", "anchors": ["src/autocode/grad1.c:CINTgout1e_int1e_ipnuc", "src/autocode/hess.c:CINTgout1e_int1e_ipipnuc", "src/autocode/intor1.c:CINTgout1e_int1e_pnucp", "src/autocode/deriv3.c:CINTgout1e_int1e_ipipipnuc", "src/autocode/deriv4.c:CINTgout1e_int1e_ipipipiprinv", "src/cint1e.c:CINT1e_drv", "src/cint1e.c:make_g1e_gout", "src/g1e.c:CINTg1e_nuc"]}
{"id": "C51", "title": "Generated four-centre repulsion integrals are the integrals of the operators they are named after", "statement": "Every component of every element returned by the integrals int2e_* of the catalogue (derivatives, second derivatives, sigma.p and sigma.r on either electron, Gaunt products sigma1.sigma2, the two parts of the gauge term of the Breit interaction, GIAO and position operators) is the documented factor times the repulsion integral - 1/r12, its long-range or its short-range part as env[PTR_RANGE_OMEGA] says - of the products of the four contracted functions after the operators have acted on them. Where the gradient of the interaction stands, its integral is meant after partial integration. A primitive quartet is left out only if its estimates exceed the cutoffs. With spherical output the functions are the spherical ones. With spinor output they are two-component functions, the operators containing sigma act on both components as 2x2 matrices, and the conventions on factors of i are those of the integral's definition. The functions that return zeros without calculation when the first two (or last two) shells are the same return the right value.", "quantifier": "all 58 integrals, all shell quartets up to the supported angular momentum, all exponents, coefficients, centres, origins, omega, dims and contents of memory, in exact arithmetic and given a root finder that returns exact Rys quadrature", "why_tests_cant": "continuous family of inputs and unbounded contraction lengths; up to 144 components per integral, for most of which no independent reference value exists", "anchors": ["src/autocode/grad2.c:CINTgout2e_int2e_ip1", "src/autocode/intor4.c:CINTgout2e_int2e_spsp1spsp2", "src/autocode/gaunt1.c:CINTgout2e_int2e_ssp1ssp2", "src/autocode/breit1.c:CINTgout2e_int2e_gauge_r1_ssp1ssp2", "src/autocode/hess.c:CINTgout2e_int2e_ipip1", "src/autocode/intor2.c:CINTgout2e_int2e_ig1", "src/cint2e.c:CINT2e_drv", "src/cint2e.c:CINT2e_loop_nopt", "src/g2e.c:CINTg0_2e"]}
{"id": "C52", "title": "Generated three- and two-centre repulsion integrals are the integrals of the operators they are named after", "statement": "Every component of every element returned by int3c2e_ip1, _ip2, _pvp1, _pvxp1, _ig1, _spsp1, _ipspsp1, _spsp1ip2, _ipip1, _ipip2, _ipvip1, _ip1ip2 and by int2c2e_ip1, _ip2, _ipip1, _ip1ip2 is the documented factor times the repulsion integral - 1/r12, its long-range or its short-range part as env[PTR_RANGE_OMEGA] says - of the product of the first two (the first) contracted functions and the last one after the operators have acted on them. A primitive triple is left out only if its estimates exceed the cutoffs, a primitive pair of a two-centre integral only if the exponent of its short-range integral does. With spherical output the functions are the spherical ones; with spinor output (three-centre integrals) the first two are two-component functions. The function that returns zeros without calculation when the first two shells are the same returns the right value.", "quantifier": "all 16 integrals, all shells up to the supported angular momentum, all exponents, coefficients, centres, origins, omega, dims and contents of memory, in exact arithmetic and given a root finder that returns exact Rys quadrature", "why_tests_cant": "continuous family of inputs and unbounded contraction lengths; the two-centre functions rely on a layout in which the second function plays two roles", "anchors": ["src/autocode/int3c2e.c:CINTgout2e_int3c2e_ip1", "src/autocode/int3c2e.c:CINTgout2e_int2c2e_ip1", "src/autocode/int3c2e.c:CINTgout2e_int2c2e_ip1ip2", "src/cint3c2e.c:CINT3c2e_drv", "src/cint2c2e.c:CINT2c2e_drv"]}
{"id": "C53", "title": "Values of the one-electron integrals over four functions", "statement": "Every element returned by int4c1e_cart is the normalisation of the s and p shells times the contraction of the integrals over space of the products of four primitives; a primitive quartet is left out only if the prefactor of the product of its four Gaussians is below exp(-60). If none is left out int4c1e_cart and int4c1e_sph return the integrals of the products of the four contracted (spherical) functions. Every permutation of the shells permutes the indices of the result.", "quantifier": "all shell quartets up to the supported angular momentum, all positive exponents, all coefficients, centres, dims and contents of memory, in exact arithmetic, with a cache as large as the function uses (which the queried size is not always, see C16)", "why_tests_cant": "continuous family of inputs, unbounded contraction lengths; four memory layouts and two directions of the recursion", "anchors": ["src/cint4c1e.c:CINT4c1e_drv", "src/cint4c1e.c:CINT4c1e_loop_nopt", "src/g4c1e.c:CINTg4c1e_ovlp", "src/g4c1e.c:CINTinit_int4c1e_EnvVars", "src/cint4c1e.c:int4c1e_sph"]}
{"id": "C54", "title": "Values of the generated one-electron integrals over three functions", "statement": "For each of int3c1e_p2, int3c1e_iprinv, int3c1e_ip1, int3c1e_r{2,4,6}_origk and int3c1e_ip1_r{2,4,6}_origk, Cartesian and spherical output: every component of every element is the factor of the definition times the contraction of the integrals of the product of three primitives the named operators have acted on (times the potential of the charge for iprinv); a primitive triple is left out only if the prefactor of the product of its three Gaussians is below exp(-60).", "quantifier": "all nine integrals, all shell triples up to the supported angular momentum, exponents with positive sums, all coefficients, centres, origins, charges, dims and contents of memory, in exact arithmetic", "why_tests_cant": "continuous family of inputs, unbounded contraction lengths; a component computed from memory that was never set is right or wrong depending on what was in the cache before", "anchors": ["src/autocode/int3c1e.c:CINTgout1e_int3c1e_p2", "src/autocode/int3c1e.c:CINTgout1e_int3c1e_iprinv", "src/cint3c1e_a.c:CINTgout1e_int3c1e_ip1_r6_origk", "src/cint3c1e.c:CINT3c1e_drv"]}
{"id": "C55", "title": "Derivative integrals on a list of points", "statement": "int1e_grids_ip, int1e_grids_ipvip, int1e_grids_spvsp and int1e_grids_ipip, Cartesian, spherical and spinor output: at every point of the list, every component of every element is the contraction of the matrix element of the potential of the (point or Gaussian) charge at that point between the functions the named operators have acted on, for the full, long-range and short-range interactions; the values for a point do not depend on the other points, its place in the list or the length of the list; nothing outside the block and the cache is written.", "quantifier": "the four integrals, all shell pairs up to the supported angular momentum, all exponents with positive sums, coefficients, centres, lists of points of any length, dims, contents of memory, in exact arithmetic with correct Rys roots", "why_tests_cant": "continuous family of inputs, lists of unbounded length cut in blocks, unbounded contraction lengths", "anchors": ["src/autocode/int1e_grids1.c:CINTgout1e_int1e_grids_ip", "src/autocode/int1e_grids1.c:CINTgout1e_int1e_grids_ipvip", "src/autocode/int1e_grids1.c:CINTgout1e_int1e_grids_spvsp", "src/autocode/int1e_grids1.c:CINTgout1e_int1e_grids_ipip", "src/g1e_grids.c:CINTnabla1i_grids", "src/g1e_grids.c:CINTnabla1j_grids", "src/cint1e_grids.c:CINT1e_grids_drv"]}
{"id": "C56", "title": "Rys roots by orthogonalisation are exact quadrature", "statement": "The roots and weights that CINTrys_schmidt returns (error code 0) integrate every polynomial of degree below 2n exactly against the Rys weight exp(-x t^2) on [lower, 1]; the roots are positive; the call writes only the two arrays of the caller; when the moments are negligible (x lower^2 > 200) roots and weights are zero.", "quantifier": "all numbers of roots up to 19, arguments and lower limits for which the moments are exact (zero argument or not below the turn-over point), in exact arithmetic; for three roots and more with a polynomial solver that finds the roots", "why_tests_cant": "continuous family of arguments and lower limits, every polynomial integrand", "anchors": ["src/rys_roots.c:R_dsmit", "src/rys_roots.c:_rdk_rys_roots", "src/rys_roots.c:CINTrys_schmidt", "src/find_roots.c:_CINT_polynomial_roots"]}
{"id": "C57", "title": "The choice of the root finder returns right roots, and returns whenever they are found", "statement": "CINTrys_roots and CINTsr_rys_roots return to the caller only with roots and weights that one of the methods has reported as found; and when the chosen method (or the fallback) finds them, they return instead of ending the process.", "quantifier": "every number of roots, argument and lower limit, every behaviour of the methods", "why_tests_cant": "branches over continuous arguments; rare combinations of high angular momentum and short-range interaction; every pattern of failures of the methods", "anchors": ["src/rys_roots.c:CINTsr_rys_roots", "src/rys_roots.c:CINTrys_roots", "src/rys_roots.c:segment_solve", "src/rys_roots.c:segment_solve1"]}
{"id": "C58", "title": "The SSE3 build evaluates the same repulsion integrals", "statement": "A library built with SSE3 instructions returns, for every call of int2e, int3c2e and int2c2e, the same return value and the same elements as the plain build, and reads no memory the plain build does not read.", "quantifier": "all shells, exponents, coefficients and centres, all contents of the cache and of the output array, all numbers of components and roots; exact arithmetic", "why_tests_cant": "the vector code has separate branches for every number of roots and for the odd component; the reads depend on what lies behind the block", "anchors": ["src/gout2e_simd.c:CINTgout2e", "src/cint2e.c:CINTgout2e", "src/cint2e.c:CINT2e_drv"]}
{"id": "C59", "title": "Integrals over the Yukawa interaction and the Slater-type geminal", "statement": "int2e_yp_sph and int2e_stg_sph with a positive env[PTR_F12_ZETA] = z return, for primitive quartets that are not screened, the integrals of the products of the spherical functions over exp(-z r12)/r12 and exp(-z r12); with z <= 0 both return the Coulomb repulsion integrals. A cache of the queried size suffices, every element of the block is overwritten and nothing outside the block and the cache changes.", "quantifier": "all quartets of shells with angular momenta up to 15, exponents, coefficients, centres, z, all contents of the cache and of the output array; exact arithmetic and exact quadrature", "why_tests_cant": "continuous parameters, all combinations of angular momenta; the number of quadrature points must suffice for every one of them", "anchors": ["src/cint2e_f12.c:int2e_yp_sph", "src/cint2e_f12.c:int2e_stg_sph", "src/g2e_f12.c:CINTg0_2e_yp", "src/g2e_f12.c:CINTg0_2e_stg", "src/g2e_f12.c:CINTinit_int2e_yp_EnvVars", "src/cint2e.c:CINT2e_drv"]}
{"id": "C60", "title": "Derivatives of the integrals over the Yukawa interaction and the Slater-type geminal", "statement": "int2e_yp_X_sph and int2e_stg_X_sph for X = ip1, ipip1, ipvip1, ip1ip2 return the integrals over the interaction of C59 with the functions differentiated as X says: (grad i j|kl), (grad grad i j|kl), (grad i grad j|kl), (grad i j|grad k l), 3 or 9 components with the axis of the first derivative changing slowest. A cache of the queried size suffices, every element of the block is overwritten and nothing outside the block and the cache changes.", "quantifier": "all quartets of shells with angular momenta up to 15, exponents, coefficients, centres, z, all contents of the cache and of the output array; exact arithmetic and exact quadrature", "why_tests_cant": "continuous parameters, all combinations of angular momenta; the number of quadrature points must suffice for the raised angular momenta of every one of them", "anchors": ["src/cint2e_f12.c:int2e_yp_ip1_sph", "src/cint2e_f12.c:int2e_stg_ip1_sph", "src/cint2e_f12.c:int2e_stg_ipip1_sph", "src/cint2e_f12.c:int2e_stg_ipvip1_sph", "src/cint2e_f12.c:int2e_stg_ip1ip2_sph", "src/g2e_f12.c:CINTinit_int2e_stg_EnvVars", "src/autocode/hess.c:CINTgout2e_int2e_ip1ip2"]}
{"id": "C61", "title": "Integrals over the Breit interaction", "statement": "int2e_breit_X_spinor for X = ssp1ssp2, ssp1sps2, sps1ssp2, sps1sps2 returns half the sum of minus the Gaunt integral int2e_X, minus the first and plus the second part of the gauge term (int2e_gauge_r1_X, int2e_gauge_r2_X) over the same two-component functions, at the position the optional dims argument asks for; a return value 0 means that all elements are zero; a cache of the queried size suffices for all three and nothing outside the block and the cache changes. int2e_breit_r1p2 and int2e_breit_r2p2 return the spin-free integrals with grad i . (-grad V) for electron 1 and r1 . grad l or r2 . grad l for electron 2, in the Cartesian and spherical variants with plus sign and in the spinor variant with minus sign.", "quantifier": "all quartets of shells with angular momenta up to 12, kappa, exponents, coefficients, centres, omega of either sign, all dims, all contents of the cache and of the output array; exact arithmetic", "why_tests_cant": "continuous parameters, all combinations of angular momenta and kappa; the size of the cache is queried for two of the three functions that use it", "anchors": ["src/breit.c:_int2e_breit_drv", "src/breit.c:_copy_to_out", "src/breit.c:BREIT0", "src/breit.c:int2e_breit_r1p2_sph", "src/breit.c:int2e_breit_r2p2_spinor", "src/breit.c:CINTgout2e_int2e_breit_r1p2", "src/breit.c:CINTgout2e_int2e_breit_r2p2"]}
{"id": "C62", "title": "Short-range Rys roots from tables of Chebyshev coefficients", "statement": "When libcint is built with WITH_POLYNOMIAL_FIT, the attempt to take the roots and weights of a short-range Rys polynomial from tables ends, for every x >= 0 and lower >= 0, in one of these ways: roots and weights are zero (x*lower^2 >= 38.44); they are the values of the tabulated bivariate Chebyshev series of the one pair of intervals that contains (lower, x), at arguments between -1 and 1; or the return value is 1 and nothing has changed, so that the caller goes on with another method. In all cases nothing but the roots, the weights and a local array changes. Exception: when x equals the last limit of the table for lower < 0.1 the behaviour is undefined.", "quantifier": "all x >= 0, lower >= 0, up to five roots, all contents of the tables; exact arithmetic", "why_tests_cant": "two continuous parameters; the choice of the interval and the bounds of the table must be right for every value, including the limits", "anchors": ["src/sr_rys_polyfits.c:CINTsr_rys_polyfits", "src/sr_rys_polyfits.c:searchsorted", "src/polyfits.c:_CINT_clenshaw_dc", "src/polyfits.c:_CINT_clenshaw_d1"]}
{"id": "C63", "title": "Rys roots and weights from modified moments (Wheeler) with the Laguerre moments", "statement": "The root finders for large arguments (CINTlrys_laguerre, CINTqrys_laguerre), which compute moments of the weight exp(-x t^2) over modified Laguerre polynomials, from them a tridiagonal matrix, and from its eigensystem roots and weights, return 0 only with the roots and weights of Rys quadrature: positive roots, exact for every polynomial of degree below 2n, for the full interval and for the part above a lower limit. They return 0 whenever the eigenvalue solver succeeds and at most one squared off-diagonal element is below the threshold; if two are, all roots and weights are zero and the error code is n. They stay within their local arrays and the two arrays of the caller.", "quantifier": "all x > 0, 0 <= lower < 1, 1 to 32 roots, all thresholds, all initial contents of the memory; exact arithmetic, an eigenvalue solver that is right when it reports success", "why_tests_cant": "two continuous parameters; the exactness is a statement about all polynomials of degree below 2n; three arrays rotate and overwrite the moments in every pass", "anchors": ["src/rys_wheeler.c:llaguerre_moments", "src/rys_wheeler.c:lwheeler_recursion", "src/rys_wheeler.c:lrys_wheeler_partial", "src/rys_wheeler.c:CINTlrys_laguerre", "src/rys_wheeler.c:CINTqrys_laguerre", "src/eigh.c:_CINTdiagonalize"]}
{"id": "C64", "title": "Roots and weights for Slater-type geminals from tables: choice of the cell, value of the fit, range of U", "statement": "CINTstg_roots, for T >= 0 and 1e-7 <= U < 1e3, uses the cell of the table that contains T (cut at 19682.99) and U, evaluates its fit (the interpolation in T, at 14 Chebyshev nodes, of Chebyshev series in log U) at arguments in [-1, 1) and returns the roots, and the weights multiplied with 1/sqrt(U); nothing else is changed and the table is read only within the block of the given number of roots. Other U should end the program; this is true for U >= 1e4 and U <= 1e-8, but 1e3 <= U < 1e4 is accepted with the coefficients of another cell (for the last cell of T of memory behind the table), and 1e-8 < U < 1e-7 with an argument outside [-1, 1].", "quantifier": "all T >= 0, all U > 0, any number of roots, all contents of the tables and of the memory; exact arithmetic", "why_tests_cant": "two continuous parameters and 100 cells for each number of roots; the wrong cells return plausible numbers", "anchors": ["src/stg_roots.c:CINTstg_roots", "src/stg_roots.c:_clenshaw_dc", "src/stg_roots.c:_clenshaw_d1", "src/stg_roots.c:_matmul_14_14"]}
