# Formal model of libcint — design

## 1. What is modelled and how

The model is a hand translation of C functions in /repo into Lean 4, function by
function. Every model definition carries a comment with the file and lines it
models, and says where it simplifies.

### 1.1 Memory and control flow (`Verif/Core`)

* C functions that read and write arrays are modelled as programs of a small
  imperative language `Prog` (a free monad with *read cell*, *write cell*,
  *fail*), run on a heap of numbered buffers. Each buffer has a size, and each
  cell is either uninitialised (garbage) or holds a value.
* Reading or writing out of bounds, and reading an uninitialised cell, is
  undefined behaviour: the run yields `none`. So a theorem
  "`run p h = some ...`" includes memory safety, independence of garbage in
  `out` / `cache`, and the functional result at the same time.
* `for` loops are a bounded-iteration combinator; proofs use an invariant rule.
* `goto`/`continue` become conditionals. Function pointers become parameters
  or an enumeration.

### 1.2 Numbers

* `FINT`/`int`/`size_t` become `Nat`/`Int` (no wrap-around) except where a
  property is about the integer width (cache sizes in bytes: 4- and 8-byte
  `FINT` are distinguished).
* `double` becomes an arbitrary type with the operations the code uses. Purely
  structural theorems (copying, placement, transposition, index tables) assume
  no laws. Arithmetic theorems assume a commutative (semi)ring or field, or the
  real numbers. **Floating-point rounding, overflow, NaN are not modelled.**
* `log` is `Real.log`; wherever a logarithm matters its argument is positive
  (`log 0 = -inf` of C is replaced by the hypothesis that the largest
  coefficient is positive, see `MaxCoeff`).

### 1.2a The scratch cache

* The cache of a driver is one array of `double` carved up by
  `MALLOC_INSTACK`, and some pieces hold `FINT`s. Addresses in the cache are
  counted in `FINT`s; `fpd` of them make a double (1 for 8-byte `FINT`, 2 for
  4-byte). `mallocD`/`mallocI` model `MALLOC_INSTACK` with its alignment.
* `CallMem` / `CallMem2` (hypotheses of the driver theorems) describe the cache
  as a real-number array and an integer array that share the same addresses;
  the *loop* theorems `C14_loop`, `C15_loop` state the stronger fact for one
  typed cache, where storing an integer destroys the doubles at the same
  place. In the driver theorems the pieces used as integers are shown not to
  overlap the pieces used as doubles.
* `fl`, `loc`, `counts` are the local arrays of the C functions (`empty[4]`,
  the `CART_MAX` arrays of the index functions, `counts[4]`).

### 1.3 Spec / model / proofs separation

* `Verif/Core/*`    memory model, loop rules.
* `Verif/Model/*`   the code (executable definitions, with citations).
* `Verif/Spec/*`    small independent specifications.
* `Verif/Lemmas/*`  helper lemmas and invariants.
* `Verif/Props/*`   the property theorems, each with an `example` showing that
  its hypotheses can be met.

## 2. Plan per property

| id | model | proof |
|----|-------|-------|
| C01 | `CINTcart_comp` as nested loops writing three arrays | loop invariants; list of triples = explicit spec enumeration; uniqueness and completeness |
| C02 | offset loops of cint_bas.c over an arbitrary shell list | induction on number of shells |
| C03 | both copies of the spinor size rule | case analysis, omega |
| C04 | fblas transposes, unrolled loops kept | loop invariants, functional heap update |
| C05 | gemm kernels | loop invariants, sums in a commutative semiring |
| C06 | `CINTOpt_non0coeff_byshell`, `CINTprim_to_ctr_0/1` | loop invariants; list filter spec |
| C07 | `CINTg1e_index_xyz`, `CINTg2e_index_xyz` (all four branches), stride set-up of the init functions | loop invariants; mixed-radix bounds and injectivity |
| C08 | `CINT1e_loop` with buffer aliasing and empty flags | nested loop invariant, multilinear sum spec |
| C09 | `CINT2e_loop_nopt` likewise | same, four levels |
| C10 | specialised loops and the dispatch tables | same invariants; equality with general loop |
| C11 | `CINTall_2e_optimizer` run from blank memory, `CINT2e_drv` with the optimizer it returns, against `CINT2e_drv` with NULL | equality of every element and of the return value when no pair estimate lies in the gap between the two cutoffs and `omega >= 0` (partial); `C11_differs`: two s shells where the results differ; two-centre integrals: equal without restriction; three-centre integrals: equal when `kinc <= iinc + jinc` |
| C12 | `CINTOpt_setij`, `CINTset_pairdata` | induction on shells |
| C13 | `CINTset_pairdata` decision logic over the reals | case analysis |
| C14, C15 | `CINT1e_loop`/`CINT1e_drv`, `CINT2e_loop_nopt`/`CINT2e_drv` run inside a buffer of exactly the size the driver asks for; arrays placed by `mallocD`/`mallocI` | execution never fails (memory safety of `Prog`), plus nonlinear arithmetic over `Nat` for the size formula |
| C16 | 3c2e, 3c1e, grids likewise | as C14/C15; `C16_3c1e_overrun`: counterexample for the 8-byte build of 3c1e |
| C17 | `dcopy_ij`, `dcopy_iklj` (all row-length cases), `c2s_cart_*`, driver output stage | loop invariants with functional heap update |
| C18 | `c2s_dset0`, drivers | as C17 |
| C19 | `c2s_bra_sph`, `c2s_ket_sph`, `c2s_ket_sph1`, `sph2e_inner` and the s, p, d, f, g and general kernels; `g_trans_cart2sph` digits translated by tools/c2s.py | each kernel = one matrix, applied index by index; the matrix entries are enclosed by exact harmonic polynomials (Spec/Harmonic) |
| C20 | `c2s_sph_3c2e1_ssc` placement + driver counts; the spinor functions `c2s_sf_3c2e1_ssc`, `c2s_si_3c2e1_ssc` and their driver (`Model/SscSp`) | spherical: the property is false of the code (see section 4): negation witness + partial; spinor: proved from the bra and ket transformations, the placement lemmas of three-centre output and the Cartesian values |
| C21–C23 | `CINTg1e_ovlp`, `CINTgout1e`, the complete driver | real analysis: recursion for Gaussian moments, Mathlib's Gaussian integral; result = Bochner integral over R^3 |
| C24, C25, C43 | `CINTnabla1*_1e/_2e`, `CINTx1*_1e/_2e`, all overlap-like functions of src/autocode (translated by tools/autocode.py) | operators act on polynomials times Gaussians; each component = integral of bra times operator on ket |
| C26 | `CINTg0_2e_2d` and the four 2d4d transfer loops | loop invariants, filled table = bivariate Hermite-type moment polynomial |
| C27 | 70 unrolled kernels, translated by tools/unrolled.py from g2e.c | ring identities against the general recursion |
| C28 | `CINTg0_2e` for omega = 0, > 0, < 0 | quadrature sums are exact |
| C29 | permutation symmetry of `int2e` | from C44 |
| C30 | `CINTg1e_nuc`, `CINTgout1e_nuc`, rinv and nuc drivers | values = integrals against 1/r (or Gaussian charge); sum over atoms |
| C31 | `CINTg0_1e_grids`, `CINTgout1e_grids`, the loop over blocks, `c2s_cart_1e_grids`, `c2s_sph_1e_grids`, the driver of cint1e_grids.c | invariant over the blocks; every element is one function of the coordinates of its point, for all lists |
| C32, C42 | fmt.c (`gamma_inc_like`, `fmt_erfc_like`) over the reals | integration by parts, remainder bound of the series |
| C33 | interleaving of `Prog`s access by access (Core/Touch); footprints of both drivers (Lemmas/Touch, TouchKernel) | invariant over all interleavings: every thread's part of the memory is as in a run alone; no race, no failure; output blocks may share an array |
| C34 | allocation/free trace of the optimizer functions | invariant over histories |
| C35 | root-count formulas; local arrays u[32], Rys2eT, the 136-cell component tables as arrays (Model/Scratch) | fits ⟺ explicit condition on the angular momenta; overrun proved beyond it |
| C36 | `CINTgto_norm` | Gamma integral |
| C37 | contraction coefficients of a call | linear in each shell, from C08/C09 and the drivers |
| C38 | short range + long range = full for `int2e` | from C44 |
| C39 | the macros `ALL_CINT`, `ALL_CINT1E` (Cartesian, spherical, spinor), without and with an optimizer: `dims` and `cache` NULL, own stack (`Model/Wrap`, `Model/WrapSp`, `Model/WrapOpt`) | two calls of the driver in unrelated memory give the same return value and the same numbers (`Lemmas/Drv*`: value and return value as functions of integral and shells only; with an optimizer also of its tables, which are the same in both calls) |
| C40, C41 | `CINT2c2e_loop_nopt`, `CINT3c2e_loop_nopt`, `CINT3c2e_loop` and its specialised versions | as C08/C09 |
| C44 | `int2e_cart`, `int2e_sph` without optimizer; `int2e_cart` with optimizer | values = six-dimensional repulsion integrals of the contracted functions over all surviving primitive quartets |
| C45 | `int3c2e_cart`, `int3c2e_sph` (with an optimizer: equal, C11) | as C44, the third function alone on the second electron |
| C46 | `int2c2e_cart`, `int2c2e_sph` (with an optimizer: equal, C11) | as C44; the memory layout of `g2c2e.c` is that of `g2e.c` with two shells of height 0, up to strides never used (`Lemmas/Kern2c`) |
| C47 | `CINTg3c1e_ovlp`, `CINTg3c1e_nuc`, the loops and driver of cint3c1e.c: `int3c1e`, `int3c1e_rinv`, Cartesian and spherical | the filled table holds moments of three-Gaussian products (`Lemmas/G3c1e`, `Kern3c1e`); result = integral of three contracted functions, times the potential of a charge; symmetric under all permutations |
| C48 | `int1e_grids_cart`, `int1e_grids_sph`, `int1e_grids_spinor` | recursion of a point = moments after the quadrature in t; potential of a Gaussian charge under the three interactions (`Lemmas/GridsPot`); result = matrix element of the potential |
| C49 | cart2sph.c: the spinor tables (`Model/CjTable`), the bra/ket kernels `a_bra_cart2spinor_*`, `a_ket_cart2spinor`, `a_iket_*`, output functions `c2s_sf_1e(i)`, `c2s_si_1e(i)`, `c2s_(sf\|si)_2e1(i)`, `c2s_(sf\|si)_2e2(i)`, `c2s_(sf\|si)_3c2e1`, `CINT1e_spinor_drv`, `CINT2e_spinor_drv`, `CINT3c2e_spinor_drv`, `CINT2c2e_spinor_drv`, all `int1e_*_spinor` of the catalogue (`Model/Spinor`, `Model/AutoSp1e`) | each kernel adds sums over the table rows (`Lemmas/SpKer`, `SpKet`, `SpBra1`, `SpTwo`); driver = two-sided transformation of the Cartesian block; rows = spinor spherical harmonics, checked against the verified spherical table by walking both sparse rows (`Lemmas/SpHarm`) |
| C50 | 54 functions of src/autocode with `int1e_type` 1 or 2 (translated by tools/autocode.py into `Model/AutoNuc`), `goutRys`, `Gen1e.intV` | symbolic execution of the operator macros and of the sums of arrays for every root (`Lemmas/OperRys`, `Lemmas/OperAdd`; sums of words for the gradient of the potential, which the definitions write as the derivative of the product of the functions), degree bound for the quadrature (`Lemmas/OperV`, `OperVEval`), each program compared with its definition (`Spec/OperV`) in the kernel; `Lemmas/PotGrad`: differentiation under the integral sign, so that the gradient is the derivative with respect to the position of the charge |
| C51 | 58 functions of src/autocode for four-centre integrals (translated by tools/autocode.py into `Model/Auto2e`), `goutRys` on four indices, `Gen2e.int` | as C50 with two electrons: `Lemmas/Oper2Eval` (kernel), `Oper2Drv` (screening with the increased angular momenta, contraction), each program compared with its definition (`Spec/Oper2`) in the kernel (`Oper2Match`). Spinor output (`Model/AutoSp2e`: transformation functions and factors of the `_spinor` wrappers): the quaternion parts of a component become the entries of a 2x2 matrix per electron (`Spec/SpinorFn2`), linearity of the repulsion integral in the operator list (`Lemmas/SpinorFn2`) |
| C52 | 12 three-centre and 4 two-centre functions of src/autocode/int3c2e.c (`Model/Auto3c2e`, `Model/Auto2c2e`), `Gen2e.int2c` (literal 0 for the angular momentum of the second index) | the four-function facts of C51 with the constant function 1 in the missing places (`Lemmas/Oper3Drv`, `Lemmas/Oper2cDrv`), programs compared with definitions (`Spec/Oper3`) in the kernel (`Oper3Match`); spinor output as in C51 with one electron |
| C53 | `CINTg4c1e_ovlp`, `CINT4c1e_loop_nopt`, `CINT4c1e_drv`: `int4c1e_cart`, `int4c1e_sph` (`Model/Int4c1e`; the two coordinates-of-the-recursion branches are one function with a direction argument) | the buffers hold moments of the product of four Gaussians in either direction (`Lemmas/G4c1e`, `Kern4c1e`), loops as C09 (`Loop4c1e`), driver (`Drv4c1e`); result = integral of four contracted functions (`Spec/Quad`) |
| C54 | 9 three-function one-electron functions of src/autocode/int3c1e.c and src/cint3c1e_a.c (`Model/Auto3c1e`, `Gen2e.int31`) in `CINT3c1e_drv` | moments of the product of three Gaussians as multilinear functionals of the polynomials (`Lemmas/Oper31`), programs compared with definitions (`Spec/Oper31`) in the kernel (`Oper31Match`); false for int3c1e_ip1_r6_origk (observation 23): theorems `_partial` for the other eight, a witness for the negation, and the theorem for the program with the missing line |
| C55 | `CINTnabla1i_grids`, `CINTnabla1j_grids` (g1e_grids.c) and the four functions of src/autocode/int1e_grids1.c (`Model/OperGrids`) in `CINT1e_grids_drv` | the derivative steps act on the table of one point as those of one-electron integrals do (`Lemmas/OperGridsStep`); programs compared with definitions in the kernel; moments of a pair with the potential of the point as functional (`Lemmas/OperGridsVal`); cart, sph, spinor, memory and C31 for the catalogue |

| C56 | `R_dsmit`, `_rdk_rys_roots`, `CINTrys_schmidt` (rys_roots.c), `_CINT_polynomial_roots` for one and two roots (find_roots.c; the iteration for three and more is a parameter) (`Model/RysSchmidt`) | the programs compute the orthonormal polynomials of the moment functional (`Lemmas/RysSchmidt`); roots in (0,1), Gauss' theorem and the weights 1/sum p_j^2 (`Lemmas/RysGauss`) |
| C57 | `segment_solve`, `segment_solve1`, `CINTrys_roots`, `CINTsr_rys_roots`: the choice of the method; the methods are parameters (`Model/RysSchmidt`) | Hoare-style reasoning over all branches: sound for every number of roots; returns when the methods succeed except for 17 and 18 roots (observation 8), negation proved there; unconditional values for one and two roots |
| C58 | the SSE3 version of `CINTgout2e` (gout2e_simd.c; `Model/GoutSimd`: registers of two doubles, unaligned loads and stores) | each branch computes the values of the plain version (`Lemmas/GoutSimd`); the evaluator condition of the drivers is transported from one kernel to the other (`KernelSpec.simd`), so the three kinds of repulsion integrals agree element by element; the read past the block (observation 24) is proved to happen from eight roots on |
| C59 | `int2e_yp_sph`, `int2e_stg_sph` without optimizer (cint2e_f12.c, g2e_f12.c: set-up, `CINTg0_2e_yp`, `CINTg0_2e_stg`; driver and loops of cint2e.c) (`Model/F12`); `CINTstg_roots` is a parameter | Laplace-type representations of `e^(-ζr)/r` and `e^(-ζr)` reduce the six-dimensional integral to an integral over (0,1) (`Lemmas/F12Pot`), which the quadrature evaluates exactly (`Lemmas/F12Kernel`); the driver argument is that of C44 (`Lemmas/DrvF12`).  Such a quadrature exists for every number of points (`Lemmas/F12Exist`) |
| C60 | the eight functions `int2e_{yp,stg}_{ip1,ipip1,ipvip1,ip1ip2}_sph` of cint2e_f12.c without optimizer (`Model/F12Oper`) | the argument of C51 with the evaluator of C59 (`Lemmas/F12Oper`); the statement uses only partial derivatives of the spherical functions (`Spec/F12Oper`) |
| C61 | breit.c (`Model/Breit`): `_int2e_breit_drv`, `_copy_to_out`, the four `int2e_breit_X_spinor`, `int2e_breit_r1p2`, `int2e_breit_r2p2`; the array from `malloc` is part of the call's memory | what each of the three spinor functions stores does not depend on memory (C18), the driver combines and copies it (`Lemmas/Breit`, `Props/Breit`); values from C51 (`Props/BreitVal`), and the size of the g array is monotone enough in the raised angular momenta for the Gaunt function to fit the queried cache (C61_cache); `Props/BreitFree` for the spin-free integrals |
| C62 | sr_rys_polyfits.c and `_CINT_clenshaw_dc/_d1` of polyfits.c (`Model/PolyFits`); the tables are arrays in memory with arbitrary contents, the limits SR_DATA1_TBASE (not in the repository) are a parameter | the binary step plus scan finds the interval (`Lemmas/PolyFits`, without using that the limits increase); the recursion of Clenshaw sums the series in Mathlib's Chebyshev polynomials; the cases of (lower, x) in `Props/PolyFits`, including the refusal and the undefined case |
| C63 | `laguerre_moments`, `wheeler_recursion`, `rys_wheeler_partial`, `CINT{l,q}rys_laguerre` (rys_wheeler.c) and `_CINTdiagonalize` for one row; for more rows the solver is a parameter (`Model/Wheeler`) | three-term recursion of the orthogonal polynomials and Golub-Welsch (`Lemmas/GolubWelsch`); mixed moments and their recursion, Laguerre moments by partial integration (`Lemmas/WheelerMath`); the programs keep these invariants while the arrays rotate (`Lemmas/Wheeler`); a solver as assumed exists by the spectral theorem (`C63_solver_exists`) |
| C64 | `CINTstg_roots` with `_clenshaw_dc`, `_clenshaw_d1`, `_matmul_14_14` (stg_roots.c), tables in memory with arbitrary contents (`Model/StgRoots`) | Clenshaw's recurrence sums a Chebyshev series (`Lemmas/PolyFits`); frame and values of the two passes (`Lemmas/StgRoots`); the cell from bounds of logarithms; with exact cosines the fit interpolates at the 14 nodes, by orthogonality of the cosines (`Lemmas/DiscreteCos`); counterexamples at both ends of the range of U |

### 2a Modelled and not modelled

Modelled: cart2sph.c (c2s tables; s..general bra/ket transforms; `dcopy_*`,
`c2s_dset0`, Cartesian and real-spherical output of 1e, 2e, 3c, ssc; spinor tables, kernels and output functions of 1e, 2e, 3c2e and ssc integrals and integrals on grids),
cint_bas.c, fblas.c, optimizer.c, misc.c (norm), fmt.c (double versions),
g1e.c, g2e.c (all), the environment set-up of g1e/g2e/g3c2e/g2c2e/g3c1e,
cint1e.c (loop, real and spinor drivers, overlap, nuc), cint2e.c (all loops, driver without
and with optimizer, `CINTgout2e`), gout2e_simd.c (SSE3 version), cint3c2e.c (loops, driver without and with optimizer), cint2c2e.c (loops, driver
without and with optimizer), g3c1e.c, cint3c1e.c, cint3c1e_a.c and src/autocode/int3c1e.c (loops, driver, all integrands), g4c1e.c and cint4c1e.c, g1e_grids.c (without `CINTx1i_grids`, `CINTx1j_grids`), cint1e_grids.c and src/autocode/int1e_grids1.c,
cint1e_a.c, the overlap-like
functions of src/autocode/intor1.c and related files, those with a nuclear or
rinv potential or its gradient, and the four-, three- and two-centre ones, also with the gradient of
r12 (without the three of observation 25).

g2e_f12.c and cint2e_f12.c, without optimizer.

Of rys_roots.c and find_roots.c: the Schmidt orthogonalisation (double version), the closed
formulas for one and two roots and the choice of the method (C56, C57). sr_rys_polyfits.c with the
two functions of polyfits.c it uses (C62). stg_roots.c without its data (C64). Of rys_wheeler.c: Wheeler's algorithm and the Laguerre
moments in the long double and quad versions (C63; the text is the same up to the threshold and the
order of a sum, and the arithmetic of the model is exact).

Not modelled: the other root finders
(tabulated fits in rys_roots.c, QR iteration in find_roots.c, the Jacobi moments of rys_wheeler.c,
eigh.c for two and more rows; the data of stg_roots.c, roots_xw.dat, is not in the repository), the optimizer for f12 integrals, long double / quad versions in fmt.c,
autocode functions that are not listed in `Model/Auto1e`, `Model/AutoNuc`, `Model/Auto2e`, `Model/Auto3c2e`, `Model/Auto2c2e`, `Model/Auto3c1e` or `Model/OperGrids`, the CBLAS and Fortran
wrappers.

The root finders enter as a parameter: theorems about values assume that for
the number of roots and arguments needed they return exact quadrature
(`RysOK`, `Rys2OK`, for F12 `RysFOK`: the weighted sums of `u^k/(1+u)^k` equal Boys integrals up to the
order the count allows). That assumption is satisfiable:
`Lemmas/RysExist` constructs such a quadrature for every order and every weight
by Gauss' theorem, so the theorems are not vacuous.

Generated model files (their generators are part of the translation that has to
be trusted): `tools/autocode.py` -> `Model/Auto1e.lean`, `Model/AutoNuc.lean`, `Model/AutoSp1e.lean`, `Model/Auto2e.lean`,
`Model/Auto3c2e.lean`, `Model/Auto2c2e.lean`, `tools/c2s.py` ->
`Model/C2sTable.lean`, `tools/cj.py` -> `Model/CjTable.lean`, `tools/unrolled.py` -> `Model/Unrolled.lean`.
`tools/manifest.py` writes MANIFEST.json, `tools/mutate.py` runs the wrong-program
tests logged in seeded/LOG.jsonl.

## 3. Trusted base

* Lean 4.33.0 kernel; axioms used by every theorem are at most `propext`,
  `Classical.choice`, `Quot.sound` (audited with `#print axioms`).
* The reading of the C code: the model is a hand translation, plus the
  generated files named above.
* Exact arithmetic in place of IEEE arithmetic; mathematical integers in place
  of `int` unless stated.
* libc `exp, log, sqrt, erf` are the mathematical functions.
* The Rys root finders are parameters of the model (not verified), except for
  the part in C56.

## 4. Observations about the code (found while reading)

Those marked *proved* are theorems about the model.

1. **Optimizer screening differs from direct screening** (*proved*, C11_differs).
   `CINTinit_int2e_EnvVars` adds 1 to the user's cutoff, `CINTOpt_setij` does
   not; the `omega<0` cutoff adjustment comes after `eklcutoff` is set in the
   optimised loops; `setij` uses `li + max increment` instead of
   `li_ceil`, `lj_ceil`; `<` (validity) vs `>` (skip) at equality.
2. **`int3c2e_sph_ssc`** (C20, *proved*): the driver compares against
   `c2s_sph_3c2e1` only, so `counts` are Cartesian for the ssc variant, and
   `c2s_sph_3c2e1_ssc` advances by `nfi*ic` instead of `di*ic` and ignores
   `dims`; it writes past the block and past the end of `out`.
3. **3c1e cache size with 8-byte FINT** (C16, *proved*): `i_prim+j_prim+k_prim` integers
   of `non0ctr` are not counted.
4. **`CINT3c1e_drv` with INT1E_TYPE_NUC** writes results to `buf` but
   transforms `gctr`, which is uninitialised (no exported function uses it).
5. `c2s_dset0` reads `dims[2]` also for two-index integrals (*proved*): a caller
   passing a two-element `dims` to an integral that screens to zero reads out of
   bounds.
6. `shells_cgto_offset` writes `ao_loc[0]` even for `nbas = 0` (*proved*).
7. `TURNOVER_POINT` has 40 entries and is read at `m`; `m >= 40` is out of bounds
   (*proved*, C32_order_limit); with `nroots` up to 32 the callers ask for more.
8. `CINTsr_rys_roots`, cases 17 and 18, call `segment_solve1` without
   assigning `err`, so the error path is always taken: the process ends with
   exit code 1 although the roots were found (*proved*, C57_sr_roots_17_18_exit).
   Example: a short-range four-centre integral of four l = 8 shells.
9. Screening of a quartet is not symmetric in the two electrons for `omega < 0`.
10. `CINT2c2e_loop` (optimized) does not test the index table for NULL.
11. `CINTg0_2e_2d` loads `gx[j+dn]` also when `nmax = 0`, where it is
    unrelated memory; the value is unused (model: not loaded).
12. Several type 1/2 autocode functions add whole slabs including cells
    that were never written; those cells are not used later.
13. The generated code of `p4`, `spsigmasp`, `sprsp`, ... moves operators to the
    other side by integration by parts; `spsp` drops the spin part (*proved*,
    C43_spsp_spin_part).
14. `CINTg1e_nuc` and the `*2d_4d` functions form pointers before the start of an
    array.
15. The 2e cache formula counts only three copies of the contracted block; it is
    sufficient only because unit-contraction shells alias their buffers
    (*proved*, C15).
16. In `CINT3c2e_loop_nopt` and the optimized loops `envs->lk_ceil` is always 0 (the
    third shell sits in the `l` slot), so the `lk_ceil` branch of the short-range
    cutoff adjustment (cint3c2e.c:115-118) is never taken: long-range tails of
    high angular momentum auxiliary functions get no allowance.
17. The pair table built by `CINTOpt_setij` uses the increment
    `max(iinc+jinc, kinc+linc)` for every pair, the NULL-optimizer loops
    `li_ceil + lj_ceil`, that is `iinc + jinc`.  For three-centre integrals with
    `kinc > iinc + jinc` (`int3c2e_ip2`) the estimates of the table are smaller
    (more is kept) than those of direct evaluation.
18. `c2s_grids_dset0` (cart2sph.c:4768-4773) copies `dims[3]`: a caller's `dims` with
    one number for each of the three indices of the result is read beyond its end
    when the block is zero (*proved*, C18_grids_dims_overread).
19. The spinor tables end at l = 12 (`g_c2s` has NULL for l = 13 to 15) while the
    Cartesian and spherical functions work up to 15: a spinor integral with such a
    shell dereferences NULL (*proved*, C49_high_l).
20. `int1e_ippnucpip` and `int1e_ipprinvpip` return their nine components with the
    derivative of the *ket* as the slow index; all other integrals with derivatives
    on both sides (`int1e_ipnucip`, `int1e_ipspnucspip`, ...) have that of the bra
    there (the definitions of C50 record both orders).
21. The integrals with a derivative of the potential (`int1e_drinv`, `int1e_ia01p`,
    `int1e_a01gp`, `int1e_*_a11part`, `int1e_*sa01*`) form it as
    `for (ix = 0; ix < envs->g_size * 3; ix++) g2[ix] += g3[ix]`.  The loop runs over
    whole slabs, also over cells that the operators before it never wrote:
    uninitialised reads whose results are not used (the model adds only the cells written,
    `sumArr`; later reads of other cells are errors).  The same holds for `int2e_gauge_*` and
    `int2e_ip1v_*`.
22. The cache size asked for, and allocated, by `CINT4c1e_drv` leaves out the buffers of
    the contraction levels and the three work arrays of `CINTg4c1e_ovlp`, which lie last.
    Three s shells with three primitives and three contractions and an uncontracted s
    shell make `int4c1e` store behind the end (*proved*, C16_4c1e_overrun); so do four
    uncontracted-result s shells with more than 48 primitives (C16_4c1e_s_shells), and
    shells of any angular momentum with three, three, three and one contractions
    (C16_4c1e_too_small).
    C16_4c1e_fits gives a condition under which the size suffices, C16_4c1e_cart and
    _sph prove that the size actually used does.
23. `CINTgout1e_int3c1e_ip1_r6_origk` (src/cint3c1e_a.c) uses the array `g76` in its y component
    (`6*g48[ix]*g76[iy]*g3[iz]`, line 627) but the line that would fill it,
    `G1E_D_I(g76, g12, envs->i_l+0, envs->j_l, envs->k_l)`, is missing: the y component depends on
    what the cache held before (*proved*, C54_ip1_r6_origk_depends_on_memory).  With the line the
    integral is right (C54_ip1_r6_origk_repaired).
24. The SSE3 version of `CINTgout2e` (src/gout2e_simd.c), in the branch for eight and more roots when
    it adds to the block, loads `gout[n]` and `gout[n+1]` with `_mm_loadu_pd(gout+n)` although only
    `gout[n]` is used: for the last component this reads the double behind the block (*proved*,
    C58_reads_past_block).  The value is not used.  In the drivers the double lies in the cache, where
    it may be uninitialised.
25. `int1e_a01gp`, `int2e_ipvg1_xp1` and `int2e_ipvg2_xp1` apply operators to cells nothing has
    written.  `CINTgout1e_int1e_a01gp` (src/autocode/intor1.c:477-480) forms `g3` from `g2` up to
    `i_l+2` although `g2` was formed up to `i_l+1`.  `CINTgout2e_int2e_ipvg1_xp1` (intor2.c:716) and
    `..._ipvg2_xp1` (875) form derivatives with respect to j up to `j_l+1`, which need `g0` up to
    `j_l+2`, while `ng[1]` is 1.  The cells concerned end up only in products that no component
    of the cross product uses.  The three stay outside the catalogues because the model counts
    reading such a cell as an error.
26. `int2e_stg_sph` with `env[PTR_F12_ZETA]` zero or negative returns the Coulomb repulsion integrals
    (*proved*, C59_no_exponent), not the limit ζ -> 0 of the geminal integrals, which is the product
    of two overlaps.
27. `CINTinit_int2e_yp_EnvVars` and `CINTinit_int2e_stg_EnvVars` (src/g2e_f12.c) do not set
    `envs->rys_order`.  When `env[PTR_RANGE_OMEGA]` is negative `CINT2e_loop_nopt`
    (src/cint2e.c:125-146) and `CINT2e_loop` read it, so the screening of int2e_yp and int2e_stg
    then depends on an uninitialised variable.  In the model its contents are part of the call
    (`CallF.order`); the theorems hold for all contents.
28. `CINTstg_roots` (src/stg_roots.c:430-431) rejects `iu < 0 || iu > 10` although the tables have ten
    intervals of U (the comment says 0 <= iu <= 9): U in [1e3, 1e4) is accepted and reads the data of the
    next interval of T, or behind the table for the last one.  Conversion to `int` truncates
    towards zero, so U in (1e-8, 1e-7) is accepted too, outside the interval of the fit.
    (*proved*, C64_upper_wrong_cell, C64_upper_past_end, C64_lower_outside.)
29. `int2e_breit_r1p2_spinor` and `int2e_breit_r2p2_spinor` (src/breit.c:219-226, 308-315) use
    `c2s_sf_2e1i` and `c2s_sf_2e2i`, which multiply by i for each electron: they return **minus** the
    integral over two-component functions of what the Cartesian and spherical variants return
    (*proved*, C61_spin_free_spinor with C61_spin_free).
30. `_int2e_breit_drv` (src/breit.c:87-93) answers the query for the cache size without asking the
    Gaunt function, whose number of roots can exceed that of the gauge functions (short range,
    order 3 against 4: six roots against four).  The size suffices nevertheless, as the gauge functions
    reserve more than three times as many intermediate arrays (*proved*, C61_cache).
31. CINTsr_rys_polyfits (src/sr_rys_polyfits.c:85-86) compares `x`, which is at least 196 there, with
    6.2, the last limit for sqrt(x)*lower, before it replaces `x` by that square root. The branch is
    never taken, the table for large x (sr_roots_part3) is never used and the function returns 1
    (*proved*, C62_refused); the caller then uses another method. The index of the branch would also be
    wrong: it takes the interval of `lower` from the limits 0.1, ..., 0.6, the table starts at 0.
32. src/sr_rys_polyfits.c:66 accepts `x` equal to the last limit of its table; `searchsorted` then
    returns the index of that limit and line 71 reads the limit after it (*proved* undefined,
    C62_end_undefined).
33. When rys_wheeler_partial (src/rys_wheeler.c:3641-3649 and the two copies) finds the matrix singular,
    the loop that clears the roots uses the variable of the outer loop, so the error code is `n` and not
    the row (*proved*, C63_laguerre_singular). When the eigenvalue solver fails, the weights are
    computed from an array the solver may not have set, before the error is returned. In exact arithmetic
    the test `b < 0` never succeeds: the elements are ratios of positive norms (*proved*, used in
    wheelerPartial_wp).
