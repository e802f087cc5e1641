# Formal model of iers2010 in Lean 4 — design

## 1. Layout

| directory | content |
|---|---|
| `lean/Verif/Model/*.lean` | the model: Lean definitions transcribed function by function from `/repo`; every definition cites file and lines and says where it simplifies |
| `lean/Verif/Spec/*.lean`  | small specifications that do not use the model's helpers (textbook definitions, "last write wins", "the records with start <= t < end", ...) |
| `lean/Verif/Proof/*.lean` | helper lemmas |
| `lean/Verif/Props/*.lean` | the property theorems only, each with an `example` beside it showing that its hypotheses are met by a concrete non-trivial case |

`properties.jsonl` lists the properties in English, `MANIFEST.json` maps each to theorem names,
`seeded/LOG.jsonl` records the wrong programs the theorems were tested against.

## 2. Modelling conventions

* **Undefined behaviour is an outcome.** `Res α` has constructors `ok`, `ub` (out-of-bounds access,
  null dereference, use after free ...), `abort` (a live `assert`). A function that may touch memory returns `Res`.
* **Floating point.** `double` is modelled by a type parameter with the operations used, or by ℝ.
  Rounding, overflow to infinity and NaN are not modelled, except in the compensated summation
  property (C63), which is stated for an arbitrary rounding function, and in C92, C105, C106, C107, C109, C110 to C127, where the angles and CIP
  coordinates, the rotation built from them, third-body attraction, the interpolation of Earth orientation, the relativistic acceleration, the
  tidal variations of Earth rotation, the pole tide, the geopotential of the solid Earth tide, its displacement of a site, the ocean and atmospheric tide models, the ocean pole tide, time-variable gravity models, dealiasing streams, lookups in grids, free core nutation and the other forms of the rotation to ITRS are modelled a second time with a rounding to nearest after every operation and literal
  (53 bits, unlimited exponents; the compiler may fuse any product with the sum it goes into, `Model/Arith`). Elsewhere numeric literals are the exact decimals.
* **Integers.** `int`/`long`/`size_t` are `Int`/`Nat`; overflow is not modelled unless stated.
* **External libraries** (`datetime`, `geodesy`, Eigen, CSPICE, libstdc++): replaced by their documented
  meaning (an epoch is an element of a linear order or a real number of days, a matrix is a 3x3 real matrix,
  `from_chars` is a parser parameter or an explicit numeral parser, streams are lists of lines).
* **Where the code violates a property** the negation is proved with a concrete witness
  (theorem suffix `_fails`), and what does hold is kept as a `_partial` theorem.
  Section 5 lists these disagreements.

## 3. Trusted base

Lean 4.33.0's kernel; the standard axioms `propext`, `Classical.choice`, `Quot.sound` (no others; checked
with `#print axioms`; `AXIOMS.md` lists them for each claimed theorem); the reading of the C++ sources recorded in the citations of the model files.
No `sorry`, no `native_decide`, no `bv_decide`, no own axioms. Section 6 says which parts of the code are modelled.

## 4. Plan per property

| id | property | model and proof |
|---|---|---|
| C01 | Element addressing is a bijection onto the buffer, for all five storage types | Model the five `StorageImplementation`s (`Model/Storage`). Prove injectivity, bounds and surjectivity of `index` on addressable positions by arithmetic/induction on slices. |
| C02 | Slices tile the buffer | Same model; `slice(i+1) = slice(i) + count(i)`, ends at `num_elements`. |
| C03 | Reading a matrix element returns the last value written to that element | Matrix = storage + buffer; writes update the buffer at `index`; refinement to a function of (i,j) by induction over the write history using C01. |
| C04 | A matrix never addresses memory it does not own, through any history of construction, copy, move, swap, resize, cresize, assignment | Heap model with allocation ids (`Model/Matrix`): `step : State -> Op -> Res State`; invariant by induction over operation lists. |
| C05 | Matrix operations release every buffer they drop | Same heap model; negation for move assignment (leak, self-move), partial theorem for histories without move assignment. |
| C06 | cresize keeps the common elements | Slice-wise copy loop of `cresize` modelled on buffers; prove element preservation for all five layouts. |
| C07 | Copies are value copies | Copy/move/swap on the heap model; element-wise equality and independence. |
| C08 | Matrix expressions mean element-wise arithmetic | Expression trees as an inductive type with the two evaluation paths; induction on trees. |
| C09 | Adding Stokes coefficient sets adds every coefficient and nothing else | `operator+=` loops modelled on matrices (`Model/Stokes`); element-wise characterisation. |
| C10 | Degree/order of a Stokes set stays consistent with its storage | State machine on (degree, order, matrix dimension); invariant by induction. |
| C11 | C/S <-> single-matrix (anm) packing round-trips | `to_anm`/`from_anm` loops; round trip for all degrees. |
| C12 | clear and scale act on all coefficients | `clear`/`scale` models; degree-0 corner case negated if violated. |
| C13 | Doodson number text form round-trips | Character-level model of `str`/`from_chars`; round trip by case analysis on characters. |
| C14 | Out-of-range multipliers are never rendered as a different constituent | `int2char` has no range check: negation by witness, exact range as partial theorem. |
| C15 | Tidal arguments are angles in [0, 2pi) congruent to the multiplier combination | Reals; `anp` as `x - 2pi*floor(x/2pi)`; congruence via integer multiples of 2pi. |
| C16 | Wave tables are unambiguous | Tables transcribed; `decide +kernel` over the whole table, lifted to lookups over all keys. |
| C17 | IERS Doodson strings decode digit-wise | Parser model over character lists with an explicit out-of-bounds outcome. |
| C18 | EOP lookup brackets the epoch | `upper_bound` as first index with t < t_i; window shrink loop; bounds by induction. |
| C19 | EOP interpolation is exact at the nodes and on low-degree polynomials | Lagrange formula over a field; exactness via uniqueness of interpolating polynomials (Mathlib `Lagrange`). |
| C20 | A leap second inside the window does not disturb UT1-UTC | Algebra over the interpolation formula (weights sum to one). |
| C21 | The reported interpolation status is truthful | Status decision logic; negation for even degrees if violated. |
| C22 | regularize and deregularize are inverse | Fold over the series with an arbitrary epoch-dependent correction. |
| C23 | Approximate UT1-UTC agrees with linear interpolation | Same lookup model, linear formula. |
| C24 | C04 parsing returns exactly the records in [start, end) | Line-list model of the C04 reader with a per-line decoder; `filter`/`takeWhile` specification. |
| C25 | Normalised angles stay in [0, 2pi) | Reals; floor arithmetic. |
| C26 | Rates of fundamental arguments and sidereal time are derivatives | `HasDerivAt`; negation where factors are missing, partial for what holds. |
| C27 | Time-variable gravity coefficients accumulate to the documented formula | Line-list model of the v1 reader; sum specification. |
| C28 | ICGEM v2 uses exactly the records valid at the epoch | Line-list model of the v2 reader. |
| C29 | Reading a gravity model never writes outside the coefficient matrices | Same models with out-of-bounds outcome; negation for damaged lines, partial under well-formed lines. |
| C30 | After reading, reported degree/order equal what was collected | Same models. |
| C31 | Fortran-style exponents parse to the same number | Character-level replacement of D by e followed by a numeral parser. |
| C32 | AOD1B file names round-trip to the release number | String model; round trip; negation for `.gz`. |
| C33 | AOD1B block reading stores exactly the block's coefficients | Line-list model of `collect_coeffs`. |
| C34 | Seeking a data block finds the next block of the wanted type | Block-list model of `goto_next_block`. |
| C35 | The dealiasing stream interpolates between the two blocks around the epoch | State machine with three buffered blocks and a block iterator; negation for long jumps, partial for the served paths. For arbitrary histories of queries a refinement to a machine on the lists of data sets of a series of files (`Spec/Aod1bHistory`) |
| C36 | The tidal coefficient file reader is all-or-nothing | Line-list model of `get_tidal_wave_coeffs`. |
| C37 | A tide atlas never holds a constituent twice | List model of the atlas; invariant by induction. |
| C38 | Tide potential is the sum of the constituents' contributions | Fold over constituents on coefficient functions; history independence through `clear`. |
| C39 | The result container of an atmospheric tide model is large enough for every constituent | State machine on (degree, order); negation by witness, partial for monotone histories. |
| C40 | Admittance combines major waves with the matrix | Fold with matrix factors; bilinear sum. |
| C41 | GROOPS file names: parse inverts compile | Character-level model of name parsing and compilation. |
| C42 | A GROOPS file list is accepted only if every wave has its sin and cos file | List model; negation by witness (sin-only list), partial for what the check does. |
| C43 | The admittance file reader fills exactly the announced matrix | Line-list model with row counter and out-of-bounds outcome. |
| C44 | OceanTide objects own their admittance model exclusively | Heap/ownership model; negation by witness, partial for histories without the faulty move. |
| C45 | Pole tide corrections follow the linear formula about the secular pole | Reals; linear algebra. |
| C46 | Ocean pole tide coefficients depend only on the call's arguments | State machine on the coefficient container; negations (stale coefficients, degree 360), partial for full-degree calls. |
| C47 | Pole tide displacement is a rotated local vector | Reals; orthogonality of the rotation. |
| C48 | Gridded loading coefficients are interpolated at the site's own longitude and latitude | Reals; node lookup with `floor`; negation for the longitude shift; bilinear exactness. |
| C49 | Grid index and node conversions are inverse | Integer model of `TwoDimGrid` for both axes; negation for the X axis on non-square grids. |
| C50 | Surrounding nodes are the four corners of the point's cell | Same; negation by witness, partial for Y axis interior cells. |
| C51 | Step-1 solid tide coefficients follow the complex formula and superpose | Complex-number specification; algebra. |
| C52 | Step-2 solid tide coefficients follow the complex formula per band | Complex-number specification; fold over a table of rows. |
| C53 | Solid tide coefficient assembly puts each correction in its place | Container model; all cells. |
| C54 | Computed associated Legendre functions are the normalised ones | Recursion modelled on functions (n,m); specification through Legendre polynomials (Rodrigues) and their derivatives; induction. |
| C55 | Computed Legendre derivatives are derivatives | `HasDerivAt` of the specification; recursion identity. |
| C56 | Legendre and gravity recursions stay within their work arrays | Index-trace model of the loops: every access with its array bound; negation with witnesses, partial under sufficient sizes. |
| C57 | Gravity acceleration is the gradient of the truncated potential | Recursion of Cunningham functions over the reals; partial derivatives by induction on degree. |
| C58 | Gravity gradient is symmetric and trace-free | Algebra over the accumulation loop; every term is symmetric and trace-free. |
| C59 | Point-mass acceleration and its Jacobian agree | Reals; `HasDerivAt` in each direction. |
| C60 | Celestial-to-terrestrial matrices are rotations and compose | 3x3 matrices and quaternions over the reals. |
| C61 | The rotation-rate matrix is the time derivative of the rotation | `HasDerivAt` of matrix entries. |
| C62 | CIP coordinates convert to spherical angles and back | Reals; `arctan`, `sqrt`, complex argument. |
| C63 | Compensated summation loses nothing in exact arithmetic and tracks the rounding error | Fold over the inputs, parametric in a rounding function. |
| C64 | Average running time is total over samples | State machine; integer division negation if violated. |
| C65 | Free core nutation is the rotating complex amplitude | Complex-number specification; search over the table. |
| C66 | Lambert coefficient files: exactly the records in [from, to) | Line-list model. |
| C67 | Relativistic acceleration equals the SI formula and is unit-consistent | Vectors over the reals; algebra. |
| C68 | Planet identifiers are distinct and their text form decodes | Finite table; digits model. |
| C69 | A requested kernel is loaded | State machine on loaded names; negation by prefix witness. |
| C70 | A tidal wave reports the name it was given | Table lookup by name; byte-level model of the name buffer; see Props for what holds and what does not. |
| C71 | A GROOPS atlas holds for each wave the coefficients of its own files | Fold over the file list; invariant (waves distinct, parts filled). |
| C72 | GROOPS list and Doodson files are read completely | Line-list models with the fixed buffers; negation for overlong lines, partial for short ones. |
| C73 | An ICGEM header is read as written | The loop over `getline` lines with its fixed-size members; lines are related to settings by a grammar; composed with the data readers for whole files. Overruns, dropped exponents and misread comments are shown with concrete files. |
| C74 | The Desai coefficient file is read as written | Line-list model; completeness and soundness; negation for m > l. |
| C75 | The solid tide displacement is that of the Conventions | Vector model over ℝ; the local rotation is inverted, sums over bodies and constituents by induction on the table. |
| C76 | Zonal tide corrections are mutually consistent | Table with integer amplitudes, loop as a sum; derivative along the polynomials of the fundamental arguments; per-row bounds by rational arithmetic over the whole table, summed by induction. |
| C77 | Libration corrections are those of PMSDNUT2 and UTLIBR | The routines' tables are the specification; Doodson multipliers are converted to theirs, rows compared over the whole tables. |
| C78 | Diurnal LOD corrections are minus the rate of the UT1 corrections | As C76, with a sidereal time of given rate. |
| C79 | CIP coordinates: both implementations give the Conventions' series | Tables 5.2a and 5.2b (from script/tables52ab.py) are the specification; the merged and the separate tables are shown to be permutations of them by sorting in the kernel; sums are permutation invariant. |
| C80 | The CIO locator is the Conventions' series | The published 66 terms are the specification; the skipped planetary part and the zero-filled rows are shown not to matter. |
| C81 | GCRS to ITRS at an epoch | The models of the CIP, the CIO locator, the Earth rotation angle and the quaternions are wired as in the four functions; amplitudes of the tables are summed by the kernel to bound X and Y. |
| C82 | An AOD1B header is read as written | The loop over lines, the keys in the order of the comparisons, the 80 bytes of texts with `memcpy`, `header_field` with its reads outside the line; the date library is a parameter. Lines are related to settings by a grammar; the texts are followed through the shared memory; composed with the tidal reader (C36). |
| C83 | Planet positions are geocentric, geometric and in metres | The two functions with CSPICE (`unitim_c`, `spkezp_c`, `spkez_c`, `bods2c_c`) as a parameter that is documented to compute from an ephemeris; the specification has the NAIF numbers, the Julian date and the vector difference. |
| C84 | Gravitational constants of Sun and Moon come from the named kernel | The kernel pool is the list of loaded files; `bodvrd_c` takes the last file that defines the constant; the files on disk are a parameter. |
| C85 | A dealiasing stream runs through a directory of daily files | The constructors, the name of the next file and the opening of it, over a file system that is a parameter; composed with the header (C82), the naming (C34) and the stream (C35) by induction over the days. Queries in any order: the files form a series in the sense of C35, so that its machine gives every answer. |
| C86 | Dealiasing streams can be created, fed, moved and destroyed in any order | Programs over a heap with the arrays, the pointer of the iterator and the directory; refinement to streams as values for programs without moves; an invariant that refutes every program with moves. |
| C87 | Copies of an AOD1B header object are complete | The four special members, member by member, over uninitialised memory. |
| C88 | An ocean tide model made from its files gives the coefficients the files stand for | The readers of names, lists, ICGEM headers, records and matrices put together over a disk of texts; induction over the waves of the list; then the sums of C38 and C40. |
| C89 | Merged AOD1B files hold all the data of the files merged, and can be read | The script over texts on a disk, with exceptions and non-termination as outcomes; induction over header lines; the case of three files by an invariant on the header values; the reader of C83 on the merged text. |
| C90 | The benchmark programs compare every epoch of the orbit with the benchmark | Readers over texts by induction on the lines; the loop in lock-step over two lists; positions from the ephemeris by C83 and accelerations by C67 and the formula of the tidal acceleration. |
| C91 | A set of Stokes coefficients behaves as a value | Refinement: a relation between states with memory (C09-C12) and values (`Verif.Coeffs`, the type used by the models of tides, gravity fields and files), kept by every operation; programs by induction. |
| C92 | Angles and CIP coordinates keep their accuracy in double precision | Second model with a rounding function; error calculus (bound on the value, bound on the error) composed along the expressions; induction over the series tables with weights summed by the kernel; negation for the upper end of the range. |
| C93 | The attraction of an ocean tide model is that of its files | Composition of the model of the files (C88), of the evaluations and of the gradient of spherical harmonics (C57), linearity of the potential, constants kept by every evaluation; negation for other constants in the files. |
| C94 | The ocean tide checks accept exactly what agrees with the tide of the files | Model of the four programs; invariant of the objects over the epochs (an evaluation depends on the coefficients before it only through their dimensions); composition of C23, C24, C25, C57, C88, C90 and C93; negations for empty orbits, missing rows and epochs outside the Earth orientation. |
| C95 | The gravity field checks accept exactly what agrees with the model at the epoch | Model of the two programs; composition of C27, C28, C30, C73 (ICGEM files), C57 (gradient) and C90 (rows of the benchmark); negations for empty orbits and missing rows. |
| C96 | The atmospheric tide checks accept exactly what agrees with the tide of the AOD1B files | Model of the two programs; invariant of the model over the appended files and over the epochs; composition of C33, C36, C82 (files), C38, C39 (sum), C23, C24 (UT1), C57 (gradient) and C90; negation for the constants of the files. |
| C97 | The solid Earth tide check accepts exactly what agrees with the Conventions | Model of the program; composition of C53 (tide), C83 (ephemeris), C57 (gradient), C23, C24 (UT1) and C90 (rows of the benchmark), by induction over the epochs with what the objects keep; negations for empty orbits, missing rows and epochs after the Earth orientation. |
| C98 | The dealiasing check accepts exactly what agrees with the AOD1B files | Model of the program; composition of C85 (archive of daily files), C57 (gradient) and C90 (rows of the benchmark), by induction over the epochs with an invariant that follows the position of the stream; for arbitrary epochs, the same with the machine of C35 in place of the position; negations for missing rows and files of low degree |
| C99 | Earth orientation at an epoch from a file of records | The series of C19 to C24 over the reals, the zonal tides removed; composition of interpolation, sidereal time, libration, ocean and zonal tides, shown equal to a specification with polynomials and Doodson arguments that determines the values uniquely; programs of the project by induction over the epochs with an invariant on the series |
| C100 | Displacement of sites by the pole tides over ten days | The program as its state after n turns of the loop, composed of the models of C24, C18, C48 and the pole tides; an invariant on the series by induction over the turns. The longitude and latitude of a site are a parameter |
| C101 | Solid Earth tide from the documented constants | The constructor with the arguments in declared and in documented order, composed with the formula of C75 and the history of C53; a numeric instance for the failure |
| C102 | A matrix expression kept in a variable | Expression objects in a store with addresses; temporaries are destroyed at the end of their statement. An invariant by induction over programs: every name refers to an expression of which parts may be gone. Whole expressions reduce to C08, the others are undefined behaviour at every use |
| C103 | Interpolation in one Earth orientation series from several threads | The two functions as sequences of accesses to their mutable members, one access a step; threads interleave by a schedule. Calls one after the other, and threads with a series each: induction over calls and over schedules. Threads that share a series: a data race for every pair of calls, and schedules with wrong values or reads outside the vector |
| C104 | Fetching the daily AOD1B products | The tool as a sequence of operations on a directory and a server, which may be stopped after any number of them. Names: lemmas on `str.replace`. A run: induction over days with an invariant for every moment. Histories of stopped runs: induction. The violations (a part of a file, or an empty file, is taken for the product by every later run) for every day and every length of the part |
| C105 | The rotation between GCRS and ITRS keeps its accuracy in double precision | The rounded model of C92 extended to the locators, the direction of the pole and the five quaternions. Quaternions as elements of Mathlib's normed algebra, up to sign (a whole turn of an angle changes the sign); errors of products by the norm. The direction of the pole is ill-conditioned, but the product that uses it depends on the pole's coordinates with Lipschitz constant 1, which is proved separately |
| C106 | The attraction of a third body keeps its accuracy in double precision | Rounded model of both overloads, with Eigen's sum of squares as a parameter of accuracy 4u. A calculus of relative errors (`Rel k`) for products, quotients, roots and sums of non-negative terms; the two sums of terms of either sign are bounded by the sizes of the terms |
| C107 | Interpolation of Earth orientation keeps its accuracy in double precision | Rounded model of the two interpolation formulas; the difference of two epochs is a parameter. The exact and the rounded program take the same branches, as these depend on comparisons of epochs only. Products and sums by a calculus of errors relative to a scale (`Sc k M`); for daily records the sum of the weights is bounded by a rational evaluated in the kernel for each window size |
| C108 | A tide model reports the name it was given | The 64 characters of the array with `strcpy` into them, for programs of constructions, copies and moves; invariant: each array begins with its object's name and a NUL. For GROOPS atlases, linked to the reading of C88: whenever that succeeds, the headers were read and the names fitted |
| C109 | The relativistic acceleration keeps its accuracy in double precision | Rounded model of the three terms and of the change to kilometres; `squaredNorm`, `dot` and `pow(x, 3)` are parameters with bounds on their errors. Vectors are known up to two roundings in each component; norms by relative errors, dot and cross products by errors relative to the product of the norms (Cauchy-Schwarz). Linked to (10.12) in SI units by C67 |
| C110 | Tidal variations of Earth rotation keep their accuracy in double precision | Rounded model of the three loops over the tables and of `regularize_impl`; sine, cosine and the conversion of arcseconds are parameters with bounds on their errors. The errors of the arguments come from C92; a lemma on rounded sums of terms with known amplitudes, whose sums over the tables the kernel computes. Linked to PMSDNUT2 by C77 |
| C111 | Pole tide and solid Earth tide keep their accuracy in double precision | Rounded model of the pole tide (coefficients and displacement) and of both steps of the geopotential of the solid Earth tide, up to the writes into the coefficients; sine, cosine, third power, the conversion of arcseconds, Eigen's dot product and the external `cartesian2spherical` are parameters with bounds on their errors. A calculus of errors relative to a scale (`Sc`), linked to the exact formulas of C45, C51 and C52; the arguments of step 2 come from C92 |
| C112 | Displacement of a site by the solid Earth tide keeps its accuracy in double precision | Rounded model of both steps of the displacement and of the rotations to and from the local frame; the parameters of C111, Eigen's squared norm and the external `geodetic2lvlh` with bounds on their errors. The calculus of C111, linked to the exact formulas of C75; the sums of the amplitudes of Table 7.3 by evaluation of the whole table |
| C113 | Ocean and atmospheric tide models keep their accuracy in double precision | Rounded model of the three loops over the constituents, element by element; Eigen's matrix-vector product is a parameter with a bound on its error, shown to hold of the sum from left to right. The angles by the bound of C92, the sum by induction over the atlas, linked to the exact sums of C38 and C40 |
| C114 | Ocean pole tide keeps its accuracy in double precision | Rounded model of the coefficients, column by column, and of the displacement; the parameters of C111 and C112 and the fourth power of the C library. The calculi of C109 and C111, the columns by induction, linked to the formulas of C46 and C47 |
| C115 | Time-variable gravity models keep their accuracy in double precision | Rounded model of the record loops of C27 to C31; parameters: differences in years, sine and cosine. A simulation of the rounded loop by the exact one, record by record, with the invariants of C28 and C29 kept alongside |
| C116 | Dealiasing coefficients keep their accuracy in double precision | Rounded model of the interpolation over the stream of C35; parameter: differences in days. The invariant of C35 along any history of queries, with the rounded interpolation at each answer |
| C117 | Ocean pole tide coefficients at sites keep their accuracy in double precision | Rounded model of the grid lookups and of the interpolation over the file of C48; parameters: conversion to degrees, fused products. Index of a point with a margin of 1e-12 degrees; error calculus relative to the cell; without the margin the row behind the last one and an abort (`grid_rounded_outside_fails`, `desai_rounded_fails`) |
| C118 | Free core nutation keeps its accuracy in double precision | Rounded model of `lambert_fcn`; parameters: day differences, sine, cosine, fused products. Error calculus relative to the largest number of the table; the search in the table compares dates exactly and is the one of C65 |
| C119 | Every form of the rotation from GCRS to ITRS keeps its accuracy in double precision | Rounded models of `gcrs2itrs_quaternion`, `c2tirs`, `tirs2i`, `C`, `dRdt` and their callers; parameters as in C105, and Eigen's product of matrices. Componentwise errors of the closed form, with the sign of the quaternion split off; entrywise errors of products of matrices |
| C120 | The three forms of the celestial motion of the pole agree in double precision | Rounded models of `C_qimpl`, `C_rxyimpl` and of Eigen's matrix of a turn about an axis; `C` and the parameters as in C119. Componentwise errors; the series by C60 |
| C121 | From a series of Earth orientation parameters to the rotation of the Earth in double precision | Rounded model of what a program does at an epoch: `interpolate`, `approx_dut1`, the tides of C110 and `c2i06a`; what the library `datetime` says of an epoch is a parameter. Composition of C107, C110 and C105, with the exact tides and the exact rotation Lipschitz in their arguments; the values that interpolation can give are bounded by the Lebesgue constant; induction on the list of epochs |
| C122 | Position and velocity between the celestial and the terrestrial frame in double precision | Rounded model of the documented formulas around `c2i06a` with the derivative; Eigen's products of a quaternion and of a matrix with a vector are parameters, met by the formulas of Eigen. The velocity in the specification is the derivative of the coordinates in the turning frame; the way back cancels by the skewness of M dM/dt. For the agreement of the forms and the way there and back within one build, the results are compared with the frame that belongs exactly to the computed angles |
| C123 | A program's celestial positions and velocities by four routes, from the Earth orientation series on, in double precision | Rounded model of the loop of test/unit_tests/i2c_astropy.cpp, without the reading of its files (C99) and the comparison with reference values (C124). C121 gives the record, C122 the state for that record, C119 and C122 the agreement of the routes; the frame of the computed record is compared with that of the exact one, and their derivatives by writing the derivative of a turn as a combination of turns. Lists of rows by induction. With `regularize` first: the interpolation is one linear function of the records for all series with the same epochs, with weights bounded by 292, so that the rounding of the removal stays small; the tides at the approximate UT1 change little with it |
| C124 | The check of a reference orbit decides correctly in double precision | The assertions of test/unit_tests/i2c_astropy.cpp on top of the model of C123, a failed one being an abort. Results close to the truth (C123), one rounding of the difference and one of the literal give the two margins; the truth is unique because the coordinates of the pole determine the celestial motion. Lists of rows by induction |
| C125 | Earth orientation at the epochs of a table, and the check of that table, in double precision | test/costg_benchmark/tcheck_eops.cpp from the series and the table that were read on: the lines given to `printf` and how the program ends; `rad2sec` is a parameter, accurate to a few units in the last place. The record is that of C123; the record of the line before leaves only its ΔAT behind, which nothing printed depends on; the locators and the celestial pole are those of C109 and C110. Each assertion is between two margins; lists of lines by induction, with the lines printed before a failed assertion |
| C126 | The comparisons with SOFA succeed for every draw of epochs | test/sofa/era00.cpp, sp00.cpp and gmst.cpp over a list of draws, with SOFA's functions as parameters. The errors of the angles over the fifty years drawn from (3.3e-13 and 3.6e-13 rad) leave SOFA 1.4e-13 and 1e-13 rad of the tolerance. False near a full turn, where angles are compared as numbers, and for sidereal time at J2000, where the second assertion asks two equal numbers to differ; proved for draws away from both |
| C127 | Pole coordinates from the separate series in double precision, and the comparison with SOFA | The ten loops with `KahanSum` rounded after every operation, the compensation bounded along the loop, amplitudes and weights of the arguments summed by the kernel; test/sofa/xy06a.cpp over a list of draws with SOFA's function as parameter. Proved for Y; for X up to 0.01 t cos Ω microarcseconds, since one amplitude has lost its last digit, which is proved to exceed 1e-14 rad at an epoch of 2025. The comparison is proved for every draw |
| C128 | The check of libration against a file of reference values | test/iers/eop_libration.cpp in exact numbers: the lines of the file, the five numbers of each, the epoch, sidereal time with UT1 taken for UTC, `deop_libration`, the comparisons. The reference is the two Fortran routines with their own sidereal time (which takes TT for UT1); the difference is bounded with the amplitudes. Induction over the lines. Proved but for lines that are too long, which end the check with success (negation proved) |
| C129 | The check of the ocean tides against a file of reference values | test/iers/eop_oceantide.cpp in exact numbers, as C128, with dates in UTC and two tables of leap seconds (`utc2tt`, `tt2ut1`) that agree at the dates; the reference is the sum over the tables. Induction over the lines. Proved but for lines that are too long, which end the check with success (negation proved) |
| C130 | The check of the zonal tides against a file of reference values | test/iers/eop_rgzont2.cpp in exact numbers, as C128; the reference is the sum over Table 8.1. Induction over the lines. Proved but for lines that are too long, which end the check with success (negation proved). The tolerances are below the rounding errors that are proved for `deop_zonal_tide`, so nothing is said about it in double precision |
| C131 | The check that removing and adding the zonal tides undo each other | Rounded model of test/unit_tests/eop_regularize.cpp after the reading of the file, on top of `regularize` and `deregularize` of C110. Its bounds on removal and return give every assertion but that the values change, and that one if the tides exceed the errors |
| C132 | The check of the interpolation at the edges of an Earth orientation series | test/unit_tests/eop2.cpp in exact numbers on top of C18, C21 and C24. For nine daily records the outcome is decided by the offsets of the first three; with the offset of TT from UTC since 2015 the program fails for every file (negation proved) |
| C133 | The check of the number of records read from a C04 file | test/unit_tests/eop1.cpp on top of C24. The count is that of the records in the interval for every file; for the format of 2014, with TT ahead of UTC by less than an hour, the interval holds the days 57753 and 57754 and no other |


## 5. Disagreements between code and properties

Each row is a proved theorem about the model: inputs for which the code does not do what the property says. The `_partial` theorems of
the same file say for which inputs it does.

| theorem | what the code does |
|---|---|
| `Verif.Alf.alf_exact_zero_fails` | C54, C56: a matrix that holds exactly the requested degrees and orders, as documented, is too small when order equals degree: degree 0 writes `(1, 1)` outside it. |
| `Verif.Alf.alf_exact_fails` | C54, C56: with order equal to degree, a matrix of exactly `degree + 1` rows is overrun by one cell, for every degree. |
| `Verif.Alf.alfD_sign_fails` | C55: the documentation asks for the derivative with respect to the argument; at no latitude but the poles is the value for (1, 0) that derivative. |
| `Verif.Alf.alf_overflow_fails` | C54: from degree 1025 on, whatever the order, the angle and the size of the matrix, the computation overflows an `int`: undefined behaviour. |
| `Verif.Angle.faom03_range_fails` | C25 fails: Ω is documented to be in [0, 2π), but one century after J2000 it is negative. |
| `Verif.Angle.fundarg_rate_fails` | C26 fails: one century after J2000 `dfal03` is not the derivative of the mean anomaly of the Moon. |
| `Verif.Angle.dfaf03_epoch_fails` | C26 fails: the overload of `dfaf03` for epochs returns the angle, not its rate. |
| `Verif.Angle.dgmst_fails` | C26 fails: `dgmst` at J2000 is not the derivative (per day) of GMST; it counts one revolution per day too many. `T` is days since J2000 for both UT1 and TT. |
| `Verif.Aod1b.goto_fails` | C34 fails for a file whose only block of the type is its last one: the status is 1 and the block is not found. |
| `Verif.Aod1b.tidal_trailing_fails` | C36 fails: text after the second block is accepted if its line is not ended. |
| `Verif.Aod1b.tidal_empty_fails` | C36 fails: a file that ends after its header is not reported; the buffer is read beyond the end of the text in it. |
| `Verif.Aod1b.filename_gz_fails` | C32 fails: the compressed name is the plain name (the suffix is written behind the terminating zero). |
| `Verif.Aod1b.release_no_dir_fails` | C32 fails: a path without a directory (a file name alone) is not decoded. |
| `Verif.Aod1b.archive_bare_fails` | C85 fails for a file given without a directory: the search for the next file reads through a null pointer. |
| `Verif.Aod1b.archive_long_fails` | C85 fails for a directory with a long path: from 230 characters on, the path of the next file overruns a buffer of 256 characters. |
| `Verif.Aod1b.Head.text_empty_fails` | C82 fails for an empty text: a line such as `SATELLITE NAME : ` with blanks behind the colon gives a negative length to `memcpy`: undefined behaviour, whatever the number of blanks. |
| `Verif.Aod1b.Head.text_long_fails` | C82 fails for long texts: the members have 20 bytes each and nothing checks the length. With the agency `GeoForschungsZentrum` (20 letters) and the satellite `GRACE` the agency reads `GeoForschungsZentrumGRACE`. |
| `Verif.Aod1b.Head.radius_column_fails` | C82 fails for a radius whose colon is close to its key: `CONSTANT A [M] : 6378136.6` is searched for a colon from column 22 on, and the search runs behind the end of the line. |
| `Verif.Aod1b.Head.colon_missing_fails` | C82 fails for a line without a colon: `MAXIMUM DEGREE 180` is searched for a colon behind the end of the line. |
| `Verif.Aod1b.Head.wave_unknown_fails` | C82 fails for a tide that is not in the table: after the message the null pointer is used. |
| `Verif.Aod1b.Head.header_incomplete_fails` | C82 fails for incomplete headers: a file that consists of `END OF HEADER` alone is accepted; the maximum degree, the number of data sets, GM and the radius are uninitialised. |
| `Verif.Aod1b.Head.header_crlf_fails` | C82 fails for files with carriage returns: `COEFFICIENTS ERRORS (YES/NO) : NO` followed by one counts three characters and fails the assertion that they are `YES`. |
| `Verif.Aod1b.Head.date_bad_fails` | C82 fails for a date that cannot be read: instead of an error status the program ends, because the date library throws inside a function that is `noexcept`. |
| `Verif.Aod1b.stream_exact_fails` | C35 fails: on every file with four or more data sets, the first query after initialisation is refused if it is at the very epoch of the fourth data set. |
| `Verif.Aod1b.stream_gap_fails` | C35 fails: on the small file the query at 4 after one at 8 has the value 1/2, where the data sets around it, at 3 and 5, have the value zero; asked first it has the value zero. |
| `Verif.Aod1b.stream_marked_fails` | C35 fails: on two files with data sets at 1, 2, 3, 4 and 6, 7, 8, 9, the query at 5 is between data sets that have the value zero at 4 and 6. Asked twice it has the value zero, then the value 1/6, from the data set at 3 taken at the mark, here 0. |
| `Verif.Aod1b.Own.stream_moves_fails` | C86 fails for every program that moves a stream: there is always an object left whose destruction is undefined behaviour, so no such program can end its objects' lifetimes. The destructor dereferences the null pointer that a move leaves behind. |
| `Verif.Aod1b.Own.stream_moved_to_fails` | C86 fails: a moved-to stream has lost its directory and reads through the object it was moved from, so that it cannot be used after the end of that object. |
| `Verif.Aod1b.Own.stream_assign_leak_fails` | C86 fails: the array of a stream that is assigned to is leaked. |
| `Verif.Aod1b.stream_three_fails` | A stream whose file has only three data sets of its type cannot be initialised. |
| `Verif.Aod1b.stream_jump_fails` | C35 fails: on the small file the query at 8 directly after initialisation succeeds with the value -1/6, where every data set around it has the value zero. The same query asked again has the value zero. |
| `Verif.Cip.extra_x_fails` | C79 fails: there is an epoch in the century after J2000 at which `extra::xycip06a` does not return the X of the Conventions: one amplitude of the series has lost its last digit. |
| `Verif.Clock.clock_average_fails` | C64 fails: two samples of 1 and 2 microseconds average to 1.5, the clock reports 1. |
| `Verif.Clock.clock_no_sample_fails` | C64 fails: asking a clock without samples for its average divides by zero. |
| `Verif.Clock.clock_faster_fails` | C64 fails: samples of 1.2 and 1.8 microseconds; neither clock is faster than the other. |
| `Verif.Clock.clock_compare_fails` | C64 fails: with a reference mean below one microsecond `compare` divides by zero. |
| `Verif.Costg.compare_short_fails` | C90 fails: a benchmark file with fewer epochs than the orbit is not noticed: the program reads behind the end of the benchmark. |
| `Verif.Costg.check_pole_short_fails` | C90 fails: Earth orientation or rotations for fewer epochs than the orbit has make the program read behind their end. |
| `Verif.Costg.check_ocean_pole_time_fails` | C90 fails: the secular pole in the program for the ocean pole tide is that of 51.184 s before the epoch. |
| `Verif.Costg.basename_fails` | C90 fails: of a file in the current directory the name without its first letter is shown. |
| `Verif.Aod1b.check_aod_short_fails` | C98 fails when rotations or accelerations have fewer rows than the orbit, those they have being within the tolerance: the program reads behind the end of a vector. |
| `Verif.Aod1b.check_aod_degree_fails` | C98 fails on files of a degree below 180: the first epoch, in the first two intervals, reads coefficients outside those of the file. |
| `Verif.Aod1b.check_atm_constants_fails` | C96 fails: the gravitational constant of the files has no effect. A wave with the constant `gm` (and the radius of the Conventions) is accepted if the benchmark agrees with the attraction of the wave times the ratio of the constant of the Conventions and that of the file. |
| `Verif.Costg.check_field_empty_fails` | C95 fails on an orbit without rows: the first element of an empty vector is read. |
| `Verif.Costg.check_field_short_fails` | C95 fails when rotations or accelerations have fewer rows than the orbit, those they have being within the tolerance: the program reads behind the end of a vector. |
| `Verif.SolidTide.check_solid_empty_fails` | C97 fails on an orbit without rows: the first element of an empty vector is read. |
| `Verif.SolidTide.check_solid_short_fails` | C97 fails when rotations or accelerations have fewer rows than the orbit, those they have being within the tolerance: the program reads behind the end of a vector. |
| `Verif.SolidTide.check_solid_late_fails` | C97 fails at epochs that the Earth orientation read does not reach, and nothing tells: with `rn` the last record before the third day after the first day of the orbit, later epochs of the orbit are computed with UT1-UTC of `rn`. |
| `Verif.Harmonic.check_empty_fails` | C94 fails on an orbit without rows: the first element of an empty vector is read. |
| `Verif.Harmonic.check_short_fails` | C94 fails when rotations or accelerations have fewer rows than the orbit, those they have being within the tolerance: the program reads behind the end of a vector. |
| `Verif.Harmonic.check_late_fails` | C94 fails at epochs that the Earth orientation read does not reach, and nothing tells: with `rn` the last record before the third day after the first day of the orbit, later epochs of the orbit are computed with UT1-UTC of `rn`. |
| `Verif.Cunningham.exact_size_fails` | C56: with order equal to degree, the arrays created by the function (and any arrays of `degree + 2` rows, which are accepted) are overrun, for every degree. |
| `Verif.Cunningham.next_order_fails` | C56: with order one below the degree, the arrays created by the function are read after their end. |
| `Verif.Cunningham.order_zero_fails` | C57: order 0 does not truncate at order 0. The only non-zero coefficient is of order 1, so that the potential truncated at order 0 is zero; the acceleration is not. |
| `Verif.Cunningham.gradient_order_fails` | C57: with order below the degree, the matrix is not the derivative of the gradient of the truncated potential, whatever the arrays (here of 5 rows): degree 2, order 1, one coefficient of degree 2 and order 1. |
| `Verif.DesaiGrid.desai_longitude_fails` | C48 fails: the longitude is shifted by 180° instead of being brought to 0..360°. At longitude 100°, in the cell between 45° and 135°, the file whose first coefficient is the longitude gives 280. |
| `Verif.DesaiGrid.desai_seam_fails` | C48 fails in the cells between the last and the first longitude (here 315° to 405°): whether the shifted longitude is 350° or 20°, there is no result, although the grid goes around the Earth. |
| `Verif.Doodson.doodson_range_fails` | C14 fails: multiplier 23 is written as `n`, the character of -13, so two different constituents have the same text and the parser returns the wrong one. |
| `Verif.Doodson.doodson_str_overflow_fails` | C14: with the documented minimum buffer size of 7 the terminating NUL is written out of bounds. |
| `Verif.Doodson.iers10_fails` | C17 fails: a character that is no digit is accepted and decoded (`/` as -1, i.e. multiplier -6). |
| `Verif.Doodson.iers10_short_fails` | C17 fails: a string shorter than seven characters is read past its NUL. |
| `Verif.Doodson.match_ocean_doodson_fails` | C16 fails: Q1 is in the table under 135.655, but looking up the constituent parsed from "135.655" finds nothing, since the parsed constituent has π factor 0 and the row has -1. |
| `Verif.Doodson.wave_name_fails` | C70 fails: a name of 16 bytes leaves the array without NUL, and reading the name runs past it. |
| `Verif.EarthRot.Crxy_fails` | C60 fails for the matrix in X and Y: it is a rotation only at the pole itself. |
| `Verif.EdgesCheck.edges_check_fails` | C132: the program asks for the first day at a minute after midnight TT, but the first record, at midnight UTC, is later: for every well formed C04 file of either format, whatever its sampling, in time order, the program stops with a violated assertion. |
| `Verif.Eop.eop_degree0_fails` | C21 fails for degree 0: no polynomial is used at all (every quantity is 0), but the status is 'decreased'. |
| `Verif.Eop.eop_copy_fails` | C18 fails for copies: the copy's iterator refers to the source's vector, so its first query is undefined behaviour. |
| `Verif.Eop.eop_empty_fails` | C18 fails for the empty series. |
| `Verif.Eop.eop_rates_fails` | C19 fails for the rates: inside the series they are always 0, whatever the records hold. |
| `Verif.Eop.c04_short_line_fails` | C24 fails for a line that is shorter than the date field: it is not reported as an error but read past its end. |
| `Verif.EopThreads.race_fails` | C103 fails: two calls on one series at the same time are a data race, whatever the series, the calls and what the series was used for before. |
| `Verif.EopThreads.mixed_fails` | C103 fails even if no access tears: two threads interpolate at two epochs between the same two records; there is a schedule on which the first gets the values of the second's epoch, under its own epoch and with the same status as if all were well. |
| `Verif.EopThreads.crash_fails` | C103 fails even if no access tears: after a call that left the cached iterator inside the series, a call together with a call before the first record can read a record before the first. |
| `Verif.EopThreads.extrapolated_fails` | C103 fails even if no access tears, for the linear interpolation of UT1-UTC too: a thread asks for an epoch before the two records the cached iterator stands between; another asks for an epoch so early that a record after it is before the first one's epoch; there is a schedule on which the first thread gets a value extrapolated from the wrong two records. |
| `Verif.EopTides.libration_ut1_fails` | C77: the UT1 and LOD libration corrections differ from UTLIBR, which the documentation says they implement: at l' = -π/2 (others 0) UT1 is 0.01 microseconds more; at l = π (others 0) LOD is 0.2 microseconds more. Three amplitudes of the table differ from the routine's. |
| `Verif.EopTides.m2_row_fails` | C78: the M2 row of the ocean tide table is inconsistent: at 2 cycles per lunar day the LOD amplitude of the cosine UT1 term -7.25 microseconds would be -88.02, not -86.8. |
| `Verif.Fcn.fcn_sigma_fails` | C65 fails: before the first epoch the uncertainty shrinks with distance and becomes negative; the IERS table at MJD 45000. |
| `Verif.Fcn.fcn_empty_fails` | The empty table is undefined behaviour. |
| `Verif.Orient.check_c2i_short_fails` | C99: check_c2i does not compare the iterator of the terrestrial orbit with its end: if the celestial orbit has more epochs, this is undefined behaviour. |
| `Verif.Orient.check_c2i_empty_fails` | C99: check_c2i takes the first epoch of the terrestrial orbit without a check: if there is none, this is undefined behaviour. |
| `Verif.Orient.check_c2i_ut1_fails` | C99: check_c2i transforms with UT1 from which the zonal tides were removed. Between 2000 and 2020 there is an epoch at which this moves a point at the distance of the surface of the Earth by more than 60 metres in the terrestrial frame, for every Earth orientation. |
| `Verif.Orient.check_c2i_velocity_fails` | C99: check_c2i adds the velocity of the rotating Earth where it has to be subtracted: for a point at rest on the equator, seen from the celestial frame, the position comes out right but the velocity, which should be zero, is more than 900 m/s. |
| `Verif.Orient.check_ref_long_fails` | C99: i2c_astropy does not look at why reading stopped: with a line of 512 characters or more in the reference orbit it gives the result of the file cut before that line. The rows after it are not compared, and nothing tells. |
| `Verif.GetAod1b.truncated_fails` | C104 fails: a run in a fresh directory can be stopped so that any day's file is any beginning of the product; the next run, which is not stopped, reports success and leaves that file as it is. |
| `Verif.GetAod1b.missing_fails` | C104 fails: a product that the server does not have yet makes the run raise an exception, but an empty file is left; when the server has it, the next run reports success and leaves the empty file. |
| `Verif.GetAod1b.stuck_fails` | C104 fails: with decompression such a file makes this and every later run raise an exception; the file stays, and beside it the beginning of the plain file, under the name the library looks for. |
| `Verif.GetAod1b.tidal_fails` | C104 fails: the tidal product cannot be asked for. |
| `Verif.Grid.grid_node_fails` | C49 fails: on a 2 x 3 grid led by the x axis, the node of line 3, i.e. (1, 0), is reported at y index 1. |
| `Verif.Grid.grid_negative_step_fails` | C49 fails for descending axes: with a negative step every point is out of range. |
| `Verif.Grid.surrounding_x_fails` | C50 fails on every grid led by the x axis: the fourth corner is wrong unless the grid has a single row (in which there is no such cell). |
| `Verif.Grid.surrounding_edge_fails` | C50 fails: in the last column the "bottom right" corner is the first node of the next row. |
| `Verif.Grid.surrounding_outside_fails` | C50 fails: for a point outside, only the first of the four is -1. |
| `Verif.Groops.names_sincos_fails` | C41 fails: the name made for the sine part is that of the cosine part and the other way round, always. |
| `Verif.Groops.names_long_fails` | C41 fails: a model name that is too long overruns the buffer. |
| `Verif.Groops.validate_full_fails` | C42 fails: a file the name of which has a model of 48 characters or a wave of 16 characters, which the parser accepts, makes the check of any list that begins with it read behind an array. |
| `Verif.Groops.validate_alone_fails` | C42 fails: the sine files of two waves without their cosine files are accepted. |
| `Verif.Groops.validate_case_fails` | C42 fails: both files of a wave are there, with a Doodson number in lower case; the list is rejected. |
| `Verif.Groops.validate_text_fails` | C42 fails: a name without underscores is read before its start. |
| `Verif.Groops.stored_degree_fails` | C88 fails: the files are read to degree `n`, but no cosine file has a record of that degree. The model is made with a smaller degree, and an assertion stops the program at the first evaluation. |
| `Verif.Groops.stored_sizes_fails` | C88 fails: without a bound the files are read to the degree of their headers. If these differ, the model is made, and an assertion stops the program at the first evaluation. |
| `Verif.Groops.stored_name_fails` | C88 fails: the header may give a model name of up to 127 characters; one of 64 or more overflows the name of the atlas. |
| `Verif.Groops.admittance_short_fails` | C43 fails: a file with too few rows is accepted; the missing entries are whatever was in memory. |
| `Verif.Groops.admittance_extra_fails` | C43 fails: with one row more than announced, memory outside the matrix is written. |
| `Verif.Groops.admittance_columns_fails` | C43 fails: columns after the announced ones are ignored. |
| `Verif.Groops.fileList_long_fails` | C72 fails: a line of 512 characters or more ends the list without an error. |
| `Verif.Groops.doodson_long_fails` | C72 fails: a line of 124 characters or more ends the Doodson matrix without an error. |
| `Verif.Groops.atlas_alone_fails` | C71 fails: of two waves there are only the sine files. The list is accepted, an atlas is made, and its cosine coefficients are whatever was in memory. |
| `Verif.Groops.atlas_path_fails` | C71 fails: a path of 248 characters or more overflows the buffer. |
| `Verif.Icgem.icgem_bad_index_fails` | C29 does not hold for every file: a line within the request for a coefficient that does not exist makes the reader write outside the matrices. |
| `Verif.Icgem.icgem_unknown_line_fails` | C29 does not hold for every file: if the first line has no known keyword, the uninitialised entry is used, and the outcome depends on it. |
| `Verif.Icgem.icgem_order_fails` | C27 fails for files in another order: with a `gfct` of another coefficient before the trend, the reader aborts, although every line is good and the reference epoch of the trend is known. |
| `Verif.Icgem.icgem_fortran_fails` | C31 fails: without a sign the exponent of the last column is dropped silently. In version 2 also with a sign. |
| `Verif.Icgem.icgem_missing_column_fails` | C27 fails for a line without its error columns: the last digits of a column are taken for the period, and no error is reported. |
| `Verif.Icgem.icgem_reject_modifies_fails` | C29 fails: a rejected request has already replaced the caller's coefficients. |
| `Verif.Icgem.Head.header_overflow_fails` | C73 fails: lines in front of `begin_of_head` are comments of any content, but the reader takes them for header lines. Here a comment that begins with "normalization" overruns the 64 characters of a member. |
| `Verif.Icgem.Head.header_name_fails` | C73 fails: so does a model name of 128 characters or more within the header. |
| `Verif.Icgem.Head.header_comment_fails` | C73 fails: a comment in front of the header that begins with the word "radius" makes the file unreadable. |
| `Verif.Icgem.Head.header_exponent_fails` | C73 fails: an exponent written the Fortran way, which the data section allows, is dropped: the gravity constant is read as 0.3986004415, without an error. |
| `Verif.Icgem.Head.header_mandatory_fails` | C73 fails: no keyword is required: a header without `errors`, `max_degree` and the constants is accepted, with constants zero and with the kind of error columns uninitialised. |
| `Verif.Icgem.Head.header_crlf_fails` | C73 fails: with line ends of carriage return and line feed, fully normalised coefficients are taken for unnormalised ones. |
| `Verif.Icgem.Head.header_tab_fails` | C73 fails: a keyword followed by a tabulator is refused. |
| `Verif.LibrationCheck.libration_check_fails` | C128: a line of 512 characters or more ends the check without a complaint: the program succeeds whatever this line and the lines behind it are (test/iers/eop_libration.cpp:36, 81). |
| `Verif.Matrix.matrix_no_leak_fails` | C05 fails for move assignment: after `A = std::move(B)` the old buffer of `A` is lost for ever. |
| `Verif.Matrix.matrix_self_move_fails` | C05 fails for self-move-assignment: `A = std::move(A)` loses the elements of `A`. |
| `Verif.MatrixKept.kept_nested_fails` | C102 fails in general: an expression kept in a variable of which an operand was itself an expression (`auto e = a + 2. * b;`) refers to an object that was destroyed at the end of that statement. Every later use, with a matrix of its shape, is undefined behaviour. |
| `Verif.Merge.merge_reversed_fails` | C89 fails for the method `merge` on its own: when the object is that of the later file, the merged header has the right last epoch and the sums of records and data sets, but the first epoch is still that of the later file. (The main program sorts the files first.) |
| `Verif.Merge.merge_overwrites_fails` | **The tool replaces its input (C89).** A relative name without a point (so without `.asc`), with the output going to the working directory: the output has the name of the earlier file, whose text is lost. |
| `Verif.Merge.merge_three_fails` | **Three files are never merged (C89).** Whatever the files: with three or more of them no run of the tool succeeds. The merged counts are stored with a leading blank, and the header of the third file, read from its file, has none, so the headers never match. |
| `Verif.Merge.merged_unreadable_fails` | **The library does not read merged files (C89).** The tool does not write the end of the header. For any two files that it merges, whose data are whole lines that do not begin with `END OF HEADER`, the constructor of the library's reader does not succeed on the merged file. |
| `Verif.OceanCheck.ocean_check_fails` | C129: a line of 512 characters or more ends the check of the ocean tides without a complaint: the program succeeds whatever this line and the lines behind it are (test/iers/eop_oceantide.cpp:31, 77). |
| `Verif.OceanOwn.move_assign_fails` | C44 fails: after `a = std::move(b)` where `a` had a model and `b` none, `a` still points to the freed model: evaluating it reads freed memory and destroying it frees it twice. |
| `Verif.PoleTide.desai_triangle_fails` | C74 fails: a line whose order is larger than its degree (both within the limits) is not rejected; the write goes to another element or outside the matrix. |
| `Verif.PoleTide.ocean_360_fails` | C46 fails: with degree 360, which the constructors accept, the factors are written behind the end of their array. |
| `Verif.PoleTide.ocean_default_fails` | C46 fails: an object made by the default constructor has no model; every call reads outside its (empty) matrices. |
| `Verif.PoleTide.ocean_stale_fails` | C46 fails: a coefficient beyond the degree of the call keeps what an earlier call left there, multiplied once more by the factor: it is neither zero nor that of the Conventions. |
| `Verif.Orient.check_eops_window_fails` | C99: tcheck_eops reads the records up to two days after the first epoch only. A benchmark with an epoch two days after the first or later is never accepted, whatever the file of Earth orientation holds and however well the rows agree. |
| `Verif.Orient.check_eops_empty_fails` | C99: tcheck_eops takes the first row of the benchmark without a check: if there is none, this is undefined behaviour. |
| `Verif.Orient.check_eops_blind_fails` | C99: the check is blind to the zonal tides and to everything else below ten seconds: a row that agrees with the Earth orientation to one second in UT1 and in the length of day is accepted as well if UT1 and the length of day are off by anything less than nine seconds. |
| `Verif.Orient.check_eops_linear_fails` | C99: the degree asked of the interpolation is five, but tcheck_eops reads the records of four days only. With daily records the interpolation degrades to a straight line for epochs more than a day after the first, without a message, although the file holds the records for degree five: here a correction of the CIP that grows with the square of time comes out as 6.5 arcseconds in place of 6.25. |
| `Verif.Orient.eop_example_fails` | C99: the example of the interpolation does not end: `add_seconds` leaves its epoch unchanged. After any number of turns of its loop the program is still running and has printed as many lines, all of them for the first record. |
| `Verif.Planets.planet_no_data_fails` | With CSPICE's error action RETURN, a request the ephemeris cannot answer (no kernel loaded, epoch not covered) reads uninitialised numbers; the function has no way to report it, its status is the constant 0. |
| `Verif.Planets.gm_overridden_fails` | C84 fails: naming a kernel that is loaded already does not bring its constants back when another file has been loaded since ("a", then "b...", here "ab"): the constants returned are the other file's. |
| `Verif.Planets.gm_prefix_fails` | C84 fails: a kernel whose name begins the name of a loaded one is not loaded, and the constants are the other file's. |
| `Verif.Planets.gm_missing_fails` | C84 fails: with the error action RETURN, constants no file defines leave the caller's variables unchanged, scaled, and the status is 0. |
| `Verif.Planets.planet_idstr_fails` | Below the documented size of 4 the result may lack its terminating zero: the Earth in a buffer of 3. |
| `Verif.Planets.kernel_prefix_fails` | C69 fails: "a.t" is never loaded once "a.tls" is. |
| `Verif.Planets.kernel_long_fails` | C69 fails: a kernel with a name of 128 characters or more is loaded again at every request. |
| `Verif.PoleExample.pole_example_fails` | C100, for a file of coefficients in whose grid the cell of every site (after the shift by 180° of C48) has four corners, and a file of Earth orientation with records on both sides of the first epoch: the program never ends and prints no line for any epoch but the first, since `add_seconds` leaves its epoch unchanged. After any number of turns of its loop it is still running at 19 July 2023 and has printed six lines for each turn. |
| `Verif.PoleExample.pole_example_empty_fails` | C100: a file of Earth orientation without any record between 17 and 31 July does not end with status 1: the first query on the series without records is undefined behaviour. |
| `Verif.Rounding.dgmst_rounded_fails` | C26 fails: in double precision, too, `dgmst` is more than six radians per day away from the derivative of sidereal time, at every epoch within a century of J2000 and whatever the rounding. `T` is days since J2000 for both UT1 and TT. |
| `Verif.RoundedGrid.grid_rounded_outside_fails` | C117 fails closer to a side, whichever way products and sums are fused: on a grid with the 90 latitudes from -90 to -1 the point less than 1e-18 degrees south of the equator is between the last latitude and the end of the range, so its row is number 89. Its line number is that of row 90, behind the last line of the file. |
| `Verif.RoundedGrid.desai_rounded_fails` | C117 fails closer to a side, whichever way products and sums are fused: with nodes on the equator, a site less than 1e-19 radians south of it is taken to lie in the cell north of the equator, and the program is aborted by an assertion. In exact arithmetic its coefficients are interpolated. |
| `Verif.RoundedSeries.extra_x_rounded_fails` | C127 fails: in 2025 there is an epoch at which X from the separate series, in any faithful arithmetic, is off by more than 1e-14 rad, five times the error that rounding can make: the amplitude of t cos Ω has lost its last digit. |
| `Verif.RoundedSofa.era_check_wrap_fails` | C126 fails: the angles are compared as numbers, although they are given between 0 and a full turn. On 1 January 2000 at 17:17:17 UT1 the Earth rotation angle is a full turn; there, an angle from SOFA that is accurate to 1e-13 rad can be on the other side, and the program aborts, whatever the rounding. |
| `Verif.RoundedSofa.gmst_check_j2000_fails` | C126 fails: the comparison of sidereal time also asserts that IAU 2000 is further from the library than IAU 2006. At J2000 the two are the same, to the last bit in SOFA: the program aborts if that epoch is among those drawn, whatever the rounding, the library and the rest of SOFA do. |
| `Verif.Rounding.anp_rounded_fails` | C92 fails: `anp` is documented to give angles in [0, 2π), but a small negative angle gives 2π itself, the double that stands for a full turn. |
| `Verif.SolidTide.documented_order_fails` | C101 fails: with the parameters in the order of the documentation (the Earth, its radius, the Moon, the Sun), and those numbers that the example program passes in this order, a site at the pole, with Moon and Sun above it at their distances, is displaced by more than a thousand kilometres beyond the displacement of the Conventions. |
| `Verif.Stokes.stokes_default_fails` | C10 fails for a default-constructed set: degree and order are 0 but `C(0,0)` has no storage. |
| `Verif.Stokes.stokes_moved_from_fails` | C10 fails for a moved-from set: it keeps its degree but has no storage. |
| `Verif.Stokes.stokes_add_fails` | C09 fails for a default-constructed right operand: the loop reads `C(0,0)`, which has no storage. |
| `Verif.Stokes.stokes_scale_fails` | C12 fails for degree zero: `scale(2)` leaves `C(0,0) = 5` as it is. |
| `Verif.Tide.ocean_degrees_fails` | C38 fails: an atlas with constituents of different degrees is accepted by the constructor, but every evaluation stops in an assertion. |
| `Verif.Tide.admittance_rows_fails` | C40 fails: nothing compares the matrix with the atlas; with fewer rows than major waves the factors are read past their end. |
| `Verif.Tide.atm_container_fails` | C39 fails: after appending a wave of degree 3 and order 1 and then one of degree 2 and order 2, the container has degree 2, less than the first wave; every evaluation stops in an assertion. |
| `Verif.Tide.atm_duplicate_fails` | C37 fails for atmospheric models: appending a file twice gives two constituents with the same Doodson number. |
| `Verif.Harmonic.ocean_force_fails` | C93 fails: the gravitational constant of the files has no effect. If all files have the same one, and the radius of the Conventions, the attraction is that of the waves times the ratio of the constant of the Conventions and that of the files. |
| `Verif.TideName.name_long_fails` | C108 fails: a name of 64 characters or more is written beyond the array, whatever constructor gets it. |
| `Verif.TideName.groops_long_fails` | C108 fails: a gravity file with a model name of 64 to 127 characters, which is read correctly by itself, overruns an array when it is part of a tide model. |
| `Verif.ZonalCheck.zonal_check_fails` | C130: a line of 512 characters or more ends the check of the zonal tides without a complaint: the program succeeds whatever this line and the lines behind it are (test/iers/eop_rgzont2.cpp:33, 81). |

## 6. What is modelled and what is not

Every definition of the model cites the lines it models. The table lists, for each source file, the model files that cite it, how many
of its lines of code are cited (comments, preprocessor lines and lone braces do not count), and the ranges that are not. Most of these are declarations,
accessors, `const` overloads, helper functions that are modelled once for all files (`skipws`), and headers of functions whose bodies are cited.

Not modelled at all: rounding of `double` (except C63 and where a theorem says so), messages on `stderr`, exhaustion of memory and disk, the libraries `datetime`,
`geodesy`, Eigen and CSPICE beyond the documented meaning of the functions called, SOFA (compared with in C126 and C127), most programs in `test/unit_tests`, `test/sofa`, `test/iers` and
`examples` (modelled are `test/costg_benchmark`, the scripts `bin/mergeAod1b.py` and `bin/getAod1b.py`, `examples/eop_interpolation.cpp`,
`examples/pole_tide_displacement.cpp`, `test/unit_tests/{aod1b_dealias_multiday,c2i_vel,eop1,eop2,eop_regularize,i2c_astropy}.cpp`, `test/sofa/{era00,sp00,gmst,xy06a}.cpp` and `test/iers`),
the Fortran routines in `fortran_impl` (used as the source of some specifications), the build system.

| file | model | cited | ranges not cited | remark |
|---|---|---|---|---|
| `include/aod1b.hpp` | Aod1b, Aod1bCopy, Aod1bHeader, Aod1bStream, CostgAtm | 77/159 | 46-53, 61-63, 155-159, 246-248, 256-262, 279-310, 317-324, 348-351, 401-412, 493-495 | accessors |
| `include/aod1b_data_stream.hpp` | Aod1bFiles, Aod1bOwn, Aod1bStream, RoundedAod1b | 214/244 | 80-83, 235-238, 431-434, 438-460 |  |
| `include/atmospheric_tides.hpp` | Tide, TideName | 24/41 | 83-86, 116-122, 167-175 |  |
| `include/clock.hpp` | Clock | 42/43 | - | declarations |
| `include/coeff_matrix_2d.hpp` | Matrix, MatrixExpr, MatrixKept, RoundedAtlas, RoundedOceanPole, Stokes, Tide, Tri | 204/284 | 101-103, 158-160, 176-178, 209-228, 307-310, 318-321, 336-339, 344-351, 356-359, 363-366, 370-374, 418-425, 547-551 | declarations, overloads that differ in `const`, expression boiler plate |
| `include/coeff_matrix_storage.hpp` | Storage | 83/161 | 42-46, 51-56, 119-121, 131-142, 213-225, 243-251, 293-295, 302-314, 354-356, 371-383, 424-426, 432-436 | declarations and overloads that differ in `const` |
| `include/doodson.hpp` | CostgAtm, Doodson, DoodsonArg, Rounded | 152/203 | 46-50, 141-143, 171-178, 191-199, 225-232, 236-247, 478-482, 515-518 | accessors and forwarding overloads |
| `include/earth_rotation.hpp` | EarthRot, RoundedCelestial, RoundedGcrs, RoundedRotation, RoundedState | 64/76 | 77-81, 273-275 |  |
| `include/eop.hpp` | EdgesCheck, Eop, EopThreads, OrientExample, PoleTide, RoundedEopTides, RoundedTides | 64/103 | 240-247, 253-256, 393-407, 468-474 |  |
| `include/fcn.hpp` | Fcn | 23/42 | 61-63, 75-80, 104-106, 126-129 |  |
| `include/fundarg.hpp` | Angle, Fundarg, Rounded, RoundedCip | 80/127 | 7-9, 338-340, 434-438 |  |
| `include/gravity.hpp` | TideForce | 9/26 | 33-36, 61-65, 85-87, 108-111 | declarations only |
| `include/grid.hpp` | Grid, RoundedGrid | 64/72 | 59-61 |  |
| `include/groops_tide_model.hpp` | Tide | 6/24 | 20-43 | declarations; the members they declare are modelled |
| `include/iau.hpp` | Iau, RoundedGcrs | 3/26 | 100-103, 111-113, 151-154, 240-244 | declarations; the inline functions are modelled with the .cpp files |
| `include/icgemio.hpp` | Icgem, IcgemHeader, RoundedIcgem | 30/72 | 31-34, 49-51, 190-193, 201-214, 218-239, 316-320, 385-388 |  |
| `include/iersconst.hpp` | PoleTide | 2/20 | 30-33, 79-82, 88-98 | constants, used as literals in the models that need them |
| `include/itrs2gcrs.hpp` | - | 0/38 | 12-67 | inside `#ifdef TODO`, never compiled |
| `include/kahan.hpp` | Cip, Kahan, RoundedSeries | 15/18 | 38-40 |  |
| `include/ocean_tide.hpp` | GroopsDisk, OceanOwn, Tide, TideName | 65/100 | 82-103, 107-114, 118-124, 211-215, 233-244 | accessors and forwarding constructors |
| `include/planets.hpp` | PlanetState, Planets | 20/38 | 144-146, 181-184 |  |
| `include/pole_tide.hpp` | Costg, PoleTide, RoundedTides | 64/120 | 15-20, 89-94, 101-110, 147-149, 172-182, 196-204, 333-340, 359-363 | declarations, accessors, forwarding overloads |
| `include/relativity.hpp` | Costg | 7/8 | - | declarations only |
| `include/solid_earth_tide.hpp` | RoundedTides, SolidTide | 8/62 | 18-49, 83-86, 106-109, 150-156, 181-187, 231-234, 250-257 | declarations, constructors, accessors |
| `include/stokes_coefficients.hpp` | Aod1bFiles, Coeffs, CostgField, Cunningham, PoleTide, RoundedOceanPole, Stokes, Tide | 80/119 | 67-74, 79-82, 115-125, 226-228, 237-239, 303-309 | accessors |
| `include/tide_atlas.hpp` | GroopsDisk, Tide, TideName | 38/59 | 109-121, 142-148, 194-199 |  |
| `src/lib/aod1b/aod1b.cpp` | Aod1bCopy, Aod1bFiles, Aod1bHeader | 90/90 | - |  |
| `src/lib/aod1b/aod1b_collect_coeffs.cpp` | Aod1b | 69/75 | 5-11 |  |
| `src/lib/aod1b/aod1b_data_stream.cpp` | - | 0/0 | - |  |
| `src/lib/aod1b/aod1b_get_tidal_wave.cpp` | Aod1b | 110/116 | 5-11 |  |
| `src/lib/aod1b/aod1b_goto_next_block.cpp` | Aod1b | 31/56 | 4-19, 23-37 |  |
| `src/lib/aod1b/aod1b_parse_data_block_header.cpp` | Aod1b | 40/46 | 6-12 |  |
| `src/lib/aod1b/aod1b_read_header.cpp` | Aod1bHeader | 292/294 | - |  |
| `src/lib/aod1b/aod1b_skip_header.cpp` | Aod1b | 35/37 | - |  |
| `src/lib/aod1b/aod1bnontidalproductnaming.cpp` | Aod1b | 22/22 | - |  |
| `src/lib/atmospheric_tides/atm_tides_append_wave.cpp` | CostgAtm, Tide | 28/28 | - |  |
| `src/lib/atmospheric_tides/atm_tides_geopotential.cpp` | RoundedAtlas, Tide | 18/18 | - |  |
| `src/lib/doodson/doodson_from_chars.cpp` | Doodson | 15/15 | - |  |
| `src/lib/doodson/doodson_to_str.cpp` | Doodson | 10/10 | - |  |
| `src/lib/doodson/match_tadal_constituents.cpp` | Doodson | 13/13 | - |  |
| `src/lib/doodson/resolve_iers2010_doodson_string.cpp` | Doodson | 25/25 | - |  |
| `src/lib/doodson/tidal_wave_tables.cpp` | Doodson | 16/17 | - |  |
| `src/lib/earth_rotation/c2i06a.cpp` | EarthRot, Gcrs, RoundedGcrs, RoundedOrient, RoundedRotation | 34/34 | - |  |
| `src/lib/earth_rotation/c2i06abz.cpp` | EarthRot, Gcrs, RoundedRotation | 44/44 | - |  |
| `src/lib/earth_rotation/c2i06apq.cpp` | EarthRot, Gcrs, RoundedRotation | 13/13 | - |  |
| `src/lib/eop/approx_dut1.cpp` | Eop, EopThreads, RoundedOrient | 30/30 | - |  |
| `src/lib/eop/choose_eop_c04_series.cpp` | EopFile | 54/61 | 20-25 |  |
| `src/lib/eop/lagrange_interpolation.cpp` | Eop, EopThreads, RoundedEop | 80/80 | - |  |
| `src/lib/eop/libration.cpp` | EopTides, RoundedEopTides | 534/536 | - |  |
| `src/lib/eop/ocean_tide_variation.cpp` | EopTides, RoundedEopTides | 658/913 | 653-906 | the table of lines 653-906 is not used by any function |
| `src/lib/eop/parse_iers_c04.cpp` | EopFile | 13/13 | - |  |
| `src/lib/eop/parse_iers_c0414.cpp` | Chars, EopFile | 67/74 | 13-19 |  |
| `src/lib/eop/parse_iers_c0420.cpp` | Chars, EopFile | 87/96 | 14-20 |  |
| `src/lib/eop/regularize.cpp` | Eop, Orient, RoundedEopTides | 10/10 | - |  |
| `src/lib/eop/zonal_tides.cpp` | EopTides, RoundedEopTides | 88/91 | - |  |
| `src/lib/eop/zonal_tides_iers.cpp` | EopTides | 456/458 | - |  |
| `src/lib/free_core_nutation/lambert.cpp` | Fcn, RoundedFcn | 67/67 | - |  |
| `src/lib/free_core_nutation/load_iers10_table52c.cpp` | Fcn | 44/46 | - |  |
| `src/lib/free_core_nutation/parse_lambert_coeffs.cpp` | Chars, Fcn | 80/82 | - |  |
| `src/lib/fundarg/fundarg.cpp` | CostgTide, Fundarg, Orient, Rounded | 14/14 | - |  |
| `src/lib/gravity/forward_column_alf.cpp` | Alf | 70/72 | - |  |
| `src/lib/gravity/modified_forward_column_alf.cpp` | - | 0/72 | 7-53, 57-103, 107-121 | inside `#ifdef USE_HOLMES`, never compiled |
| `src/lib/gravity/point_mass_acceleration.cpp` | PointMass, RoundedPoint | 20/20 | - |  |
| `src/lib/gravity/sh_cunningham_normalized_gradient.cpp` | Cunningham | 261/278 | 11-23, 45-48 |  |
| `src/lib/iau/dgmst.cpp` | Iau, RoundedGmst | 13/13 | - |  |
| `src/lib/iau/era00.cpp` | Iau, Rounded, RoundedSofa | 8/8 | - |  |
| `src/lib/iau/gmst.cpp` | Iau, Rounded, RoundedSofa | 13/13 | - |  |
| `src/lib/iau/gmst82.cpp` | Iau, RoundedGmst | 10/10 | - |  |
| `src/lib/iau/s06.cpp` | Cio, Cip, RoundedGcrs, RoundedSeries | 273/283 | 12-21 |  |
| `src/lib/iau/xcip06a.cpp` | Cip, CipRow, CipX, RoundedSeries | 4873/4875 | - |  |
| `src/lib/iau/xycip06a.cpp` | Cip, RoundedSeries | 25/25 | - |  |
| `src/lib/iau/xycip06a_xy.cpp` | Cip, CipRow, CipXY, RoundedCip | 14797/14799 | - |  |
| `src/lib/iau/ycip06a.cpp` | Cip, CipRow, CipY, RoundedSeries | 1349/1351 | - |  |
| `src/lib/icgem/icgemio.cpp` | IcgemHeader | 5/5 | - |  |
| `src/lib/icgem/icgemio_read_data_v1.cpp` | Icgem, RoundedIcgem | 96/97 | - |  |
| `src/lib/icgem/icgemio_read_data_v2.cpp` | Icgem, RoundedIcgem | 80/81 | - |  |
| `src/lib/icgem/icgemio_read_header.cpp` | IcgemHeader | 178/182 | 8-10 |  |
| `src/lib/icgem/resolve_igcem_data_date_v1.cpp` | Icgem | 26/26 | - |  |
| `src/lib/icgem/resolve_igcem_data_date_v2.cpp` | Icgem | 34/34 | - |  |
| `src/lib/icgem/resolve_igcem_data_line_v1.cpp` | Icgem | 147/149 | - |  |
| `src/lib/icgem/resolve_igcem_data_line_v2.cpp` | Icgem | 156/158 | - |  |
| `src/lib/ocean_tide/ocean_tide_potential.cpp` | RoundedAtlas, Tide | 48/48 | - |  |
| `src/lib/planets/kernel.cpp` | PlanetState, Planets | 16/19 | 4-7 |  |
| `src/lib/planets/kernel_consts.cpp` | PlanetState | 11/11 | - |  |
| `src/lib/planets/planet_pos.cpp` | PlanetState | 12/12 | - |  |
| `src/lib/planets/planet_state.cpp` | PlanetState | 19/19 | - |  |
| `src/lib/planets/planet_to_naif_id.cpp` | Planets | 23/28 | 12-14 |  |
| `src/lib/pole_tide/get_desai_ocp_deformation_coeffs.cpp` | DesaiGrid, RoundedGrid | 297/306 | 10-13, 283-286 |  |
| `src/lib/pole_tide/ocean_pole_tide_deformation.cpp` | PoleTide, RoundedOceanPole | 24/24 | - |  |
| `src/lib/pole_tide/ocean_pole_tide_geopotential.cpp` | LoadLove, PoleTide, RoundedOceanPole | 43/45 | - |  |
| `src/lib/pole_tide/parse_desai02_coeffs.cpp` | PoleTide | 90/96 | 26-31 |  |
| `src/lib/pole_tide/pole_tide_deformation.cpp` | PoleTide, RoundedTides | 28/28 | - |  |
| `src/lib/relativity/iers12010_relativistic_correction.cpp` | Relativity, RoundedRelativity | 47/49 | - |  |
| `src/lib/solid_earth_tides/iers2010_displacement_step1.cpp` | RoundedSite, SolidTide | 109/192 | 6-13, 30-65, 90-110, 116-123, 130-139, 146-152, 159-165, 366-378 | lines 30-165 and 366-378 are the older functions `step1_in_phase`, `step1_outof_phase`, which nothing calls |
| `src/lib/solid_earth_tides/iers2010_displacement_step2.cpp` | RoundedSite, SolidTide | 145/147 | - |  |
| `src/lib/solid_earth_tides/iers2010_geopotential_step1.cpp` | RoundedTides, SolidTide | 74/78 | - |  |
| `src/lib/solid_earth_tides/iers2010_geopotential_step2.cpp` | RoundedTides, SolidTide | 107/109 | - |  |
| `src/lib/solid_earth_tides/iers2010_site_displacement.cpp` | RoundedSite, SolidTide | 23/23 | - |  |
| `src/lib/solid_earth_tides/iers2010_stokes_coeffs.cpp` | RoundedTides, SolidTide | 33/33 | - |  |
| `src/lib/stokes_coefficients.cpp` | Coeffs, Stokes | 26/26 | - |  |
| `src/lib/tidal_constituent.cpp` | Tide | 3/8 | 3-8 |  |
| `src/lib/tide_atlas.cpp` | Tide | 38/38 | - |  |
| `src/lib/tide_atlas_groops.cpp` | Groops, GroopsDisk, TideName | 266/273 | 92-95 |  |
