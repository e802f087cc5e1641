{"id": "C01", "title": "Element addressing is a bijection onto the buffer, for all five storage types", "statement": "For every storage type and every matrix size, the addressable elements (row, col) of the matrix (all of them for dense types, those on or below the diagonal for triangular/trapezoid types) are mapped one-to-one and onto the offsets 0 .. num_elements()-1: no access to a valid element leaves the buffer, no two elements share a cell, no cell is unused.", "quantifier": "all five MatrixStorageType values, all rows/cols, all pairs of element positions", "why_tests_cant": "The number of sizes and element pairs is unbounded; a test fixes a handful of sizes.", "anchors": ["include/coeff_matrix_storage.hpp: StorageImplementation<*>::index, num_elements"]}
{"id": "C02", "title": "Slices tile the buffer", "statement": "The per-row (row-major) or per-column (column-major) slices returned by slice(i, n) are consecutive: slice 0 starts at offset 0, slice i+1 starts where slice i ends, and the last one ends at num_elements(); element k of slice i is the matrix element that operator() addresses there.", "quantifier": "all storage types, all sizes, all slice numbers", "why_tests_cant": "Unbounded sizes; an off-by-one in one slice may only show for particular shapes.", "anchors": ["include/coeff_matrix_storage.hpp: slice, num_slices, index, first_row_of_col"]}
{"id": "C03", "title": "Reading a matrix element returns the last value written to that element", "statement": "After any sequence of element writes to a matrix, reading (i,j) returns the value of the last write to (i,j), or the initial value if there was none; writes to other elements never change it.", "quantifier": "all storage types and sizes, all finite write histories", "why_tests_cant": "Histories are unbounded; aliasing of two elements is only visible for specific pairs.", "anchors": ["include/coeff_matrix_2d.hpp: operator()", "include/coeff_matrix_storage.hpp: index"]}
{"id": "C04", "title": "A matrix never addresses memory it does not own, through any history of construction, copy, move, swap, resize, cresize, assignment", "statement": "Along every sequence of matrix operations (construct, copy-construct, move-construct, copy-assign, move-assign, swap, resize, cresize, fill, multiply), the recorded capacity equals the size of the owned buffer and is at least num_elements(), so fill_with/multiply/copies/element accesses stay inside owned memory, and no buffer is owned twice.", "quantifier": "all finite operation sequences over any number of matrices, all sizes", "why_tests_cant": "Ownership errors depend on the history (e.g. copy into a previously shrunk matrix) and not on a single call.", "anchors": ["include/coeff_matrix_2d.hpp: CoeffMatrix2D ctor/dtor/copy/move/operator=/swap/resize/cresize/fill_with/multiply"]}
{"id": "C05", "title": "Matrix operations release every buffer they drop", "statement": "After any sequence of matrix operations every allocated buffer is still owned by a live matrix or was freed exactly once (no leak, no double free), and self-assignment (copy or move) leaves a matrix unchanged.", "quantifier": "all finite operation sequences, including self-assignment", "why_tests_cant": "Leaks and self-move only show for specific histories and are invisible to value checks.", "anchors": ["include/coeff_matrix_2d.hpp: operator=(CoeffMatrix2D&&), operator=(const CoeffMatrix2D&), ~CoeffMatrix2D"]}
{"id": "C06", "title": "cresize keeps the common elements", "statement": "After cresize(r, c) the matrix has the new shape and every element position that existed both before and after the call holds the value it held before.", "quantifier": "all storage types, all old and new shapes, all contents", "why_tests_cant": "Shapes and positions are unbounded; the copy is done slice by slice with lengths that depend on both shapes.", "anchors": ["include/coeff_matrix_2d.hpp: cresize"]}
{"id": "C07", "title": "Copies are value copies", "statement": "After copy construction or copy assignment the target has the same shape and the same value at every element as the source, the source is unchanged, and later writes to one do not affect the other; a moved-from matrix is empty and the target has the source's old shape and elements; swap exchanges both.", "quantifier": "all storage types, shapes, contents, and prior states (capacities) of the target", "why_tests_cant": "Depends on the target's earlier capacity and on all elements.", "anchors": ["include/coeff_matrix_2d.hpp: copy/move constructors and assignments, swap"]}
{"id": "C08", "title": "Matrix expressions mean element-wise arithmetic", "statement": "Constructing or += from an expression built from sums, scalings and reduced views of matrices gives, at every addressed element, the arithmetic value of the expression at that element; elements outside the view are unchanged by +=.", "quantifier": "all expression trees, shapes, contents", "why_tests_cant": "Expression trees are unbounded in shape and two code paths (raw buffer, row/column walk) must agree.", "anchors": ["include/coeff_matrix_2d.hpp: _SumProxy, _ScaledProxy, _ReducedViewProxy, reduce_copy, operator+="]}
{"id": "C09", "title": "Adding Stokes coefficient sets adds every coefficient and nothing else", "statement": "a += b throws exactly when b's maximum degree or order exceeds a's; otherwise each C(n,m), S(n,m) with m <= n within b's degree/order increases by b's value and every other coefficient of a is unchanged.", "quantifier": "all pairs of coefficient sets", "why_tests_cant": "Degrees are unbounded; a missed or doubled coefficient is visible only at one (n,m).", "anchors": ["include/stokes_coefficients.hpp: StokesCoeffs", "src/lib/stokes_coefficients.cpp: operator+="]}
{"id": "C10", "title": "Degree/order of a Stokes set stays consistent with its storage", "statement": "Along every sequence of construct, resize, cresize, shrink_dimensions, += : 0 <= order <= degree and every coefficient (n,m) with m <= order, n <= degree is inside the allocated matrices; shrink_dimensions succeeds exactly for new_order <= new_degree <= degree, new_order <= order, keeps all coefficient values, and otherwise changes nothing.", "quantifier": "all finite operation sequences", "why_tests_cant": "Invariant over histories.", "anchors": ["include/stokes_coefficients.hpp: StokesCoeffs, shrink_dimensions", "src/lib/stokes_coefficients.cpp: resize, cresize"]}
{"id": "C11", "title": "C/S <-> single-matrix (anm) packing round-trips", "statement": "Packing a coefficient set to the combined square matrix and unpacking it restores every C(n,m) and every S(n,m) with m >= 1, for every maximum degree; distinct coefficients occupy distinct cells.", "quantifier": "all degrees and contents", "why_tests_cant": "Unbounded degree; index shifts by one are easy to miss.", "anchors": ["include/stokes_coefficients.hpp: to_anm, from_anm"]}
{"id": "C12", "title": "clear and scale act on all coefficients", "statement": "clear() makes every coefficient zero; scale(f) multiplies every coefficient by f; scale(f) after scale(g) equals scale(f*g).", "quantifier": "all degrees and contents", "why_tests_cant": "Unbounded degree and contents, including the degree-0 corner case.", "anchors": ["include/stokes_coefficients.hpp: clear, scale"]}
{"id": "C13", "title": "Doodson number text form round-trips", "statement": "Every Doodson constituent whose multipliers lie in the representable range is written as a string XXX.XXX that parses back to the same multipliers; every string the parser accepts is the (case-folded) rendering of the constituent it returns.", "quantifier": "all six-tuples of multipliers in range, all strings", "why_tests_cant": "23^6 tuples and all strings.", "anchors": ["src/lib/doodson/doodson_from_chars.cpp: from_chars", "src/lib/doodson/doodson_to_str.cpp: str, int2char", "include/doodson.hpp: DoodsonConstituent"]}
{"id": "C14", "title": "Out-of-range multipliers are never rendered as a different constituent", "statement": "Rendering either fails or yields a string that parses back to the same multipliers.", "quantifier": "all integer six-tuples", "why_tests_cant": "Unbounded integers.", "anchors": ["src/lib/doodson/doodson_to_str.cpp: int2char, str"]}
{"id": "C15", "title": "Tidal arguments are angles in [0, 2pi) congruent to the multiplier combination", "statement": "The argument of a constituent lies in [0, 2pi) and equals the integer combination of the fundamental arguments modulo 2pi; the Doodson arguments computed from the Delaunay arguments satisfy the defining relations modulo 2pi, so combining in either basis gives the same angle modulo 2pi.", "quantifier": "all real fundamental arguments, all integer multipliers", "why_tests_cant": "Continuous inputs.", "anchors": ["include/doodson.hpp: DoodsonConstituent::argument, delaunay2doodson"]}
{"id": "C16", "title": "Wave tables are unambiguous", "statement": "Within each built-in table (atmospheric, oceanic) the Doodson numbers are pairwise different and the names are pairwise different, so lookup by name or number returns the one matching row, and a failed lookup means the wave is in no row.", "quantifier": "all rows of both tables, all lookup keys", "why_tests_cant": "Keys range over all strings.", "anchors": ["include/doodson.hpp: TidalConstituentsArrayEntry, get_wave, find_wave_entry", "src/lib/doodson/tidal_wave_tables.cpp", "src/lib/doodson/match_tadal_constituents.cpp"]}
{"id": "C17", "title": "IERS Doodson strings decode digit-wise", "statement": "A constituent string of the IERS form (six characters with a dot) decodes to the multipliers its digits denote, or is rejected.", "quantifier": "all strings", "why_tests_cant": "All strings.", "anchors": ["src/lib/doodson/resolve_iers2010_doodson_string.cpp: resolve_iers10_doodson_string"]}
{"id": "C18", "title": "EOP lookup brackets the epoch", "statement": "For a time-ordered EOP series and an epoch inside its span the interpolation uses a window of records that contains the bracketing pair t_i <= t < t_{i+1} and lies entirely inside the series; before the first record the first record is returned with status 'prior', at or after the last one the last record is returned with status 'later'.", "quantifier": "all sorted series of any length, all epochs, all polynomial degrees, all previous queries (cached position)", "why_tests_cant": "Series, epochs and the cached search position are unbounded; memory errors at window edges depend on all of them.", "anchors": ["include/eop.hpp: EopSeries, EopInterpolationResult", "src/lib/eop/lagrange_interpolation.cpp: EopSeries::interpolate"]}
{"id": "C19", "title": "EOP interpolation is exact at the nodes and on low-degree polynomials", "statement": "At a tabulated epoch the interpolated record equals the tabulated one, and if the tabulated quantity is a polynomial of degree at most (number of window points - 1) the interpolated value equals that polynomial at the epoch.", "quantifier": "all series, epochs, degrees >= 1 and polynomials", "why_tests_cant": "Continuous inputs; the claim is an identity between functions.", "anchors": ["src/lib/eop/lagrange_interpolation.cpp: interpolate"]}
{"id": "C20", "title": "A leap second inside the window does not disturb UT1-UTC", "statement": "UT1-UTC is interpolated through UT1-TAI: the difference of the result and the leap-second count at the queried epoch's record is the interpolation of the leap-second-free quantity, so adding a leap second to the tail of the series changes the result only by the count used.", "quantifier": "all series with arbitrary leap-second steps", "why_tests_cant": "Needs all positions of the leap second in the window.", "anchors": ["src/lib/eop/lagrange_interpolation.cpp: interpolate", "src/lib/eop/approx_dut1.cpp"]}
{"id": "C21", "title": "The reported interpolation status is truthful", "statement": "Status 'degree as requested' is reported iff a polynomial of the requested degree was used, 'linear' iff the two-point formula was used, 'decreased' iff a lower degree >1 was used.", "quantifier": "all requested degrees, series and epochs", "why_tests_cant": "All degrees, including even and zero.", "anchors": ["src/lib/eop/lagrange_interpolation.cpp: interpolate", "include/eop.hpp: EopInterpolationResult"]}
{"id": "C22", "title": "regularize and deregularize are inverse", "statement": "Removing and re-adding the zonal tide terms restores the series exactly, and regularizing twice differs from once by the same correction.", "quantifier": "all series, any correction model depending on the epoch", "why_tests_cant": "Any series.", "anchors": ["src/lib/eop/regularize.cpp", "include/eop.hpp: EopSeries"]}
{"id": "C23", "title": "Approximate UT1-UTC agrees with linear interpolation", "statement": "The quick UT1-UTC lookup returns, inside the span, the linear interpolation between the two bracketing records, and the end records' values outside.", "quantifier": "all sorted non-empty series and epochs", "why_tests_cant": "Unbounded series.", "anchors": ["src/lib/eop/approx_dut1.cpp: approx_dut1"]}
{"id": "C24", "title": "C04 parsing returns exactly the records in [start, end)", "statement": "Parsing an IERS C04 file whose data lines are in time order returns success and exactly the records with start <= t < end, in file order, once each; if a line cannot be decoded or the interval is empty it returns an error.", "quantifier": "all files (line lists), all intervals", "why_tests_cant": "All files.", "anchors": ["src/lib/eop/parse_iers_c0414.cpp", "src/lib/eop/parse_iers_c0420.cpp", "src/lib/eop/parse_iers_c04.cpp"]}
{"id": "C25", "title": "Normalised angles stay in [0, 2pi)", "statement": "era00, gmst, gmst82 and the normalised arguments lie in [0, 2pi) for every epoch and are congruent modulo 2pi to their defining polynomial.", "quantifier": "all epochs", "why_tests_cant": "Continuous input.", "anchors": ["src/lib/iau/era00.cpp", "src/lib/iau/gmst.cpp", "src/lib/iau/gmst82.cpp"]}
{"id": "C26", "title": "Rates of fundamental arguments and sidereal time are derivatives", "statement": "Each d* function returns the time derivative of the corresponding angle.", "quantifier": "all epochs", "why_tests_cant": "An identity between functions of a real variable.", "anchors": ["include/fundarg.hpp: dfal03..dfaom03", "src/lib/iau/dgmst.cpp"]}
{"id": "C27", "title": "Time-variable gravity coefficients accumulate to the documented formula", "statement": "After a successful read, each requested coefficient is the sum over the file's lines for it of: gfc/gfct value, trend times elapsed time, and A*sin / B*cos periodic terms at the epoch; coefficients without lines are zero.", "quantifier": "all files, epochs, degrees and orders", "why_tests_cant": "All files and line orders.", "anchors": ["src/lib/icgem/icgemio_read_data_v1.cpp: Icgem::parse_data_v1", "src/lib/icgem/resolve_igcem_data_line_v1.cpp"]}
{"id": "C28", "title": "ICGEM v2 uses exactly the records valid at the epoch", "statement": "In version-2 files a record contributes iff its validity interval [t0, t1) contains the epoch (gfc records always).", "quantifier": "all files and epochs", "why_tests_cant": "All interval layouts.", "anchors": ["src/lib/icgem/icgemio_read_data_v2.cpp: Icgem::parse_data_v2"]}
{"id": "C29", "title": "Reading a gravity model never writes outside the coefficient matrices", "statement": "For every file content and request, each coefficient written has 0 <= order <= degree <= requested degree; bad requests are rejected before anything is modified.", "quantifier": "all files, all requests", "why_tests_cant": "Hostile or damaged files.", "anchors": ["src/lib/icgem/icgemio_read_data_v1.cpp", "src/lib/icgem/icgemio_read_data_v2.cpp", "src/lib/icgem/resolve_igcem_data_line_v1.cpp", "src/lib/icgem/resolve_igcem_data_line_v2.cpp"]}
{"id": "C30", "title": "After reading, reported degree/order equal what was collected", "statement": "On success the degree and order of the returned set are the largest degree and order of the lines accepted within the request.", "quantifier": "all files and requests", "why_tests_cant": "All files.", "anchors": ["src/lib/icgem/icgemio_read_data_v1.cpp", "src/lib/icgem/icgemio_read_data_v2.cpp"]}
{"id": "C31", "title": "Fortran-style exponents parse to the same number", "statement": "A numeric column written with D/d exponent parses to the same value as with e.", "quantifier": "all numerals", "why_tests_cant": "All strings.", "anchors": ["src/lib/icgem/resolve_igcem_data_line_v1.cpp", "src/lib/icgem/resolve_igcem_data_line_v2.cpp"]}
{"id": "C32", "title": "AOD1B file names round-trip to the release number", "statement": "The release number decoded from a file path whose base name was produced by the naming function equals the release given, for every date, satellite and release 0..99; asking for the compressed name yields the plain name followed by .gz.", "quantifier": "all dates, satellite letters, releases, directories", "why_tests_cant": "All combinations.", "anchors": ["src/lib/aod1b/aod1bnontidalproductnaming.cpp", "include/aod1b.hpp: AOD1BNonTidalProductNaming"]}
{"id": "C33", "title": "AOD1B block reading stores exactly the block's coefficients", "statement": "Collecting a block succeeds only if all its lines decode; then every coefficient within the requested degree/order holds the last value given for it in the block, all others are zero, and exactly the block's lines are consumed.", "quantifier": "all blocks, requests and containers", "why_tests_cant": "All block contents.", "anchors": ["src/lib/aod1b/aod1b_collect_coeffs.cpp"]}
{"id": "C34", "title": "Seeking a data block finds the next block of the wanted type", "statement": "goto_next_block(type) positions the stream right after the header of the first following block of that type and reports end-of-file (negative) iff there is none.", "quantifier": "all sequences of blocks", "why_tests_cant": "All layouts.", "anchors": ["src/lib/aod1b/aod1b_goto_next_block.cpp", "src/lib/aod1b/aod1b_skip_header.cpp"]}
{"id": "C35", "title": "The dealiasing stream interpolates between the two blocks around the epoch", "statement": "For every sequence of queries, whenever coefficients_at(t) succeeds the result is the linear interpolation at t between the blocks at t1 <= t < t2 that are adjacent in the file; at a block epoch it equals that block.", "quantifier": "all files, all query sequences (forward, backward, repeated)", "why_tests_cant": "The stream is stateful (three buffered blocks); errors depend on the jump pattern.", "anchors": ["include/aod1b_data_stream.hpp: Aod1bDataStream::hunt_range, coefficients_at, initialize"]}
{"id": "C36", "title": "The tidal coefficient file reader is all-or-nothing", "statement": "Reading a tidal AOD1B file succeeds iff it holds exactly the cos and the sin block with the announced number of decodable lines, and then both sets hold the file's values within the request.", "quantifier": "all files and requests", "why_tests_cant": "All files.", "anchors": ["src/lib/aod1b/aod1b_get_tidal_wave.cpp"]}
{"id": "C37", "title": "A tide atlas never holds a constituent twice", "statement": "Along any sequence of append operations the atlas has pairwise different Doodson numbers, lookup finds a wave iff it was appended, and a rejected append leaves the atlas unchanged.", "quantifier": "all append sequences", "why_tests_cant": "Histories.", "anchors": ["src/lib/tide_atlas.cpp", "include/tide_atlas.hpp: TideAtlas", "src/lib/atmospheric_tides/atm_tides_append_wave.cpp"]}
{"id": "C38", "title": "Tide potential is the sum of the constituents' contributions", "statement": "The coefficients returned for an epoch are the sum over all constituents of cos-part times cos(arg) plus sin-part times sin(arg), with nothing left over from earlier calls, for every coefficient.", "quantifier": "all atlases, epochs, call histories", "why_tests_cant": "All atlases and histories; constituents may differ in degree.", "anchors": ["src/lib/ocean_tide/ocean_tide_potential.cpp", "src/lib/atmospheric_tides/atm_tides_geopotential.cpp", "src/lib/atmospheric_tides/atm_tides_append_wave.cpp"]}
{"id": "C39", "title": "The result container of an atmospheric tide model is large enough for every constituent", "statement": "After any sequence of appended constituents, the model's coefficient container has at least the degree and order of each constituent.", "quantifier": "all append sequences", "why_tests_cant": "Histories with mixed degree/order.", "anchors": ["src/lib/atmospheric_tides/atm_tides_append_wave.cpp", "include/atmospheric_tides.hpp"]}
{"id": "C40", "title": "Admittance combines major waves with the matrix", "statement": "With an admittance matrix A, the potential is the sum over all minor waves f and major waves k of A[k,f] times the major wave evaluated at the minor wave's angle; the result is linear in A.", "quantifier": "all matrices, atlases and epochs", "why_tests_cant": "Unbounded matrices.", "anchors": ["src/lib/ocean_tide/ocean_tide_potential.cpp", "include/groops_tide_model.hpp"]}
{"id": "C41", "title": "GROOPS file names: parse inverts compile", "statement": "Parsing a name produced for (model, Doodson, name, sin/cos) returns these four items.", "quantifier": "all models, names, Doodson numbers", "why_tests_cant": "All strings.", "anchors": ["src/lib/tide_atlas_groops.cpp: GroopsTideModelFileName", "include/groops_tide_model.hpp"]}
{"id": "C42", "title": "A GROOPS file list is accepted only if every wave has its sin and cos file", "statement": "The list check succeeds iff there are no duplicates and for each file its partner (same wave, other of sin/cos) is in the list.", "quantifier": "all lists", "why_tests_cant": "All lists.", "anchors": ["src/lib/tide_atlas_groops.cpp: validate_file_list"]}
{"id": "C43", "title": "The admittance file reader fills exactly the announced matrix", "statement": "Reading succeeds iff the file has the announced number of rows and columns, and then entry (r,c) is the number at row r, column c; no element outside the matrix is written.", "quantifier": "all files", "why_tests_cant": "All files.", "anchors": ["src/lib/tide_atlas_groops.cpp: parse_admittance"]}
{"id": "C44", "title": "OceanTide objects own their admittance model exclusively", "statement": "Along every sequence of construction, move construction, move assignment and destruction, each admittance model is owned by at most one object and freed exactly once; no object holds a freed one.", "quantifier": "all operation sequences, including self-move", "why_tests_cant": "Histories.", "anchors": ["include/ocean_tide.hpp: OceanTide"]}
{"id": "C45", "title": "Pole tide corrections follow the linear formula about the secular pole", "statement": "The solid and ocean (2,1) corrections are the stated linear functions of (m1, m2), vanish when the pole is at the secular pole, and superpose.", "quantifier": "all epochs and pole coordinates", "why_tests_cant": "Continuous inputs.", "anchors": ["include/pole_tide.hpp: mcoeffs, PoleTide::stokes_coeffs, OceanPoleTide::stokes_coeffs"]}
{"id": "C46", "title": "Ocean pole tide coefficients depend only on the call's arguments", "statement": "After stokes_coeffs(t, xp, yp, degree, order) every coefficient within degree/order equals the model formula and every other coefficient is zero, regardless of earlier calls; no array is accessed out of range for any degree the object accepts.", "quantifier": "all call histories, all accepted degrees up to 360", "why_tests_cant": "Histories and the maximal degree.", "anchors": ["src/lib/pole_tide/ocean_pole_tide_geopotential.cpp"]}
{"id": "C47", "title": "Pole tide displacement is a rotated local vector", "statement": "The Cartesian displacement has the same length as the local (colatitude, longitude, radial) one, its radial component is the radial one, for every site.", "quantifier": "all sites and pole positions", "why_tests_cant": "Continuous inputs.", "anchors": ["src/lib/pole_tide/pole_tide_deformation.cpp", "src/lib/pole_tide/ocean_pole_tide_deformation.cpp"]}
{"id": "C48", "title": "Gridded loading coefficients are interpolated at the site's own longitude and latitude", "statement": "For each site the returned coefficients are the bilinear interpolation of the four grid nodes surrounding the site's longitude (modulo 360 degrees) and latitude.", "quantifier": "all sites, grids and files", "why_tests_cant": "Continuous inputs.", "anchors": ["src/lib/pole_tide/get_desai_ocp_deformation_coeffs.cpp", "include/grid.hpp"]}
{"id": "C49", "title": "Grid index and node conversions are inverse", "statement": "For every grid and node (i,j), the line index of the node converts back to (i,j), and a point inside the cell of node (i,j) has that node as its lower-left one; distinct nodes have distinct line numbers in range.", "quantifier": "all grid shapes, both leading axes, all nodes", "why_tests_cant": "Unbounded grids; square grids hide the error.", "anchors": ["include/grid.hpp: TwoDimGrid"]}
{"id": "C50", "title": "Surrounding nodes are the four corners of the point's cell", "statement": "For a point strictly inside the grid, surrounding_nodes returns the indices of the nodes (i,j), (i+1,j), (i,j+1), (i+1,j+1); for a point outside it returns -1 for all four.", "quantifier": "all grids and points", "why_tests_cant": "Unbounded grids and continuous points.", "anchors": ["include/grid.hpp: surrounding_nodes"]}
{"id": "C51", "title": "Step-1 solid tide coefficients follow the complex formula and superpose", "statement": "The step-1 corrections from a body are k/(2n+1) * (GM ratio) * (Re/r)^{n+1} * P_nm(sin phi) e^{-i m lambda} in the complex form C - iS (degree 2 and 3), and the degree-4 ones the k+ variant; contributions of the Sun and Moon add and the remaining entries stay zero.", "quantifier": "all body positions", "why_tests_cant": "Continuous inputs.", "anchors": ["src/lib/solid_earth_tides/iers2010_geopotential_step1.cpp"]}
{"id": "C52", "title": "Step-2 solid tide coefficients follow the complex formula per band", "statement": "The step-2 correction of each band is the real/imaginary part of eta_m * sum (in-phase + i out-of-phase) e^{i theta}, in units 1e-12.", "quantifier": "all epochs (arguments)", "why_tests_cant": "Continuous inputs.", "anchors": ["src/lib/solid_earth_tides/iers2010_geopotential_step2.cpp"]}
{"id": "C53", "title": "Solid tide coefficient assembly puts each correction in its place", "statement": "After stokes_coeffs, coefficient (n,m) is step-1 plus (for degree 2) step-2, all others zero, independent of earlier calls.", "quantifier": "all inputs and call histories", "why_tests_cant": "Histories and all cells.", "anchors": ["src/lib/solid_earth_tides/iers2010_stokes_coeffs.cpp"]}
{"id": "C54", "title": "Computed associated Legendre functions are the normalised ones", "statement": "For every angle, degree and order up to the maximum the computed values are the fully normalised associated Legendre functions.", "quantifier": "all angles, all degrees/orders (unbounded)", "why_tests_cant": "Unbounded degree; an identity between functions.", "anchors": ["src/lib/gravity/forward_column_alf.cpp"]}
{"id": "C55", "title": "Computed Legendre derivatives are derivatives", "statement": "The derivative array holds the derivative of the computed functions with respect to the documented angle.", "quantifier": "all angles away from the poles, all degrees/orders", "why_tests_cant": "Identity between functions.", "anchors": ["src/lib/gravity/forward_column_alf.cpp"]}
{"id": "C56", "title": "Legendre and gravity recursions stay within their work arrays", "statement": "For every accepted degree/order and work-array size the recursion reads and writes only elements of the work arrays, each read after it was written.", "quantifier": "all accepted degrees, orders and array sizes", "why_tests_cant": "Depends on all size combinations.", "anchors": ["src/lib/gravity/forward_column_alf.cpp", "src/lib/gravity/sh_cunningham_normalized_gradient.cpp"]}
{"id": "C57", "title": "Gravity acceleration is the gradient of the truncated potential", "statement": "The acceleration returned for a coefficient set, degree and order is the gradient at the point of the spherical harmonic potential truncated at that degree and order.", "quantifier": "all coefficient sets, degrees, orders and points outside the origin", "why_tests_cant": "Identity between functions of unbounded degree.", "anchors": ["src/lib/gravity/sh_cunningham_normalized_gradient.cpp: sh2gradient_cunningham"]}
{"id": "C58", "title": "Gravity gradient is symmetric and trace-free", "statement": "The returned gradient matrix is symmetric and has zero trace.", "quantifier": "all coefficient sets, degrees, orders, points", "why_tests_cant": "Unbounded degree, continuous inputs.", "anchors": ["src/lib/gravity/sh_cunningham_normalized_gradient.cpp"]}
{"id": "C59", "title": "Point-mass acceleration and its Jacobian agree", "statement": "The third-body acceleration vanishes at the Earth's centre, is linear in GM, and the returned Jacobian is its derivative (symmetric, trace-free).", "quantifier": "all positions with satellite, body and Earth apart", "why_tests_cant": "Continuous inputs.", "anchors": ["src/lib/gravity/point_mass_acceleration.cpp"]}
{"id": "C60", "title": "Celestial-to-terrestrial matrices are rotations and compose", "statement": "The bias-precession-nutation, TIRS and ITRS transformations are orthogonal with determinant one for all inputs; the one-step celestial-to-terrestrial rotation equals polar motion times TIRS rotation; the closed-form quaternion is the same rotation.", "quantifier": "all angles", "why_tests_cant": "Continuous inputs.", "anchors": ["include/earth_rotation.hpp", "src/lib/earth_rotation/c2i06a.cpp", "src/lib/earth_rotation/c2i06abz.cpp", "src/lib/earth_rotation/c2i06apq.cpp"]}
{"id": "C61", "title": "The rotation-rate matrix is the time derivative of the rotation", "statement": "dR/dt returned for the Earth rotation angle and rate is the derivative of the rotation by the angle.", "quantifier": "all angles and rates", "why_tests_cant": "Identity between functions.", "anchors": ["include/earth_rotation.hpp: dRdt, dMdt, earth_rotation_rate"]}
{"id": "C62", "title": "CIP coordinates convert to spherical angles and back", "statement": "The spherical angles (d, e) of the CIP satisfy X = sin d cos e, Y = sin d sin e, so the rotation carries the pole to (X, Y, Z).", "quantifier": "all X, Y with X^2+Y^2 < 1", "why_tests_cant": "Continuous inputs.", "anchors": ["include/earth_rotation.hpp: xycip2spherical"]}
{"id": "C63", "title": "Compensated summation loses nothing in exact arithmetic and tracks the rounding error", "statement": "In exact arithmetic the accumulator equals the plain sum for every sequence; under any rounding in which the branch's subtraction is exact, sum plus compensation equals the exact sum of the inputs. With rounding to nearest, the compensated sum of n numbers is the exact sum up to one rounding and an error of second order (n half units squared, times the sum of the absolute values).", "quantifier": "all finite sequences of inputs", "why_tests_cant": "All sequences.", "anchors": ["include/kahan.hpp: KahanSum"]}
{"id": "C64", "title": "Average running time is total over samples", "statement": "After any sequence of start/stop pairs the reported average is total elapsed time divided by the number of samples.", "quantifier": "all sequences of measurements", "why_tests_cant": "Histories, including none.", "anchors": ["include/clock.hpp"]}
{"id": "C65", "title": "Free core nutation is the rotating complex amplitude", "statement": "At every epoch X + iY is the (interpolated) complex amplitude times exp(i phi); at a table epoch the amplitude is the table's, between epochs linear, outside constant; uncertainties are non-negative and grow with distance from the table.", "quantifier": "all tables and epochs", "why_tests_cant": "Continuous epochs, all tables.", "anchors": ["src/lib/free_core_nutation/lambert.cpp", "src/lib/free_core_nutation/load_iers10_table52c.cpp", "include/fcn.hpp"]}
{"id": "C66", "title": "Lambert coefficient files: exactly the records in [from, to)", "statement": "Parsing returns the file's records with from <= t < to in order, or an error.", "quantifier": "all files and intervals", "why_tests_cant": "All files.", "anchors": ["src/lib/free_core_nutation/parse_lambert_coeffs.cpp"]}
{"id": "C67", "title": "Relativistic acceleration equals the SI formula and is unit-consistent", "statement": "The returned acceleration equals Schwarzschild + Lense-Thirring + de Sitter terms evaluated in SI units; the internal change of units has no effect.", "quantifier": "all states and constants", "why_tests_cant": "Continuous inputs.", "anchors": ["src/lib/relativity/iers12010_relativistic_correction.cpp"]}
{"id": "C68", "title": "Planet identifiers are distinct and their text form decodes", "statement": "Every planet has an identifier, distinct planets have distinct identifiers, and the identifier string decodes to the identifier.", "quantifier": "all planets and buffer sizes", "why_tests_cant": "Buffer sizes are unbounded.", "anchors": ["src/lib/planets/planet_to_naif_id.cpp"]}
{"id": "C69", "title": "A requested kernel is loaded", "statement": "After load_if_unloaded(k), kernel k is loaded, and it is loaded once however often it is requested.", "quantifier": "all request sequences and names", "why_tests_cant": "Histories and names that are prefixes of each other.", "anchors": ["src/lib/planets/kernel.cpp: load_if_unloaded"]}
{"id": "C70", "title": "A tidal wave reports the name it was given", "statement": "A wave looked up by name in the built-in table reports exactly that name and the constituent of its row; a wave constructed with a name reports that name as a terminated string.", "quantifier": "all names", "why_tests_cant": "All strings of any length.", "anchors": ["include/doodson.hpp: TidalWave", "src/lib/doodson/tidal_wave_tables.cpp: get_wave"]}
{"id": "C71", "title": "A GROOPS atlas holds for each wave the coefficients of its own files", "statement": "If groops_atlas(list, dir, n, m) returns an atlas, and no part (sin or cos) of a wave has two files in the list, then the atlas has every wave of the list exactly once and no other, and the sin (cos) coefficients of a wave are those read from its sin (cos) file; every wave has both.", "quantifier": "all file lists, directories, degrees and orders, all contents of the files", "why_tests_cant": "The order of the files in the list is free and waves are appended or found again as the list is read; a test has a few lists in the canonical order.", "anchors": ["src/lib/tide_atlas_groops.cpp:groops_atlas", "src/lib/tide_atlas.cpp:TideAtlas::append_wave"]}
{"id": "C72", "title": "GROOPS list and Doodson files are read completely", "statement": "Reading the file list of a GROOPS model yields both names of every line, in order; reading the Doodson matrix yields the six integers of every line, in order; a line that cannot be read is an error, never a silent end.", "quantifier": "all files: any number of lines, any length of lines, any integers", "why_tests_cant": "The readers use fixed buffers, so the answer depends on line lengths; a test reads the published files only.", "anchors": ["src/lib/tide_atlas_groops.cpp:resolve_file_list", "src/lib/tide_atlas_groops.cpp:parse_doodson"]}
{"id": "C73", "title": "An ICGEM header is read as written", "statement": "Constructing an Icgem reader from a file gives every header member the value that stands last for its keyword (or its documented default), with lines in any order, any blanks around keyword and value, and any other lines in between; the data section is exactly what follows the end_of_head line, so that constructor and parse_data together give the documented coefficients for the file's text. A file without an end_of_head line is refused. Reading a header is memory safe whatever the file holds.", "quantifier": "all file contents", "why_tests_cant": "Header lines are free text of unbounded variety; tests read a few well-behaved model files, none of which has long names, comments that begin with a keyword, Fortran exponents or missing keywords.", "anchors": ["src/lib/icgem/icgemio_read_header.cpp:parse_header", "src/lib/icgem/icgemio_read_header.cpp:match_header_keyword", "src/lib/icgem/icgemio.cpp:Icgem", "include/icgemio.hpp"]}
{"id": "C74", "title": "The Desai coefficient file is read as written", "statement": "If reading the ocean pole tide coefficients up to (degree, order) succeeds, each stored coefficient within degree/order is the one of the file's line for that (l, m), and every line within range was stored; lines that cannot be read, and lines that are no (l, m) pair with m <= l, are errors.", "quantifier": "all files, degrees, orders and earlier contents of the matrices", "why_tests_cant": "The order, number and form of lines is free; a test reads one published file.", "anchors": ["src/lib/pole_tide/parse_desai02_coeffs.cpp:parse_desai02_coeffs"]}
{"id": "C75", "title": "The solid tide displacement is that of the Conventions, whatever the object did before", "statement": "displacement() returns, in the Earth-fixed frame, the sum over Sun and Moon of the degree 2 and 3 in-phase vectors and of the out-of-phase and latitude-dependent components along east, north and up, plus the frequency-dependent diurnal and long-period corrections; it depends on the object only through the mass ratios and the Earth radius.", "quantifier": "all epochs, arguments, Sun, Moon and site positions (other than the geocentre), all objects", "why_tests_cant": "Continuous inputs; each published test case exercises one epoch.", "anchors": ["src/lib/solid_earth_tides/iers2010_displacement_step1.cpp", "src/lib/solid_earth_tides/iers2010_displacement_step2.cpp", "src/lib/solid_earth_tides/iers2010_site_displacement.cpp"]}
{"id": "C76", "title": "Zonal tide corrections are mutually consistent", "statement": "deop_zonal_tide does not change when an argument is shifted by whole turns; along the Conventions' fundamental arguments its LOD correction is minus the daily rate of its UT1 correction, and its rotation-rate correction is that of the LOD correction, to the rounding of the table; the second source file that defines the function gives the same values up to 0.01 microseconds of UT1.", "quantifier": "all argument vectors; all epochs within a century of J2000", "why_tests_cant": "the relations hold along a continuum of epochs and arguments; a wrong sign or multiplier in one of 62 rows shows only where that term dominates", "anchors": ["src/lib/eop/zonal_tides.cpp:deop_zonal_tide", "src/lib/eop/zonal_tides_iers.cpp:deop_zonal_tide", "src/lib/fundarg/fundarg.cpp:fundarg"]}
{"id": "C77", "title": "Libration corrections are those of PMSDNUT2 and UTLIBR", "statement": "deop_libration gives, for every set of fundamental arguments and sidereal time, the polar motion of the IERS routine PMSDNUT2 (diurnal terms) and the UT1 and LOD of the routine UTLIBR.", "quantifier": "all argument vectors and sidereal times", "why_tests_cant": "two differently organised tables must agree as functions of six continuous variables", "anchors": ["src/lib/eop/libration.cpp:deop_libration", "fortran_impl/PMSDNUT2_D0.F", "fortran_impl/UTLIBR_D0.F", "include/eop.hpp:deop_libration"]}
{"id": "C78", "title": "Diurnal LOD corrections are minus the rate of the UT1 corrections", "statement": "Along the Conventions' fundamental arguments and sidereal time, the LOD corrections of deop_ocean_tide and deop_libration are minus the daily rates of their UT1 corrections, term by term to the rounding of the tables.", "quantifier": "all epochs within a century of J2000, all sidereal-time functions of the right rate, all rows", "why_tests_cant": "a derivative relation along a continuum; a wrong amplitude in one of 92 rows is hidden by the others in any sampled comparison", "anchors": ["src/lib/eop/ocean_tide_variation.cpp:deop_ocean_tide", "src/lib/eop/libration.cpp:deop_libration", "include/doodson.hpp:delaunay2doodson"]}
{"id": "C79", "title": "CIP coordinates are the Conventions' development", "statement": "At every epoch xycip06a is defined and returns X and Y of Tables 5.2a/5.2b of the IERS Conventions (polynomial plus all 1600 and 1275 terms) in radians, with the fourteen fundamental arguments; extra::xycip06a returns the same.", "quantifier": "all epochs, all values of the fourteen arguments, every term of the tables", "why_tests_cant": "a wrong digit in one of 2875 rows is below any test tolerance at sampled epochs (one such row exists); reads past the merged table depend on the counts of all rows", "anchors": ["src/lib/iau/xycip06a_xy.cpp:xycip06a", "src/lib/iau/xcip06a.cpp:xcip06a", "src/lib/iau/ycip06a.cpp:ycip06a", "src/lib/iau/xycip06a.cpp:xycip06a"]}
{"id": "C80", "title": "The CIO locator is the Conventions' development", "statement": "At every epoch and for all coordinates given, s06 returns the published development of s + XY/2 (66 terms and polynomial) minus half the product of the coordinates; passing the arguments returned by xycip06a gives the same value as computing them afresh.", "quantifier": "all epochs, all coordinates", "why_tests_cant": "a continuum of epochs; rows left uninitialised and a skipped planetary part could matter at untested ones", "anchors": ["src/lib/iau/s06.cpp:s06"]}
{"id": "C81", "title": "GCRS to ITRS at an epoch", "statement": "For every TT epoch within a millennium of J2000 and every EOP record whose CIP corrections are at most a degree, the celestial-to-terrestrial functions return a rotation, and its matrix is the inverse of Q(t) R(t) W(t) of the IERS Conventions evaluated with the IAU 2006/2000A pole (plus the corrections dX, dY), the CIO locator of the Conventions, the Earth rotation angle of the UT1 epoch, the pole coordinates of the record and s' = -47 t microarcseconds. The quaternion, product-of-two-quaternions, closed-form and with-derivative interfaces return the same rotation; the first factor takes the corrected pole to the third axis; the returned rotation vector is along that axis with the rate given by the length of day.", "quantifier": "all epochs within 10 Julian centuries of J2000, all EOP records with |dX|,|dY| up to 3600 arcseconds, all UT1 conversions", "why_tests_cant": "Tests compare a few epochs against SOFA within a tolerance; wrong wiring (corrected instead of uncorrected pole for s, UT1 in place of TT) changes results below such tolerances, and no sample shows that the square root is never taken of a negative number.", "anchors": ["src/lib/earth_rotation/c2i06a.cpp", "src/lib/earth_rotation/c2i06abz.cpp", "src/lib/earth_rotation/c2i06apq.cpp", "include/earth_rotation.hpp"]}
{"id": "C82", "title": "An AOD1B header is read as written", "statement": "Opening an AOD1B file whose header has at most 98 lines of the form 'KEY : value' with keys of the format, followed by END OF HEADER, succeeds, and every accessor (agency, satellite, sensor, level, pressure type, degree, number of sets, constants, epochs, flags, tide) returns the value that stands last for its key; first and last epoch are the seconds after the reference epoch and agree with the date written beside them. A file that is accepted has only known keys, ends its header with a complete END OF HEADER line, and its degree, number of sets and constants stand in a line with their key. Composed with the tidal reader, a file is read from its name to its coefficients.", "quantifier": "all texts, all date libraries, all headers up to 98 lines in any order", "why_tests_cant": "The tests open a few files of one producer; field lengths, blanks, key order and missing lines vary without bound.", "anchors": ["src/lib/aod1b/aod1b_read_header.cpp:read_header", "src/lib/aod1b/aod1b_read_header.cpp:header_field", "src/lib/aod1b/aod1b.cpp:Aod1bIn::Aod1bIn", "include/aod1b.hpp:Aod1bIn"]}
{"id": "C83", "title": "Planet positions are geocentric, geometric and in metres", "statement": "For every planet, Sun, Moon and every TT epoch the loaded ephemeris covers, planet_pos returns status 0 and the vector from the Earth to the body in the J2000 frame, in metres, without aberration; planet_state returns the same vector and the velocity in metres per second, whatever the output vectors held before. The Earth itself is at the origin. If the ephemeris velocities are the derivatives of its positions, so are the returned ones. Without ephemeris data no position is returned.", "quantifier": "all bodies, all epochs, all ephemerides, all previous contents of the outputs", "why_tests_cant": "A continuum of epochs and any ephemeris; tests use one DE file at some epochs, with tolerances above the effect of a wrong time scale or aberration flag.", "anchors": ["src/lib/planets/planet_pos.cpp:planet_pos", "src/lib/planets/planet_state.cpp:planet_state", "include/planets.hpp:mjdtt2et"]}
{"id": "C84", "title": "Gravitational constants of Sun and Moon come from the named kernel", "statement": "sun_moon_gm called with the name of a kernel that defines the constants returns that kernel's GM of Sun and Moon, in km^3/s^2 or, on request, in m^3/s^2; with a null name it returns the constants of the last loaded file that defines them and loads nothing.", "quantifier": "all kernel files, all sets of files loaded before, both units", "why_tests_cant": "Depends on the history of loaded kernels, which is unbounded; a test loads one kernel once.", "anchors": ["src/lib/planets/kernel_consts.cpp:sun_moon_gm", "include/planets.hpp"]}
{"id": "C85", "title": "A dealiasing stream runs through a directory of daily files", "statement": "For every directory that holds one AOD1B file per day under the official names, a stream built on the first file and that directory can be constructed and initialised, and queries that go forward by at most one data set at a time, over any number of days, succeed and return the coefficients interpolated between the two data sets around the epoch, also between the last data set of a day and the first one of the next.", "quantifier": "all archives (any number of days, any headers and data sets), all releases, all forward sequences of queries", "why_tests_cant": "The number of files and queries is unbounded, and the result depends on the whole history of queries; tests run over one or two files.", "anchors": ["include/aod1b_data_stream.hpp:feed_next_file", "include/aod1b_data_stream.hpp:Aod1bDataStream", "src/lib/aod1b/aod1bnontidalproductnaming.cpp"]}
{"id": "C86", "title": "Dealiasing streams can be created, fed, moved and destroyed in any order", "statement": "In every program that creates, queries, feeds, moves and destroys dealiasing streams, each query sees the file the stream was built on or fed with last and the directory it was given; nothing is freed twice, used after its end or leaked.", "quantifier": "all programs (sequences of statements) over any number of streams", "why_tests_cant": "Sequences of constructions, moves and destructions are unbounded, and a dangling or leaked buffer shows in none of the returned values.", "anchors": ["include/aod1b_data_stream.hpp:Aod1bDataStream", "include/aod1b.hpp:Aod1bDataBlockIterator"]}
{"id": "C87", "title": "Copies of an AOD1B header object are complete", "statement": "Copy construction, move construction, copy assignment and move assignment of Aod1bIn give an object equal to the source in everything it reports, whatever the target held before; the source of a copy is unchanged, the source of a move keeps everything but its file name, and assignment of an object to itself changes nothing.", "quantifier": "all objects, all previous contents of the target, all pairs of objects", "why_tests_cant": "A member left out of one of four hand-written lists shows only when the target held a different value before; tests copy fresh objects.", "anchors": ["src/lib/aod1b/aod1b.cpp:Aod1bIn", "include/aod1b.hpp:Aod1bIn"]}
{"id": "C88", "title": "An ocean tide model made from its files gives the coefficients the files stand for", "statement": "From a file list, the gravity files it names (and, with admittance, the Doodson and admittance files) groops_ocean_atlas makes a model whose coefficients, at every epoch and after any earlier evaluations, are the sum over the listed waves of the cosine file's coefficient times the cosine of the wave's angle plus the sine file's times the sine (with admittance: over all pairs of waves, times the admittance).", "quantifier": "all file contents, numbers of waves and records, orders of the names, requested degrees and orders, epochs and histories of evaluations", "why_tests_cant": "The result depends on a chain of readers and tables of any size; tests run one model of fixed size and degree.", "anchors": ["include/ocean_tide.hpp:groops_ocean_atlas", "src/lib/tide_atlas_groops.cpp:groops_atlas", "src/lib/icgem/icgemio_read_data_v1.cpp", "src/lib/ocean_tide/ocean_tide_potential.cpp"]}
{"id": "C89", "title": "Merged AOD1B files hold all the data of the files merged, and can be read", "statement": "bin/mergeAod1b.py, given any number of AOD1B files with disjoint times and agreeing headers in any order, writes one file whose header covers all of them (last epoch, numbers of records and data sets) and whose data are those of the files in the order of time; the library reads that file, and the files given are unchanged.", "quantifier": "all files (headers of any length, any data), any number and order of names, all directories", "why_tests_cant": "The statement ranges over all files, orders and numbers of files; a test merges one list.", "anchors": ["bin/mergeAod1b.py:Aod1b.merge", "bin/mergeAod1b.py:readAod1bHeader", "bin/mergeAod1b.py:catAod1bData", "src/lib/aod1b/aod1b_read_header.cpp"]}
{"id": "C90", "title": "The benchmark programs compare every epoch of the orbit with the benchmark", "statement": "A benchmark program reads the rows of its files in order, whatever other lines stand between them, and for files with the same epochs succeeds with one line per epoch of the orbit, holding the benchmark's acceleration and the one of the library at that epoch and position: the tidal acceleration by Sun or Moon, the relativistic acceleration, or the gradient of the potential of the pole tide or ocean pole tide turned to the celestial frame, at the TT of the epoch. If the epochs of the files differ the program says so and fails. The file shown in the title is the one used. The tests among these programs succeed exactly if every component of the benchmark is within 1e-11 m/s² of that acceleration.", "quantifier": "all files (any number of rows and other lines, any numbers), ephemerides and contents of uninitialised memory", "why_tests_cant": "The statement ranges over all files and epochs; a benchmark run covers one pair of files.", "anchors": ["costg-benchmark/bin/costg_utils.cpp:parse_orbit", "costg-benchmark/bin/costg_utils.cpp:parse_acceleration", "costg-benchmark/bin/check_03directTideSun_icrf.cpp", "costg-benchmark/bin/check_03directTideMoon_icrf.cpp", "costg-benchmark/bin/check_07relativistic_icrf.cpp", "costg-benchmark/bin/check_05poleTide_icrf.cpp", "costg-benchmark/bin/check_06oceanPoleTide_icrf.cpp", "test/costg_benchmark/check_03directTideSun_icrf.cpp", "test/costg_benchmark/check_03directTideMoon_icrf.cpp", "test/costg_benchmark/check_05poleTide_icrf.cpp", "test/costg_benchmark/check_06oceanPoleTide_icrf.cpp", "test/costg_benchmark/check_07relativistic_icrf.cpp"]}
{"id": "C91", "title": "A set of Stokes coefficients behaves as a value", "statement": "Whatever a program does with sets of Stokes coefficients (construct, resize with or without keeping the coefficients, shrink, clear, scale, write, add, copy), the coefficients it reads afterwards are those obtained by doing the same operations on plain values: they do not depend on the capacity of the buffers, on their former contents (except where a resize leaves new coefficients undefined), or on the other sets. An operation throws exactly when it does so for the values.", "quantifier": "all legal programs over any number of sets, all initial memories and contents of new memory", "why_tests_cant": "The state includes buffers with capacities left by all earlier operations; the programs are unbounded.", "anchors": ["include/stokes_coefficients.hpp:StokesCoeffs", "src/lib/stokes_coefficients.cpp:resize", "src/lib/stokes_coefficients.cpp:cresize", "src/lib/stokes_coefficients.cpp:operator+="]}
{"id": "C92", "title": "Angles and CIP coordinates keep their accuracy in double precision", "statement": "For epochs within a century of J2000 the angles computed in IEEE double precision are those of the IERS Conventions up to whole turns and a small error, whatever the epoch: the Earth rotation angle to 1e-12 rad, Greenwich mean sidereal time to 2e-12 rad, the Delaunay and planetary arguments to 1e-11 rad, the Doodson variables to 5e-11 rad, the argument of a tidal constituent to 1.6e-10 rad times its largest multiplier, and the coordinates X, Y of the celestial intermediate pole to 2e-15 rad. Normalised angles lie in [0, 2pi).", "quantifier": "all epochs within a century of J2000, all roundings to nearest (any rule for ties), all choices of the compiler which products to fuse with a sum, all accurate conversions and trigonometric functions of the libraries, all constituents", "why_tests_cant": "The error depends on all the bits of the epoch; a test samples a few epochs and compares with another floating-point program.", "anchors": ["src/lib/iau/era00.cpp:era00", "src/lib/iau/gmst.cpp:gmst", "include/fundarg.hpp:fal03", "include/doodson.hpp:delaunay2doodson", "include/doodson.hpp:DoodsonConstituent::argument", "src/lib/iau/xycip06a_xy.cpp:xycip06a"]}
{"id": "C93", "title": "The attraction of an ocean tide model is that of its files", "statement": "From the gravity files of an ocean tide model a model is made whose coefficients, given to the evaluation of the gravity field at any epoch, after any earlier evaluations and at any point other than the geocentre, give the gradient of the sum of the potentials of the waves, each file with the gravitational constant and the radius of its header; with admittances, of the potentials of all waves.", "quantifier": "all file lists, directories, gravity files, admittance files, degrees, histories of evaluations, epochs, fundamental arguments and points", "why_tests_cant": "It relates the contents of arbitrary files to the derivative of a function of position, at all epochs; the benchmark compares one satellite day and one model.", "anchors": ["include/ocean_tide.hpp:groops_ocean_atlas", "include/ocean_tide.hpp:OceanTide", "src/lib/ocean_tide/ocean_tide_potential.cpp:OceanTide::stokes_coeffs", "src/lib/gravity/sh_cunningham_normalized_gradient.cpp:sh2gradient_cunningham", "include/stokes_coefficients.hpp:StokesCoeffs"]}
{"id": "C94", "title": "The ocean tide checks accept exactly what agrees with the tide of the files", "statement": "The programs that check an ocean tide model (major waves, or with admittances) against the benchmark end with status 0 if every acceleration of the benchmark is, in every component, within 1e-11 m/s² of the attraction of the tide of the files at that epoch, rotated to the celestial frame: the gradient of the potential of the waves from degree 2 on, at the sidereal time (with UT1 from the Earth orientation file) and the Delaunay arguments of the IERS Conventions; otherwise they stop with a violated assertion.", "quantifier": "all benchmark, Earth orientation, tide model and admittance files, all tables and contents of work arrays and uninitialised memory", "why_tests_cant": "The programs are tests themselves: a run compares one set of files; that acceptance means agreement with the tide of the files holds for all files and depends on the readers, the interpolation of UT1, the angles, the coefficients and the gradient together.", "anchors": ["test/costg_benchmark/check_10oceanTide_eot11a_M2_icrf.cpp", "test/costg_benchmark/check_10oceanTide_eot11a_with256Admittance_icrf.cpp", "test/costg_benchmark/check_11oceanTide_fes2014b_34major_icrf.cpp", "test/costg_benchmark/check_11oceanTide_fes2014b_with361Admittance_icrf.cpp", "src/lib/eop/approx_dut1.cpp"]}
{"id": "C95", "title": "The gravity field checks accept exactly what agrees with the model at the epoch", "statement": "The programs that check the gravity field against the benchmark end with status 0 if every acceleration of the benchmark is, in every component, within 1e-13 m/s² (celestial frame) or 1e-11 m/s² (terrestrial frame) of the gradient of the potential of degrees 2 to 180 of the ICGEM model at the first epoch of the orbit; otherwise they stop with a violated assertion. A model that has no coefficients of degree and order 180 is never accepted.", "quantifier": "all orbit, rotation and acceleration files, all ICGEM models of both versions, all contents of work arrays and uninitialised memory", "why_tests_cant": "The programs are tests themselves: a run compares one set of files; that acceptance means agreement with the model holds for all files and depends on the readers, the time dependent coefficients and the gradient together.", "anchors": ["test/costg_benchmark/check_02gravityfield_icrf.cpp", "test/costg_benchmark/check_02gravityfield_itrf.cpp", "src/lib/icgem/icgemio_read_data_v2.cpp"]}
{"id": "C96", "title": "The atmospheric tide checks accept exactly what agrees with the tide of the AOD1B files", "statement": "The programs that check atmospheric tides against the benchmark end with status 0 if every acceleration of the benchmark is, in every component, within 1e-11 m/s² of the attraction of the waves of the tidal AOD1B files at that epoch, rotated to the celestial frame: the gradient of the potential of the waves from degree 2 to 180, with the phases of the waves named in the headers, at the sidereal time (with UT1 from the Earth orientation file) and the Delaunay arguments of the IERS Conventions; otherwise they stop with a violated assertion. If a file is not there or announces less than degree 180 the status is 1.", "quantifier": "all benchmark, Earth orientation and tidal AOD1B files, any number of waves, all contents of work arrays and uninitialised memory", "why_tests_cant": "The programs are tests themselves: a run compares one set of files; that acceptance means agreement with the tide of the files holds for all files and depends on the readers of headers and blocks, the interpolation of UT1, the angles, the growth of the model with every wave and the gradient together.", "anchors": ["test/costg_benchmark/check_09aod1b_atmosphericTides_icrf.cpp", "test/costg_benchmark/check_09aod1b_atmosphericTides_S1_icrf.cpp", "src/lib/atmospheric_tides/atm_tides_append_wave.cpp", "src/lib/aod1b/aod1b_get_tidal_wave.cpp"]}
{"id": "C97", "title": "The solid Earth tide check accepts exactly what agrees with the Conventions", "statement": "The program that checks the solid Earth tide against the benchmark ends with status 0 if every acceleration of the benchmark is, in every component, within 1e-11 m/s² of the gradient of the tide potential of the IERS Conventions (both steps, degrees 2 to 4) for Sun and Moon of the ephemeris at the epoch, turned to the terrestrial frame with the rotation of the epoch, and UT1 interpolated in the Earth orientation file; otherwise it stops with a violated assertion.", "quantifier": "all orbit, rotation, acceleration and Earth orientation files, all ephemerides, all contents of work arrays and uninitialised memory, any number of epochs", "why_tests_cant": "The program is a test itself: a run compares one set of files; that acceptance means agreement holds for all files, and the object and the interpolation cache carry state from epoch to epoch.", "anchors": ["test/costg_benchmark/check_04solidEarthTide_icrf.cpp", "src/lib/solid_earth_tides/iers2010_stokes_coeffs.cpp", "include/eop.hpp: approx_dut1", "include/planets.hpp: planet_pos"]}
{"id": "C98", "title": "The dealiasing check accepts exactly what agrees with the AOD1B files", "statement": "The program that checks dealiasing products against the benchmark ends with status 0 if every acceleration of the benchmark is, in every component, within 1e-11 m/s² of the gradient at the position of the orbit of the potential of degrees 2 to 180, rotated to the celestial frame, whose coefficients are interpolated linearly, at the epoch of the row in TT, between the two AOD1B data sets of type glo around it, whether they lie in the file given or in the files of the following days in the directory; the constants are those of the header of the first file. If some component is not within the tolerance an assertion is violated. Nothing else, such as what the set of coefficients held at an earlier epoch, matters.", "quantifier": "all archives of daily AOD1B files of degree 180 or more, orbits that go forward through the data sets at most one at a time, rotations and accelerations with the epochs of the orbit, contents of uninitialised memory", "why_tests_cant": "the program runs on one orbit and one archive; which pairs of data sets are used, changes of file, and dependence on earlier epochs are only exercised where that orbit happens to pass", "anchors": ["test/costg_benchmark/check_08aod1b_RL06_icrf.cpp:main", "include/aod1b_data_stream.hpp:Aod1bDataStream::coefficients_at"]}
{"id": "C99", "title": "Earth orientation at an epoch from a file of records", "statement": "Given a series of Earth orientation records read from a C04 file and regularised, the sequence of calls interpolate, approx_dut1, gmst, deop_libration, deop_ocean_tide and deop_zonal_tide yields at every epoch between the first and the last record the Earth orientation of the IERS Conventions: pole, UT1 and length of day are interpolated free of zonal tides by the polynomial through the nearest records, three on each side where there are as many, and the zonal, libration and ocean tides at the epoch are added; the corrections of the CIP are interpolated alone. An epoch outside is reported and nothing is computed. The program that checks Earth orientation against the benchmark accepts exactly the tables that agree with these values to its tolerances, and the programs that transform orbits use the rotation of the Conventions for these values.", "quantifier": "all files of records, all epochs, all histories of earlier queries on the same series", "why_tests_cant": "A test compares at some epochs with a tolerance of seconds in UT1; the claim is about every epoch and every file, including the edges of the file and the state that earlier queries leave in the series.", "anchors": ["test/costg_benchmark/tcheck_eops.cpp: main", "test/costg_benchmark/check_c2i.cpp: main", "test/unit_tests/i2c_astropy.cpp: main", "src/lib/eop/lagrange_interpolation.cpp: EopSeries::interpolate", "src/lib/eop/regularize.cpp: EopSeries::regularize", "examples/eop_interpolation.cpp: main"]}
{"id": "C100", "title": "Displacement of sites by the pole tides over ten days", "statement": "The example program for displacements by the pole tide and the ocean pole tide prints, for each epoch from 19 to 29 July 2023 at intervals of thirty seconds, one line for each of its six sites in their order: the displacements of the IERS Conventions for the pole interpolated in the nearest records of the Earth orientation file and for the ocean pole tide coefficients of the site interpolated in the gridded file; then it ends with status 0. If a file cannot be used or the records do not reach the epoch it ends with status 1.", "quantifier": "all files of gridded coefficients and of Earth orientation, any number of turns of the loop, all contents of uninitialised memory", "why_tests_cant": "The program is an example; that it never ends is not seen by any finite run, and that its lines agree with the Conventions must hold for every file.", "anchors": ["examples/pole_tide_displacement.cpp: main", "src/lib/pole_tide/pole_tide_deformation.cpp: PoleTide::deformation", "src/lib/pole_tide/get_desai_ocp_deformation_coeffs.cpp: get_desai_ocp_deformation_coeffs"]}
{"id": "C101", "title": "Solid Earth tide from the documented constants", "statement": "A solid Earth tide object made from the gravitational parameter and radius of the Earth and the gravitational parameters of the Moon and the Sun, passed as its documentation lists them, gives the displacement of a site and the geopotential coefficients of the IERS Conventions for these constants.", "quantifier": "all constants, all epochs, all sites other than the geocentre, all positions of Sun and Moon, all histories of calls", "why_tests_cant": "All tests either use the default constants or pass them in the order of the declaration; the claim is about every choice of constants and every position of the bodies.", "anchors": ["include/solid_earth_tide.hpp: SolidEarthTide::SolidEarthTide", "examples/solid_earth_tide_displacement.cpp: main", "src/lib/solid_earth_tides/iers2010_displacement_step1.cpp: SolidEarthTide::step1_displacement"]}
{"id": "C102", "title": "A matrix expression kept in a variable", "statement": "A sum, multiple or reduced view of coefficient matrices that a program keeps in a variable can be used in later statements: adding it to a matrix then adds its element-wise value, computed from its operands as they are at that moment, and changes no other matrix.", "quantifier": "all sequences of statements that keep expressions under names, add expressions to matrices or change matrices; all expressions, layouts, shapes and values", "why_tests_cant": "An expression object holds references to its operands. Whether they still exist at a later statement depends on the whole history of the program, and memory of a destroyed object usually still holds the old values, so that a test sees a right result.", "anchors": ["include/coeff_matrix_2d.hpp: CoeffMatrix2D::_SumProxy", "include/coeff_matrix_2d.hpp: CoeffMatrix2D::_ScaledProxy", "include/coeff_matrix_2d.hpp: CoeffMatrix2D::_ReducedViewProxy", "include/coeff_matrix_2d.hpp: CoeffMatrix2D::operator+="]}
{"id": "C103", "title": "Interpolation in one Earth orientation series from several threads", "statement": "Interpolating the Earth orientation parameters (or UT1-UTC alone) in a series does not change the series (the functions are const), so several threads may do it at the same time: every call returns what it returns when no other call is being made.", "quantifier": "all series, all numbers of threads, all calls and epochs, all earlier uses of the series, all schedules of the threads' memory accesses", "why_tests_cant": "Whether two calls disturb each other depends on the schedule; the schedules that show it are rare, and a test run sees a few of them.", "anchors": ["include/eop.hpp: EopSeries::last_it", "include/eop.hpp: EopSeries::work", "src/lib/eop/lagrange_interpolation.cpp: EopSeries::interpolate", "src/lib/eop/approx_dut1.cpp: EopSeries::approx_dut1"]}
{"id": "C104", "title": "Fetching the daily AOD1B products", "statement": "The download tool leaves, for every day of the interval asked for, the complete product of the data centre under the product's official name in the output directory (and the plain file, if decompression is asked for), reports this by its exit status, and touches no other file. It may be stopped at any moment and run again: the next run that is not stopped and reports success has brought or found complete files, whatever happened before. The products so fetched are an archive the library's dealiasing stream runs through.", "quantifier": "all intervals, releases, output directories and server contents; all moments at which a run is stopped; all histories of stopped and repeated runs", "why_tests_cant": "A run can be stopped between any two of its file operations, any number of times; a test fetches a few days once.", "anchors": ["bin/getAod1b.py: product_name", "bin/getAod1b.py: ftpget", "bin/getAod1b.py: __main__"]}
{"id": "C105", "title": "The rotation between GCRS and ITRS keeps its accuracy in double precision", "statement": "For every epoch within a century of J2000 and every EOP record with pole coordinates and CIP corrections up to a degree, the rotation from GCRS to ITRS that the library computes in double precision is a rotation by the Conventions' Q, R and W up to 3.2e-12 in every matrix entry (below a tenth of a millimetre at the Earth's surface), also for the CIO and TIO locators it uses (4e-16 and 1e-24 rad), whatever the rounding of ties, the products the compiler fuses with sums, the last bit of the C library's functions and the order of the sums in quaternion products; also where the pole is at the origin and its direction is undefined.", "quantifier": "all epochs within a century of J2000, all EOP records in range, all roundings to nearest, all choices of the compiler which products to fuse with a sum, all C libraries with accurate functions, all orders of summation in quaternion products", "why_tests_cant": "Rounding errors depend on every bit of the epoch; a test compares a few epochs with SOFA, and the direction of the pole is ill-conditioned near the origin, which a test hardly meets.", "anchors": ["src/lib/earth_rotation/c2i06a.cpp: dso::c2i06a, dso::detail::c2i", "src/lib/iau/s06.cpp: dso::detail::s06, dso::s06", "include/iau.hpp: dso::sp00", "include/earth_rotation.hpp: dso::detail::xycip2spherical, dso::detail::c2i"]}
{"id": "C106", "title": "The attraction of a third body keeps its accuracy in double precision", "statement": "For every position of the satellite and of the body that do not coincide, every component of the acceleration that point_mass_acceleration computes in double precision is within 20 units of roundoff of the exact one, relative to the direct plus the indirect attraction, and every entry of the Jacobian within 120 units relative to GM over the cubed distance; the overload with a Jacobian returns bit for bit the acceleration of the one without. The bound holds whatever the rounding of ties and the order of the sum in Eigen's squaredNorm. A satellite at the geocentre is accelerated by nothing: the computed result is exactly zero.", "quantifier": "all positions of satellite and body, all GM, all roundings to nearest, all choices of the compiler which products to fuse with a sum, all orders of summation of squares", "why_tests_cant": "Rounding errors depend on every bit of the positions, and the direct and indirect terms nearly cancel for distant bodies; a test compares some epochs of one orbit to a tolerance.", "anchors": ["src/lib/gravity/point_mass_acceleration.cpp: dso::point_mass_acceleration"]}
{"id": "C107", "title": "Interpolation of Earth orientation keeps its accuracy in double precision", "statement": "Whenever interpolation in an Earth orientation series gives a record, the computation in double precision gives one of the same status and leaves the same series; outside the series it is a copy, inside it every quantity is within 160 units of roundoff of the exact interpolation, relative to the sum of the sizes of the weighted table values. In a series with a record for every day this is at most 5.2e-12 times the largest tabulated value and, for UT1-UTC, 5.4e-12 times the largest of UT1-TAI and ΔAT (about 0.2 ns), for every degree up to 9 and every epoch, also next to the ends.", "quantifier": "all series of records at least a day apart (second part: a day apart), all epochs, all degrees, all caches, all roundings to nearest, all choices of the compiler which products to fuse with a sum, all accurate differences of epochs", "why_tests_cant": "Lagrange weights of high degree can amplify rounding errors; a test evaluates a few epochs of one series against tabulated values to a loose tolerance.", "anchors": ["src/lib/eop/lagrange_interpolation.cpp: dso::EopSeries::interpolate"]}
{"id": "C108", "title": "A tide model reports the name it was given", "statement": "Through any history of construction (from an atlas, from GROOPS files, with or without a name), copying and moving, a tide atlas and an ocean or atmospheric tide model report the name they were given, else the name of the atlas they were made from; an atlas read from GROOPS files reports the model name in the header of the last file of the list; and no name, however long, is written beyond the object.", "quantifier": "all histories of objects, all names, all files on disk", "why_tests_cant": "The name's array has a fixed length and is filled by strcpy; a test uses short names, and which of the files the name comes from shows only where the headers differ.", "anchors": ["include/tide_atlas.hpp: TideAtlas::name", "include/ocean_tide.hpp: OceanTide::OceanTide", "include/atmospheric_tides.hpp: AtmosphericTide::AtmosphericTide", "src/lib/tide_atlas_groops.cpp: dso::groops_atlas"]}
{"id": "C109", "title": "The relativistic acceleration keeps its accuracy in double precision", "statement": "Computed in double precision, in kilometres as the code does, each component of the relativistic acceleration differs from that of the sum of the Schwarzschild, Lense-Thirring and de Sitter terms in SI units by at most 130 units of roundoff of the sum of the sizes of the terms; with the default constants, for a satellite at least 6500 km from the geocentre and no faster than 12 km/s, by less than 2e-21 m/s^2.", "quantifier": "all states of satellite and Sun away from the geocentre, all constants, all ways of rounding to nearest, all choices of fused products, all orders of the sums in norms and dot products", "why_tests_cant": "A test compares at a few states with one compiler's rounding; it does not bound the error over all states.", "anchors": ["src/lib/relativity/iers12010_relativistic_correction.cpp: dso::iers2010_relativistic_acceleration", "include/relativity.hpp: iers2010_relativistic_acceleration"]}
{"id": "C110", "title": "Tidal variations of Earth rotation keep their accuracy in double precision", "statement": "Within a century of J2000, computed in double precision from the epochs TT and UT1 on, the corrections of deop_zonal_tide, deop_libration and deop_ocean_tide are those of exact arithmetic with the Conventions' arguments: to 2.2e-6 microseconds of UT1 and 5e-8 microseconds of length of day for the zonal tides, 1.3e-8 microarcseconds of polar motion for libration (as in PMSDNUT2) and 4.1e-7 microarcseconds for the ocean tides. EopSeries::regularize removes the zonal tides from every record to 2.3e-12 s of UT1 and 6e-14 s of length of day, and deregularize after it gives the values back to 4e-16 s and 4e-18 s.", "quantifier": "all epochs within a century of J2000, all series, all ways of rounding to nearest, all choices of fused products, all sine, cosine and conversion functions accurate to a few units in the last place", "why_tests_cant": "A test compares at a few epochs with one compiler's rounding and one C library; it does not bound the error of sums of 62, 21 and 71 terms over all epochs.", "anchors": ["src/lib/eop/zonal_tides.cpp: dso::deop_zonal_tide", "src/lib/eop/libration.cpp: dso::deop_libration", "src/lib/eop/ocean_tide_variation.cpp: dso::deop_ocean_tide", "src/lib/eop/regularize.cpp: dso::EopSeries::regularize_impl"]}
{"id": "C111", "title": "Pole tide and solid Earth tide keep their accuracy in double precision", "statement": "Computed in double precision, within a century of J2000: the pole tide corrections of C21 and S21 are those of the Conventions to 4e-24 (solid Earth) and 5e-25 (ocean), and the displacement of a site to 3.5e-15 m in every coordinate. A call of SolidEarthTide::stokes_coeffs, from the epochs TT and UT1 and the positions of Sun and Moon on, succeeds on every object and leaves at every degree and order the sum of both steps of the Conventions, up to 31 u times the sum over both bodies of (GM_j/GM)(Re/r_j)^3 (u = 2^-53), and 1.4e-19 more for degree 2; for Earth, Sun and Moon that is 1.5e-19 for degree 2 and 4e-22 for degrees 3 and 4.", "quantifier": "all epochs within a century of J2000, all polar motion up to an arcsecond, all sites, all positions of Sun and Moon outside the Earth, all objects and contents of their memory, all ways of rounding to nearest, all choices of fused products, all sine, cosine, cube, conversion functions and spherical coordinates accurate to a few units in the last place", "why_tests_cant": "The tests compare one body of reference data with one compiler's rounding and one C library; they do not bound the error over all epochs and positions.", "anchors": ["include/pole_tide.hpp: PoleTide::stokes_coeffs, OceanPoleTide::stokes_coeffs", "src/lib/pole_tide/pole_tide_deformation.cpp", "src/lib/solid_earth_tides/iers2010_geopotential_step1.cpp", "src/lib/solid_earth_tides/iers2010_geopotential_step2.cpp", "src/lib/solid_earth_tides/iers2010_stokes_coeffs.cpp: dso::SolidEarthTide::stokes_coeffs"]}
{"id": "C112", "title": "Displacement of a site by the solid Earth tide keeps its accuracy in double precision", "statement": "Computed in double precision, within a century of J2000, for every site that is not the geocentre: SolidEarthTide::displacement, from the epochs TT and UT1 and the positions of site, Sun and Moon on, gives in every component the sum of both steps of section 7.1.1 of the Conventions, up to 4550 u Re times the sum over both bodies of (GM_j/GM)(Re/r_j)^3 (u = 2^-53) and 5e-12 m more; for Earth, Sun and Moon that is 6e-12 m.", "quantifier": "all epochs within a century of J2000, all sites except the geocentre, all positions of Sun and Moon outside the Earth, all objects and contents of their memory, all ways of rounding to nearest, all choices of fused products, all sine, cosine, cube, conversion functions, summation orders of dot products, spherical coordinates and local frames accurate to a few units in the last place", "why_tests_cant": "The tests compare a few epochs and stations with one compiler's rounding and one C library; they do not bound the error over all epochs, sites and positions, including the poles.", "anchors": ["src/lib/solid_earth_tides/iers2010_displacement_step1.cpp", "src/lib/solid_earth_tides/iers2010_displacement_step2.cpp", "src/lib/solid_earth_tides/iers2010_site_displacement.cpp: dso::SolidEarthTide::displacement"]}
{"id": "C113", "title": "Ocean and atmospheric tide models keep their accuracy in double precision", "statement": "Computed in double precision, within a century of J2000, for every tide model whose coefficient sets all have the size of the result: OceanTide::stokes_coeffs and AtmosphericTide::stokes_coeffs give in every coefficient the sum over the constituents of in-phase coefficient times cosine plus quadrature coefficient times sine of the astronomical angle (with the phase of the constituent added for the atmosphere), up to w 1.61e-10 + (2n + 5) u relative to the sum of the absolute values of the coefficients (n constituents, no multiplier larger than w, u = 2^-53); with an admittance matrix of n_f waves, up to w 1.6e-10 + (2.1 n_f + 2n + 7) u relative to the same sum weighted with the absolute values of the matrix. Sets of different size stop the program.", "quantifier": "all epochs within a century of J2000, all atlases of up to a million constituents with any coefficients and multipliers up to 1e5, all admittance matrices, all previous contents of the result, all ways of rounding to nearest, all choices of fused products, all sine, cosine and conversion functions accurate to a few units in the last place, all summation orders of Eigen's matrix product", "why_tests_cant": "The tests compare a few days with one atlas and one compiler's rounding; they do not bound the error for every atlas and epoch nor say how it grows with the number of constituents.", "anchors": ["src/lib/ocean_tide/ocean_tide_potential.cpp: dso::OceanTide::stokes_coeffs_impl, stokes_coeffs_with_admittance_impl", "src/lib/atmospheric_tides/atm_tides_geopotential.cpp: dso::AtmosphericTide::stokes_coeffs"]}
{"id": "C114", "title": "Ocean pole tide keeps its accuracy in double precision", "statement": "Computed in double precision, within a century of J2000 and for polar motion up to 1 arcsecond: after an accepted call of OceanPoleTide::stokes_coeffs of degree below 360 every coefficient of degree l up to the degree and order of the call is that of section 6.5 of the Conventions, up to 2.1e-20 (|factor|/(2l+1)) (|A_R| + |A_I|), whatever was computed before; OceanPoleTide::deformation gives in every component the displacement of section 7.1.5, up to 2.8e-20 of its factor times the sum of the absolute values of the six coefficients of the site (for the Earth less than 2e-16 m). A call that is not accepted changes nothing.", "quantifier": "all epochs within a century of J2000, all polar motion up to 1 arcsecond, all coefficients of the Desai model and of the site, all degrees and orders, all constants with GM and ge not zero, all sites, all histories of the object, all ways of rounding to nearest, all choices of fused products, all power and conversion functions, local frames and summation orders accurate to a few units in the last place", "why_tests_cant": "The tests compare a few epochs with one compiler's rounding; they do not bound the error over all epochs, sites, degrees and coefficients.", "anchors": ["src/lib/pole_tide/ocean_pole_tide_geopotential.cpp: dso::OceanPoleTide::stokes_coeffs", "src/lib/pole_tide/ocean_pole_tide_deformation.cpp: dso::OceanPoleTide::deformation", "include/pole_tide.hpp"]}
{"id": "C115", "title": "Time-variable gravity models keep their accuracy in double precision", "statement": "Computed in double precision: reading a gravity model file in the ICGEM format, of version 1 or 2, at an epoch gives every coefficient as the sum over its records of value, trend and periodic terms, up to (25 + 1.01 n) units roundoff of the sum of the sizes of these terms (n the number of records, up to 400; the size is the absolute value, a periodic term counted with 1 plus its angle): the file's numbers, the differences of epochs in years, the phase of the periodic terms, sine and cosine and every product and sum are rounded. The formats, statuses and failures are those of exact arithmetic.", "quantifier": "all files, all epochs, all requested degrees and orders, all numbers in the records, all ways of rounding to nearest, all choices of fused products, all sine and cosine functions and differences in years accurate to a few units in the last place", "why_tests_cant": "The tests compare a few epochs of a few models with one compiler's rounding; they do not bound the error over all models, epochs and coefficients.", "anchors": ["src/lib/icgem/icgemio_read_data_v1.cpp: dso::Icgem::parse_data", "src/lib/icgem/icgemio_read_data_v2.cpp", "include/icgemio.hpp: dso::Icgem"]}
{"id": "C116", "title": "Dealiasing coefficients keep their accuracy in double precision", "statement": "Computed in double precision: after any sequence of queries to a dealiasing stream on a file, or on the first of a series of files, each query to coefficients_at has the status it has in exact arithmetic, and an answer holds in every coefficient the value at the epoch of the query of the line through the values of the same two data sets as in exact arithmetic, up to (14 + 8/gap) units roundoff of the two values (for a query between the two sets at most twice their sum), gap being the days between the sets, at least an hour. A refused query leaves the caller's set as it was.", "quantifier": "all files and series of files, all sequences of queries, all values of coefficients, all ways of rounding to nearest, all choices of fused products, all differences in days accurate to a few units in the last place", "why_tests_cant": "The tests make a few queries in order, with one compiler's rounding; they do not bound the error over all files, epochs and histories.", "anchors": ["include/aod1b_data_stream.hpp: dso::Aod1bDataStream::coefficients_at"]}
{"id": "C117", "title": "Ocean pole tide coefficients at sites keep their accuracy in double precision", "statement": "Computed in double precision from a well-formed grid file: for sites inside a cell of the grid whose four corners are nodes of the grid, get_desai_ocp_deformation_coeffs reports success, uses the lines of the four nodes that surround the exact position of the site (longitude shifted by 180 degrees), and every coefficient is the bilinear interpolation of the gridded ones at that exact position, up to 2e-12 (1/dx + 1/dy) times the sum of the magnitudes at the corners (dx, dy: steps of the grid in degrees). Likewise, the line number and the surrounding nodes that TwoDimGrid reports for a point are those of exact arithmetic.", "quantifier": "all grid files between -360 and 720 degrees with steps of a thousandth of a degree or more, all values in them, all lists of sites, every rounding to nearest, every choice of fused products, every conversion to degrees accurate to four units", "why_tests_cant": "A rounded quotient that reaches a whole number moves the point to another cell; which points and grids are affected depends on every operation. A test tries a few sites.", "anchors": ["include/grid.hpp:TwoDimGrid::line", "include/grid.hpp:TwoDimGrid::surrounding_nodes", "src/lib/pole_tide/get_desai_ocp_deformation_coeffs.cpp:get_desai_ocp_deformation_coeffs"]}
{"id": "C118", "title": "Free core nutation keeps its accuracy in double precision", "statement": "For every table of amplitudes whose epochs are a day or more apart and every epoch (inside or outside the table), the offsets X + iY that lambert_fcn computes in double precision are the table's amplitude at the epoch times exp(i phase), up to (140 + 17 |phase|) half units in the last place of the largest number of the table; the reported uncertainties are those of exact arithmetic up to 140 half units in the last place of the largest uncertainty plus the distance in days from the table plus 1.", "quantifier": "all tables with epochs a day or more apart, all epochs, every rounding to nearest, every choice of fused products, every sine and cosine accurate to two half units, every day difference accurate to four half units", "why_tests_cant": "The error depends on every operation, on the epoch, and on the table, which users supply from files; the phase grows with the distance from J2000. A test tries a few epochs with one table.", "anchors": ["src/lib/free_core_nutation/lambert.cpp:lambert_fcn", "include/fcn.hpp:lambert_fcn"]}
{"id": "C119", "title": "Every form of the rotation from GCRS to ITRS keeps its accuracy in double precision", "statement": "For every epoch within a century of J2000 and every EOP record (angles up to a degree, length of day up to a second), computed in double precision: the closed form c2i06a_bz is the inverse of Q R W of the Conventions up to 3.2e-12 in every entry of its matrix and differs from c2i06a by at most 6.4e-12, even if the two are compiled differently; compiled the same way, where they share the error of the Earth rotation angle, c2i06a_bz and c2i06a differ by at most 2e-13 and c2i06a and the product of the two quaternions by at most 4e-13, whatever UT1; the two quaternions of c2i06a(tt, eops, qc2tirs, qtirs2i) are the inverses of Q R up to 3.2e-12 and of W up to 5e-14, and the returned vector is the Earth's rotation vector up to 3e-20 rad/s; the matrix dMdt of c2i06a(tt, eops, dMdt) is the derivative of the rotation up to 1e-15 per second in every entry.", "quantifier": "all epochs within a century of J2000, all EOP records with angles up to a degree and length of day up to a second, every rounding to nearest, every choice of fused products, every accurate C library, every order of the sums in products of quaternions and matrices", "why_tests_cant": "A test compares the forms at a few epochs on one machine; the bounds must hold for every epoch, record and compiler. Angles known only up to whole turns change the sign of a quaternion, which no sample reveals.", "anchors": ["src/lib/earth_rotation/c2i06abz.cpp:c2i06a_bz", "src/lib/earth_rotation/c2i06abz.cpp:gcrs2itrs_quaternion", "src/lib/earth_rotation/c2i06apq.cpp:c2i06a", "src/lib/earth_rotation/c2i06a.cpp:c2i06a", "include/earth_rotation.hpp:dRdt", "include/earth_rotation.hpp:earth_rotation_axis"]}
{"id": "C120", "title": "The three forms of the celestial motion of the pole agree in double precision", "statement": "For every pole X, Y within 0.15 and every CIO locator up to a radian, detail::C and detail::C_qimpl computed in double precision are the inverse of the matrix Q(X, Y, s) of the Conventions up to 5e-14 and 2e-14 in every entry of their matrices, and detail::C_rxyimpl is it up to 3/8 (X² + Y²)³, the terms its series leaves out, and 5e-15 for all roundings.", "quantifier": "all X, Y up to 0.15 and s up to 1 rad, every rounding to nearest, every choice of fused products, every accurate C library, every order of the sums in products of quaternions and matrices", "why_tests_cant": "The tests of the library compare the three forms at a few epochs; near the pole the angle of the direction of (X, Y) is ill conditioned and only a proof shows that its errors cancel everywhere.", "anchors": ["include/earth_rotation.hpp:C", "include/earth_rotation.hpp:C_qimpl", "include/earth_rotation.hpp:C_rxyimpl", "include/earth_rotation.hpp:xycip2spherical"]}
{"id": "C121", "title": "From a series of Earth orientation parameters to the rotation of the Earth in double precision", "statement": "For every epoch inside a daily series of Earth orientation parameters, a program that interpolates the record, adds libration, ocean tides and zonal tides with the sidereal time of an approximate UT1, and calls c2i06a, all in double precision, gets pole coordinates within 6e-12 arcseconds, UT1-UTC within 5.8e-10 s and length of day within 6e-12 s of exact arithmetic, and a rotation that is the inverse of Q R W of the Conventions for the exact record up to 3.6e-12 in every entry of its matrix. A loop over any list of epochs, in any order and with one series, gives such a rotation for every epoch before the first that is out of bounds, whatever was asked before; at an epoch out of bounds it ends.", "quantifier": "all daily series with pole coordinates and corrections up to an arcsecond and UT1-TAI up to 100 s, every position of the last query, every list of epochs, all epochs within 99.9 years of J2000, every rounding to nearest, every choice of fused products, every accurate C library and date library, every order of the sums in products of quaternions", "why_tests_cant": "The tests of the library compare a few orbits with a tolerance of centimetres; they say nothing of other epochs, other series or another history of queries, and nothing of how the errors of the stages add up.", "anchors": ["src/lib/eop/lagrange_interpolation.cpp:interpolate", "src/lib/eop/approx_dut1.cpp:approx_dut1", "src/lib/eop/libration.cpp:deop_libration", "src/lib/eop/ocean_tide_variation.cpp:deop_ocean_tide", "src/lib/eop/zonal_tides.cpp:deop_zonal_tide", "src/lib/earth_rotation/c2i06a.cpp:c2i06a", "test/unit_tests/i2c_astropy.cpp:main"]}
{"id": "C122", "title": "Position and velocity between the celestial and the terrestrial frame in double precision", "statement": "Take the quaternion q and the matrix dM from one call of c2i06a, and apply the documented formulas q * r, q * v + dM * r (and q.conjugate() * r, q.conjugate() * v + dM.transpose() * r for the way back). For every position r and velocity v the result is the position and the velocity of the point seen from the other frame, that frame being Q R W of the Conventions with the Earth turning at the rate of the length of day: the position to 3.3e-12 of its size, the velocity to 3.3e-12 of its size plus 1.1e-15 per second times the size of the position. With the two quaternions and the rotation vector of the other form of c2i06a and the cross product, the position is right to 1e-11 of its size and the velocity to 1e-11 of its size plus 8e-16 per second times the size of the position. Within one build the errors of the angles cancel, whatever UT1: there and back with the first form returns the position to 5.7e-13 of its size and the velocity to 5.7e-13 of its size plus 8e-16 per second times the size of the position, and the states from the two forms differ by at most 5e-13 of the size of the position, and 5e-13 of the size of the velocity plus 1e-16 per second times the size of the position.", "quantifier": "all positions and velocities, all epochs within a century of J2000, all Earth orientation records with pole coordinates and corrections up to a degree and length of day up to a minute, every rounding to nearest, every choice of fused products, every accurate C library, every order of the sums in Eigen's products", "why_tests_cant": "The tests compare a few orbits; they do not reach every epoch, record, position and velocity, nor every compiler.", "anchors": ["include/earth_rotation.hpp:c2i06a", "src/lib/earth_rotation/c2i06a.cpp:c2i06a", "src/lib/earth_rotation/c2i06apq.cpp:c2i06a", "test/unit_tests/c2i_vel.cpp:main"]}
{"id": "C123", "title": "A program's celestial positions and velocities by four routes, from the Earth orientation series on, in double precision", "statement": "A program that for every row interpolates the series, adds libration, ocean and zonal tides, and takes the terrestrial position and velocity to the celestial frame by the four routes of the library (the quaternion of c2i06a, that of c2i06a_bz, the two quaternions with the rotation vector, the quaternion with the derivative matrix) obtains, for every row whose epoch is inside the series, the celestial state of the Conventions for the record of exact arithmetic: positions to 3.8e-12, 4e-12, 4.3e-12 and 3.8e-12 of their size, velocities (routes 3 and 4) to 4.3e-12 of their size plus 1.3e-15 per second times the size of the position, and 3.8e-12 plus 1.2e-15. Routes 1 and 4 give the same position; route 2 differs from it by at most 2e-13 of its size, route 3 by 5e-13, with the velocity within 5e-13 of its size plus 1e-16 per second times the size of the position. No row depends on those before it. The program stops with 1 at the first row whose epoch is out of bounds, and returns 0 exactly if there is none. The same holds, with the same bounds, when the program first removes the zonal tides from the series it has read, in double precision: the results are then those of the Conventions for the series from which the tides have been removed exactly.", "quantifier": "all daily series with pole coordinates and corrections within an arcsecond and lengths of day within 0.2 s (with the removal of the tides: UT1-UTC within a second, lengths of day within 0.01 s), all lists of rows in any order of epochs within 99.9 years of J2000, all positions and velocities, every rounding to nearest, every choice of fused products, every accurate C library, every order of the sums in Eigen's products", "why_tests_cant": "The unit test compares one orbit file with tolerances of 9 cm; it does not reach every series, order of rows, state or compiler.", "anchors": ["test/unit_tests/i2c_astropy.cpp:main", "src/lib/earth_rotation/c2i06a.cpp:c2i06a", "src/lib/earth_rotation/c2i06abz.cpp:c2i06a_bz", "src/lib/eop/regularize.cpp:regularize_impl"]}
{"id": "C124", "title": "The check of a reference orbit decides correctly in double precision", "statement": "A program that removes the zonal tides from a series of Earth orientation parameters, takes every row of a reference orbit to the celestial frame by the library's four routes and asserts that the results agree with the reference values to 9 cm and 0.09 mm/s decides as exact arithmetic would, up to 4.3e-12 of the size of the position, and of that of the velocity with 1.3e-15 per second times the size of the position (0.03 mm and 41 nm/s for a satellite in a low orbit): an orbit whose every row agrees with the celestial state of the Conventions to the tolerances narrowed by that is accepted, and one with a row, wherever it is, that does not agree to the tolerances widened by that is rejected by a failed assertion. A row has one celestial position and velocity. With an epoch out of bounds the program returns 1, if no assertion has failed before.", "quantifier": "all daily series with pole coordinates and corrections within an arcsecond, UT1-UTC within a second and lengths of day within 0.01 s, all reference orbits of any length in any order of epochs within 99.9 years of J2000, all positions and velocities, every rounding to nearest, every choice of fused products, every accurate C library, every order of the sums in Eigen's products", "why_tests_cant": "The program is itself a test: that it accepts one orbit says nothing about which orbits it would reject, nor about other compilers.", "anchors": ["test/unit_tests/i2c_astropy.cpp:main", "src/lib/eop/regularize.cpp:regularize_impl", "src/lib/earth_rotation/c2i06a.cpp:c2i06a"]}
{"id": "C125", "title": "Earth orientation at the epochs of a table, and the check of that table, in double precision", "statement": "A program that removes the zonal tides from a series of Earth orientation parameters, interpolates it at the epochs of a table, adds the effects of libration, ocean tides and zonal tides and prints pole coordinates, TIO locator, UT1-UTC, length of day, coordinates of the celestial pole and CIO locator prints for every epoch inside the series, until one of its assertions fails, what exact arithmetic gives, to 5e-17 rad for the pole, 1e-24 rad for the TIO locator, 1.3 ns for UT1-UTC, 0.03 ns for the length of day, 2.2e-15 rad for the celestial pole and 4e-16 rad for the CIO locator, whatever was asked of the series before. Its assertions that the table agrees with them to 0.1 arcseconds and 10 s decide as exact arithmetic would up to 1e-9 arcseconds and 1e-8 s: a table whose every line agrees to the tolerances narrowed by that is accepted, one with a line that does not agree to the widened tolerances is rejected, and an epoch out of bounds ends the program with status 1.", "quantifier": "all daily series with pole coordinates and corrections within an arcsecond, UT1-UTC within a second and lengths of day within 0.01 s, all tables of any length in any order of epochs within 99.9 years of J2000, all values in the table, every rounding to nearest, every choice of fused products, every accurate C library and conversion of angles", "why_tests_cant": "The program is itself a test, with tolerances twelve orders of magnitude wider than the errors: that it accepts one table neither bounds the errors of the values nor says which tables it would reject.", "anchors": ["test/costg_benchmark/tcheck_eops.cpp:main", "src/lib/eop/regularize.cpp:regularize_impl", "src/lib/iau/xycip06a.cpp:xycip06a", "src/lib/iau/s06.cpp:s06"]}
{"id": "C126", "title": "The comparisons with SOFA succeed for every draw of epochs", "statement": "The programs that compare the Earth rotation angle, the TIO locator and Greenwich mean sidereal time with SOFA at random epochs from 1990 to 2040 succeed whatever epochs are drawn, if SOFA is as accurate as double precision allows; and if they succeed, SOFA agrees with the Conventions at every epoch drawn.", "quantifier": "all sequences of epochs, of any length, from MJD 47892 to 66154, every rounding to nearest, every choice of fused products, every accurate conversion of angles, every implementation of SOFA with the stated accuracy", "why_tests_cant": "The epochs are drawn at random: a run that succeeds says nothing about the next one, and the epochs at which the assertions fail are too rare to be met by chance.", "anchors": ["test/sofa/era00.cpp:main", "test/sofa/sp00.cpp:main", "test/sofa/gmst.cpp:main", "src/lib/iau/era00.cpp:era00", "src/lib/iau/gmst.cpp:gmst"]}
{"id": "C127", "title": "Pole coordinates from the separate series in double precision, and the comparison with SOFA", "statement": "The separate series of X and Y of the celestial intermediate pole, summed with compensation in double precision, give the pole coordinates of the Conventions to 2e-15 rad within a century of J2000; and the program that compares both implementations with SOFA at random epochs succeeds whatever epochs are drawn, if SOFA is accurate to 2.8e-15 rad, and aborts if SOFA is off by more than 6.9e-15 rad at one of them.", "quantifier": "all epochs within a century of J2000, all sequences of epochs from MJD 47892 to 66154 of any length, every rounding to nearest, every choice of fused products, every accurate sine, cosine and conversion of angles, every SOFA with the stated accuracy", "why_tests_cant": "The epochs are drawn at random: ten thousand of them say nothing about the others, and a lost digit in one of three thousand amplitudes hides below the tolerance.", "anchors": ["src/lib/iau/xycip06a.cpp:xycip06a", "src/lib/iau/xcip06a.cpp:xcip06a", "src/lib/iau/ycip06a.cpp:ycip06a", "include/kahan.hpp:KahanSum", "test/sofa/xy06a.cpp:main"]}
{"id": "C128", "title": "The check of libration against a file of reference values", "statement": "The program that compares the libration of pole, UT1 and length of day with a file of reference values succeeds for every file of what the routines UTLIBR and PMSDNUT2 give at its dates (to 0.03 and 0.1 microseconds and 0.6 microarcseconds), and succeeds for no file with a value that is off by more than 0.17 or 1.9 microseconds or 1.4 microarcseconds, a line it cannot read or a line it cannot hold.", "quantifier": "all files of any number of lines, with dates between MJD 47892 and 66154 in any order, every ΔAT from 10 to 37 s, every content of the uninitialised buffer", "why_tests_cant": "The program is itself the test: that it passes says nothing about which files it would let pass, and its reference file holds 999 random dates.", "anchors": ["test/iers/eop_libration.cpp:main", "src/lib/eop/libration.cpp:deop_libration", "src/lib/iau/gmst82.cpp:gmst82", "test/fortran/TEST_UTLIBR.F:MAIN", "fortran_impl/UTLIBR_D0.F:UTLIBR", "fortran_impl/PMSDNUT2_D0.F:PMSDNUT2"]}
{"id": "C129", "title": "The check of the ocean tides against a file of reference values", "statement": "The program that compares the diurnal and semidiurnal ocean tides of pole and UT1 with a file of reference values succeeds if every row agrees with the sums over the tables of the Conventions to 5 microarcseconds and 1 microsecond, and for no other file: it exits with 1 if a row does not agree, and does not succeed if there is a line that it cannot read or cannot hold.", "quantifier": "all files of any number of lines with dates that fit an int, every table of leap seconds, every content of the uninitialised buffer", "why_tests_cant": "The program is itself the test: that it passes says nothing about which files it would let pass.", "anchors": ["test/iers/eop_oceantide.cpp:main", "src/lib/eop/ocean_tide_variation.cpp:deop_ocean_tide", "src/lib/iau/gmst82.cpp:gmst82"]}
{"id": "C130", "title": "The check of the zonal tides against a file of reference values", "statement": "The program that compares the zonal tides of UT1, length of day and rotation rate with a file of reference values succeeds if every row agrees with the sums over Table 8.1 of the Conventions to 1e-12 s, 1e-13 s and 1e-14 rad/s, and for no other file: it exits with 1 if a row does not agree, and does not succeed if there is a line that it cannot read or cannot hold.", "quantifier": "all files of any number of lines with dates that fit an int, every content of the uninitialised buffer", "why_tests_cant": "The program is itself the test: that it passes says nothing about which files it would let pass.", "anchors": ["test/iers/eop_rgzont2.cpp:main", "src/lib/eop/zonal_tides.cpp:deop_zonal_tide", "src/lib/fundarg/fundarg.cpp:fundarg"]}
{"id": "C131", "title": "The check that removing and adding the zonal tides undo each other", "statement": "In double precision, the program that removes the zonal tides from a copy of a series of nine Earth orientation records, adds them again and asserts each time what has changed and what has not, to 1e-15 s, succeeds exactly if the removal changes UT1 and length of day of every record; it therefore succeeds unless at the epoch of a record the zonal tides nearly vanish (2.3e-12 s in UT1 or 6e-14 s in length of day). A series with any other number of records is not accepted. Its assertions hold for no records that come back more than 1.000000001e-15 s off in UT1 or length of day, or changed elsewhere.", "quantifier": "all series within a century of J2000, with UT1-UTC within 1 s and length of day within 0.01 s; all ways of rounding to nearest, all choices of fused products, all sine, cosine and conversion functions accurate to a few units in the last place", "why_tests_cant": "The program is itself a test, of one file and with one compiler; whether its tolerance is one that every correct build meets is about all roundings.", "anchors": ["test/unit_tests/eop_regularize.cpp:main", "src/lib/eop/regularize.cpp:dso::EopSeries::regularize_impl", "include/eop.hpp:EopSeries::regularize, EopSeries::deregularize"]}
{"id": "C132", "title": "The check of the interpolation at the edges of an Earth orientation series", "statement": "The program that reads nine days of a C04 file and asserts what interpolation reports before, after and near the ends of the series succeeds for every file of daily records: before the first and after the last record the nearest one is given, one record from an end the interpolation is linear, two from an end of a lower degree than requested, further inside of the requested degree.", "quantifier": "all C04 files of both formats, every content of uninitialised memory, all tables of leap seconds", "why_tests_cant": "The program is itself a test; whether its epochs are on the side of the records that it assumes depends on the offset of TT from UTC in every file.", "anchors": ["test/unit_tests/eop2.cpp:main", "src/lib/eop/lagrange_interpolation.cpp:dso::EopSeries::interpolate", "src/lib/eop/parse_iers_c04.cpp:dso::parse_iers_C04"]}
{"id": "C133", "title": "The check of the number of records read from a C04 file", "statement": "For every well formed C04 file in time order, the program that reads the records from MJD 57753 up to but not including 57755 and asserts that there are two succeeds exactly if the file has two records with epochs (TT) in that interval. For the format of 2014 this means exactly if the file has the days 57753 and 57754. Without a readable file it reports an error.", "quantifier": "all well formed C04 files of both formats in time order, every content of uninitialised memory, every conversion from UTC to TT", "why_tests_cant": "The program is itself a test of one file; whether its count is right depends on the records and on the side of the interval's ends on which TT falls in every file.", "anchors": ["test/unit_tests/eop1.cpp:main", "src/lib/eop/parse_iers_c04.cpp:dso::parse_iers_C04", "include/eop.hpp: EopSeries::num_entries"]}
