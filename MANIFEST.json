{"claims": [
{"property": "C01", "status": "proved", "theorems": ["Verif.Storage.index_in_bounds", "Verif.Storage.index_injective", "Verif.Storage.index_bijective"], "note": "all five storage types"},
{"property": "C02", "status": "proved", "theorems": ["Verif.Storage.make_wf", "Verif.Storage.make_ok", "Verif.Storage.slices_tile", "Verif.Storage.slice_elements"], "note": ""},
{"property": "C03", "status": "proved", "theorems": ["Verif.Matrix.matrix_last_write"], "note": ""},
{"property": "C04", "status": "proved", "theorems": ["Verif.Matrix.matrix_reach_memOk", "Verif.Matrix.matrix_step_defined", "Verif.Matrix.matrix_read_defined", "Verif.Matrix.matrix_step_frame"], "note": ""},
{"property": "C05", "status": "partial", "theorems": ["Verif.Matrix.matrix_no_leak_partial", "Verif.Matrix.matrix_all_freed_partial", "Verif.Matrix.matrix_self_copy_assign", "Verif.Matrix.matrix_destroy_ok", "Verif.Matrix.matrix_no_leak_fails", "Verif.Matrix.matrix_self_move_fails"], "note": "move assignment onto a non-empty matrix leaks its buffer; self move loses the contents; proved for all other histories"},
{"property": "C06", "status": "proved", "theorems": ["Verif.Matrix.matrix_cresize_keeps", "Verif.Matrix.matrix_resize_shape"], "note": ""},
{"property": "C07", "status": "proved", "theorems": ["Verif.Matrix.matrix_copy_ctor", "Verif.Matrix.matrix_copy_assign", "Verif.Matrix.matrix_move", "Verif.Matrix.matrix_swap", "Verif.Matrix.matrix_copies_independent", "Verif.Matrix.matrix_fill_multiply"], "note": ""},
{"property": "C08", "status": "proved", "theorems": ["Verif.MatrixExpr.expr_addAssign", "Verif.MatrixExpr.expr_addAssign_abort", "Verif.MatrixExpr.expr_construct"], "note": ""},
{"property": "C09", "status": "partial", "theorems": ["Verif.Stokes.stokes_add_partial", "Verif.Stokes.stokes_add_fails"], "note": "default-constructed operands read out of bounds"},
{"property": "C10", "status": "partial", "theorems": ["Verif.Stokes.stokes_consistent_partial", "Verif.Stokes.stokes_coeff_defined", "Verif.Stokes.stokes_step_defined", "Verif.Stokes.stokes_shrink", "Verif.Stokes.stokes_construct", "Verif.Stokes.stokes_cresize_keeps", "Verif.Stokes.stokes_default_fails", "Verif.Stokes.stokes_moved_from_fails"], "note": "default-constructed and moved-from sets have no storage for their reported degree"},
{"property": "C100", "status": "partial", "theorems": ["Verif.PoleExample.pole_example_partial", "Verif.PoleExample.pole_unique", "Verif.PoleExample.pole_example_fails", "Verif.PoleExample.pole_example_no_grid", "Verif.PoleExample.pole_example_no_eop", "Verif.PoleExample.pole_example_outside", "Verif.PoleExample.pole_example_empty_fails"], "note": "The lines printed for the first epoch are right (with the coefficients of C48); the program does not advance its epoch and never ends, and a file of Earth orientation without records in the interval is undefined behaviour."},
{"property": "C101", "status": "partial", "theorems": ["Verif.SolidTide.declared_order_partial", "Verif.SolidTide.documented_order", "Verif.SolidTide.documented_order_stokes", "Verif.SolidTide.documented_order_fails"], "note": "Holds in the order of the declaration; in the order of the documentation Sun and Moon are exchanged."},
{"property": "C102", "status": "partial", "theorems": ["Verif.MatrixKept.kept_partial", "Verif.MatrixKept.kept_abort", "Verif.MatrixKept.kept_nested_fails"], "note": "Holds for kept expressions whose operands are matrices or named expressions. Fails for a kept expression with an operand that is itself an expression: the operand is destroyed at the end of the statement."},
{"property": "C103", "status": "partial", "theorems": ["Verif.EopThreads.serially_partial", "Verif.EopThreads.own_partial", "Verif.EopThreads.own_ends", "Verif.EopThreads.race_fails", "Verif.EopThreads.mixed_fails", "Verif.EopThreads.crash_fails", "Verif.EopThreads.extrapolated_fails"], "note": "Holds for calls one after the other and for threads that have a series each. The code violates it for threads that share a series: the functions are const but write the members last_it and work. Any two calls race; even if no access tears, a thread can get another thread's values, a value extrapolated from the wrong records, or read before the first record."},
{"property": "C104", "status": "partial", "theorems": ["Verif.GetAod1b.fetch_partial", "Verif.GetAod1b.stopped_states", "Verif.GetAod1b.repeated_partial", "Verif.GetAod1b.truncated_fails", "Verif.GetAod1b.missing_fails", "Verif.GetAod1b.stuck_fails", "Verif.GetAod1b.tidal_fails", "Verif.GetAod1b.archive_fetched", "Verif.GetAod1b.status_zero", "Verif.GetAod1b.no_directory"], "note": "The code violates the property: the output file is opened before the product is requested and is not removed when the transfer fails or the run is stopped, and a later run takes any file of that name for the product (truncated_fails: any beginning of the product, success reported; missing_fails: an empty file); with decompression such a file makes every later run fail (stuck_fails); the tidal product cannot be fetched (tidal_fails). Proved: runs from complete files fetch everything and touch nothing else; what a stopped run can leave; histories of stopped runs that leave no part of a file; the fetched products are an archive in the sense of C85. status_zero: a status implies files for every day, any server and directory no_directory: nothing left behind"},
{"property": "C105", "status": "proved", "theorems": ["Verif.RoundedGcrs.cio_rounded", "Verif.RoundedGcrs.tio_rounded", "Verif.RoundedGcrs.gcrs_to_itrs_rounded", "Verif.RoundedGcrs.position_rounded", "Verif.RoundedGcrs.product_ok"], "note": "For every rounding to nearest, accurate C library functions and every order of summation in quaternion products; the hypotheses are met by exact functions and Eigen's product."},
{"property": "C106", "status": "proved", "theorems": ["Verif.RoundedPoint.acc_rounded", "Verif.RoundedPoint.accJ_same", "Verif.RoundedPoint.jacobian_rounded", "Verif.RoundedPoint.centre_rounded", "Verif.RoundedPoint.squares_ok"], "note": "rounded model of both overloads; unlimited exponents (no overflow or underflow)"},
{"property": "C107", "status": "proved", "theorems": ["Verif.RoundedEop.interpolate_rounded", "Verif.RoundedEop.interpolate_window", "Verif.RoundedEop.daily_rounded", "Verif.RoundedEop.rounded_difference", "Verif.RoundedEop.daily_size"], "note": "rounded model; a difference of epochs is a parameter of accuracy 4u times the difference plus one day, met by one correctly rounded subtraction Inside a daily series the exact values are bounded by 292 times the tabulated ones."},
{"property": "C108", "status": "partial", "theorems": ["Verif.TideName.names_partial", "Verif.TideName.groops_name", "Verif.TideName.name_long_fails", "Verif.TideName.groops_long_fails"], "note": "names of 64 characters or more are written beyond the array"},
{"property": "C109", "status": "proved", "theorems": ["Verif.RoundedRelativity.relativity_rounded", "Verif.RoundedRelativity.relativity_default", "Verif.RoundedRelativity.dots_ok"], "note": ""},
{"property": "C11", "status": "proved", "theorems": ["Verif.Stokes.anm_cells_distinct", "Verif.Stokes.stokes_to_anm", "Verif.Stokes.stokes_anm_roundtrip", "Verif.Stokes.stokes_from_to_anm"], "note": ""},
{"property": "C110", "status": "proved", "theorems": ["Verif.RoundedEopTides.zonal_any", "Verif.RoundedEopTides.zonal_rounded", "Verif.RoundedEopTides.libration_rounded", "Verif.RoundedEopTides.ocean_rounded", "Verif.RoundedEopTides.libration_pmsdnut2", "Verif.RoundedEopTides.regularize_rounded", "Verif.RoundedEopTides.regularize_back"], "note": "Rounded model of the functions and of `regularize`, against the exact model of C76-C78 at the Conventions' arguments. Nothing over- or underflows. Sine and cosine of the C library within one unit in the last place of 1; `sec2rad` within 4 units of roundoff; Julian centuries of the library `datetime` within 4 units of roundoff of 1."},
{"property": "C111", "status": "proved", "theorems": ["Verif.RoundedTides.pole_rounded", "Verif.RoundedTides.deformation_rounded", "Verif.RoundedTides.stokes_rounded", "Verif.RoundedTides.earth_rounded"], "note": "Rounded model of pole tide and solid Earth tide geopotential, against the formulas of the Conventions (Spec/PoleTide, Spec/SolidTide, Spec/RoundedTides). Nothing over- or underflows. Sine and cosine of the C library within one unit in the last place of 1, `std::pow(x, 3)` within 2 roundoffs; `sec2rad` within 4; years since J2000 within 4 roundoffs of 100; `cartesian2spherical`, not part of the repository, gives distance to 4 roundoffs and angles to 8."},
{"property": "C112", "status": "proved", "theorems": ["Verif.RoundedSite.displacement_rounded", "Verif.RoundedSite.site_rounded"], "note": "From the epochs and positions to the three components in double precision. Library functions, Eigen's sums, cartesian2spherical, geodetic2lvlh and the compiler's fusing of products are parameters with error bounds; overflow and underflow are outside the model."},
{"property": "C113", "status": "proved", "theorems": ["Verif.RoundedAtlas.ocean_rounded", "Verif.RoundedAtlas.atm_rounded", "Verif.RoundedAtlas.admittance_rounded", "Verif.RoundedAtlas.sizes_rounded", "Verif.RoundedAtlas.sequential_inner"], "note": "Rounded arithmetic with fused products; C library functions and Eigen's matrix-vector product are parameters with bounds on their errors, the latter shown for sums from left to right."},
{"property": "C114", "status": "proved", "theorems": ["Verif.RoundedOceanPole.ocean_rounded", "Verif.RoundedOceanPole.ocean_rejected", "Verif.RoundedOceanPole.deformation_rounded"], "note": "Rounded arithmetic with fused products; C library functions, sec2rad, the local frame and Eigen's summation order are parameters with bounds on their errors. Objects of degree 0, degree 360 and objects without a file: C46."},
{"property": "C115", "status": "proved", "theorems": ["Verif.RoundedIcgem.icgem1_rounded", "Verif.RoundedIcgem.icgem1_rounded_sound", "Verif.RoundedIcgem.icgem2_rounded", "Verif.RoundedIcgem.icgem2_rounded_sound"], "note": "Both directions for versions 1 and 2: files whose lines hold records are read and give the sums up to rounding, and whenever the reader succeeds the lines hold records whose sums, when their periods are not zero, are the coefficients up to rounding. Rounding, the difference in years, sine and cosine are parameters with stated accuracy; the parsing is that of C27 to C31."},
{"property": "C116", "status": "proved", "theorems": ["Verif.RoundedAod1b.stream_rounded", "Verif.RoundedAod1b.stream_rounded_file", "Verif.RoundedAod1b.stream_rounded_same"], "note": "Every history of queries, on a file and on a series of files. Which data sets are used is the matter of C35; here the answers are compared with the lines through these sets. Rounding and the difference of epochs in days are parameters with stated accuracy."},
{"property": "C117", "status": "partial", "theorems": ["Verif.RoundedGrid.desai_rounded_partial", "Verif.RoundedGrid.line_rounded", "Verif.RoundedGrid.surrounding_rounded", "Verif.RoundedGrid.grid_rounded_outside_fails", "Verif.RoundedGrid.desai_rounded_fails"], "note": "Proved for sites at least 1e-12 degrees from the sides of their cell; closer to a side the code violates the property (row behind the last one, abort). As in C48 the longitude is shifted by 180 degrees and the cells across the seam are missing."},
{"property": "C118", "status": "proved", "theorems": ["Verif.RoundedFcn.fcn_rounded", "Verif.RoundedFcn.sigma_rounded"], "note": "Rounding: any map to a nearest double; no overflow or underflow (as in C92). fcn_rounded compares with the amplitude of the specification of C65 (proved unique there); sigma_rounded compares with exact arithmetic (whose sign problem is C65's fcn_sigma_fails). table52c_spaced shows that the table in the code meets the hypotheses."},
{"property": "C119", "status": "proved", "theorems": ["Verif.RoundedGcrs.closed_form_rounded", "Verif.RoundedGcrs.forms_agree_rounded", "Verif.RoundedGcrs.parts_rounded", "Verif.RoundedGcrs.derivative_rounded", "Verif.RoundedGcrs.forms_agree_tight"], "note": "Rounding: any map to a nearest double; no overflow or underflow (as in C92). The exact objects are those of the Conventions (Spec/EarthRot, Spec/Gcrs), not the model's. matProduct_ok and product_ok show that the usual orders of summation meet the hypotheses on Eigen. ; forms_agree_tight: in one build the forms agree to 2e-13 and 4e-13"},
{"property": "C12", "status": "partial", "theorems": ["Verif.Stokes.stokes_clear", "Verif.Stokes.stokes_scale_partial", "Verif.Stokes.stokes_scale_scale", "Verif.Stokes.stokes_scale_fails"], "note": "degree-0 sets are not scaled"},
{"property": "C120", "status": "proved", "theorems": ["Verif.RoundedGcrs.celestial_rounded", "Verif.RoundedGcrs.celestial_series_rounded"], "note": "Rounding: any map to a nearest double; no overflow or underflow (as in C92). The exact matrix is that of the Conventions (Spec/EarthRot). The series of C_rxyimpl is not a rotation (C60, Crxy_fails); its distance from one is part of the bound."},
{"property": "C121", "status": "proved", "theorems": ["Verif.RoundedOrient.orientation_history", "Verif.RoundedOrient.orientation_inside", "Verif.RoundedOrient.orientation_rounded", "Verif.RoundedOrient.record_rounded", "Verif.RoundedOrient.approx_dut1_rounded", "Verif.RoundedOrient.orientation_outside"], "note": "The interpolated values are bounded by the tabulated ones, not assumed to be small."},
{"property": "C122", "status": "proved", "theorems": ["Verif.RoundedState.state_rounded", "Verif.RoundedState.state_round_trip", "Verif.RoundedState.transformVector_ok", "Verif.RoundedState.mulVec_ok", "Verif.RoundedState.state_parts_rounded", "Verif.RoundedState.round_trip_tight", "Verif.RoundedState.states_agree_tight"], "note": "The documented formulas around c2i06a with the derivative in rounded arithmetic. Eigen and the C library are parameters with stated accuracy; transformVector_ok and mulVec_ok show that the formulas of Eigen meet it. state_parts_rounded covers the form with two quaternions and the cross product with the rotation vector of the Earth. ; round_trip_tight and states_agree_tight: within one build the errors of the angles cancel "},
{"property": "C123", "status": "proved", "theorems": ["Verif.RoundedOptions.options_inside", "Verif.RoundedOptions.options_outside", "Verif.RoundedOptions.options_history", "Verif.RoundedOptions.raw_inside", "Verif.RoundedOptions.options_raw"], "note": "The loop of test/unit_tests/i2c_astropy.cpp from the interpolation on, for every list of rows; the reading of the files is C99, the comparison with the reference values C124. The library datetime is a parameter, accurate to a few rounding errors. raw_inside and options_raw begin with the removal of the zonal tides from the series as it was read."},
{"property": "C124", "status": "proved", "theorems": ["Verif.RoundedOptions.truth_unique", "Verif.RoundedOptions.check_rows", "Verif.RoundedOptions.check_accepts", "Verif.RoundedOptions.check_rejects"], "note": "test/unit_tests/i2c_astropy.cpp from the series and the rows that were read on. The library datetime is a parameter, accurate to a few rounding errors."},
{"property": "C125", "status": "proved", "theorems": ["Verif.RoundedEops.line_inside", "Verif.RoundedEops.line_outside", "Verif.RoundedEops.interpolate_old", "Verif.RoundedEops.orientation_unique", "Verif.RoundedEops.accepts_margin", "Verif.RoundedEops.eops_rows", "Verif.RoundedEops.eops_accepts", "Verif.RoundedEops.eops_rejects"], "note": "test/costg_benchmark/tcheck_eops.cpp from the series and the table that were read on; the reading of the files is C99. The libraries datetime and geodesy are parameters, accurate to a few rounding errors."},
{"property": "C126", "status": "partial", "theorems": ["Verif.RoundedSofa.era00_drawn", "Verif.RoundedSofa.gmst_drawn", "Verif.RoundedSofa.era_check_partial", "Verif.RoundedSofa.era_check_sound", "Verif.RoundedSofa.era_check_wrap_fails", "Verif.RoundedSofa.sp_check", "Verif.RoundedSofa.sp_check_sound", "Verif.RoundedSofa.gmst_check_partial", "Verif.RoundedSofa.gmst_check_j2000_fails"], "note": "False as stated: angles near a full turn are compared as numbers, and at J2000 the IAU 2000 and IAU 2006 sidereal times are the same, so that the assertion that one is further away fails. Proved for draws that are not within 1e-12 rad of a full turn and, for sidereal time, not within 37 days of J2000. The other programs in test/sofa are not modelled."},
{"property": "C127", "status": "partial", "theorems": ["Verif.RoundedSeries.extra_rounded_partial", "Verif.RoundedSeries.extra_x_partial", "Verif.RoundedSeries.extra_x_rounded_fails", "Verif.RoundedSeries.agree_of_close", "Verif.RoundedSeries.close_of_agree", "Verif.RoundedSeries.xy_check", "Verif.RoundedSeries.xy_check_sound", "Verif.RoundedSeries.xy_check_rejects"], "note": "False for X: the amplitude of t cos Omega is 205833.1 instead of 205833.11 microarcseconds, and extra_x_rounded_fails gives an epoch of 2025 at which every faithful arithmetic is off by 1e-14 rad. Proved: Y to 2e-15 rad, X to 2e-15 rad of the value with that amplitude, and the program test/sofa/xy06a.cpp for every draw. SOFA is a parameter of stated accuracy."},
{"property": "C128", "status": "partial", "theorems": ["Verif.LibrationCheck.libration_routines", "Verif.LibrationCheck.libration_check", "Verif.LibrationCheck.libration_check_rejects", "Verif.LibrationCheck.libration_check_sound_partial", "Verif.LibrationCheck.libration_check_unreadable", "Verif.LibrationCheck.libration_check_fails", "Verif.LibrationCheck.libration_check_no_file", "Verif.LibrationCheck.libration_check_lines_partial"], "note": "Proved for all files of rows: reference files pass, files with a wrong value exit with 1, a line without five numbers aborts. The clause on lines that do not fit is false: such a line ends the check with success, proved as libration_check_fails.  Whatever text passes has five numbers in each line that fits, not far from the routines (libration_check_lines_partial)."},
{"property": "C129", "status": "partial", "theorems": ["Verif.OceanCheck.ocean_variation", "Verif.OceanCheck.ocean_check", "Verif.OceanCheck.ocean_check_unreadable", "Verif.OceanCheck.ocean_check_fails", "Verif.OceanCheck.ocean_check_no_file", "Verif.OceanCheck.ocean_check_lines_partial"], "note": "Proved for all files of rows: the exit status is 0 exactly if every row agrees with the tables, 1 otherwise; a line without four numbers aborts. The clause on lines that do not fit is false: such a line ends the check with success, proved as ocean_check_fails.  Any text of lines that fit and that passes has four numbers on every line, and they agree with the tables (ocean_check_lines_partial)."},
{"property": "C13", "status": "proved", "theorems": ["Verif.Doodson.doodson_str_renders", "Verif.Doodson.doodson_parse_renders", "Verif.Doodson.doodson_roundtrip", "Verif.Doodson.doodson_parse_accepts", "Verif.Doodson.doodson_parse_defined"], "note": "default (+5) convention"},
{"property": "C130", "status": "partial", "theorems": ["Verif.ZonalCheck.zonal_values", "Verif.ZonalCheck.zonal_check", "Verif.ZonalCheck.zonal_check_unreadable", "Verif.ZonalCheck.zonal_check_fails", "Verif.ZonalCheck.zonal_check_no_file", "Verif.ZonalCheck.zonal_check_lines_partial"], "note": "Proved for all files of rows: the exit status is 0 exactly if every row agrees with Table 8.1, 1 otherwise; a line without four numbers aborts. The clause on lines that do not fit is false: such a line ends the check with success, proved as zonal_check_fails.  Any text of lines that fit and that passes has four numbers on every line, and they agree with Table 8.1 (zonal_check_lines_partial)."},
{"property": "C131", "status": "proved", "theorems": ["Verif.RegularizeCheck.regularize_check", "Verif.RegularizeCheck.regularize_check_count", "Verif.RegularizeCheck.regularize_check_passes", "Verif.RegularizeCheck.removed_assertions", "Verif.RegularizeCheck.restored_assertions"], "note": "In double precision, for every faithful rounding; the reading of the file is not part of it (C24).   What the assertions accept is stated for any two series (removed_assertions, restored_assertions)."},
{"property": "C132", "status": "partial", "theorems": ["Verif.EdgesCheck.edges_check", "Verif.EdgesCheck.edges_check_count", "Verif.EdgesCheck.edges_check_fails"], "note": "False: the program asks for a minute after midnight TT, but the first record, at midnight UTC, is 68.184 s after midnight TT, so that it stops with a violated assertion for every well formed file (edges_check_fails). Proved: for nine daily records it succeeds exactly if the first three are at most a minute after midnight."},
{"property": "C133", "status": "proved", "theorems": ["Verif.CountCheck.count_check", "Verif.CountCheck.count_check_days", "Verif.CountCheck.count_check_no_file"], "note": "test/unit_tests/eop1.cpp. The day form assumes that TT is ahead of UTC by less than an hour, and by at least 68 s since 2015"},
{"property": "C14", "status": "partial", "theorems": ["Verif.Doodson.doodson_roundtrip_iff_partial", "Verif.Doodson.doodson_str_injective", "Verif.Doodson.doodson_range_fails", "Verif.Doodson.doodson_str_overflow_fails"], "note": "multipliers outside -13..22 are rendered as other characters; also the documented buffer size is one byte short"},
{"property": "C15", "status": "proved", "theorems": ["Verif.Angle.doodson_argument", "Verif.Angle.delaunay_relations", "Verif.Angle.argument_either_basis"], "note": "over the reals"},
{"property": "C16", "status": "partial", "theorems": ["Verif.Doodson.atmospheric_unambiguous", "Verif.Doodson.oceanic_unambiguous", "Verif.Doodson.find_wave_entry_iff", "Verif.Doodson.match_ocean_name_iff", "Verif.Doodson.match_ocean_doodson_iff_partial", "Verif.Doodson.match_ocean_doodson_fails"], "note": "lookup by number also compares the pi factor, so a constituent parsed from text is not found"},
{"property": "C17", "status": "partial", "theorems": ["Verif.Doodson.iers10_digits", "Verif.Doodson.iers10_agrees", "Verif.Doodson.iers10_accepts_partial", "Verif.Doodson.iers10_fails", "Verif.Doodson.iers10_short_fails"], "note": "non-digit characters near the digits are accepted; short strings are read out of bounds"},
{"property": "C18", "status": "partial", "theorems": ["Verif.Eop.eop_prior", "Verif.Eop.eop_later", "Verif.Eop.eop_inside", "Verif.Eop.eop_history", "Verif.Eop.eop_copy_fails", "Verif.Eop.eop_empty_fails"], "note": "Full for every documented history (records in time order, iterator reset after changes, degree 1-9). Copies keep an iterator into the source; the empty series is undefined behaviour."},
{"property": "C19", "status": "partial", "theorems": ["Verif.Eop.eop_poly_exact", "Verif.Eop.eop_at_node_partial", "Verif.Eop.eop_rates_fails"], "note": "Polynomials reproduced for all windows; at nodes everything except the pole rates, which the code sets to 0."},
{"property": "C20", "status": "proved", "theorems": ["Verif.Eop.eop_leap", "Verif.Eop.approx_dut1_spec"], "note": "For every leap second function; UT1-UTC changes only by the change of the count at the epoch asked for."},
{"property": "C21", "status": "partial", "theorems": ["Verif.Eop.eop_inside", "Verif.Eop.eop_status_outside", "Verif.Eop.eop_degree0_fails"], "note": "For degrees 1-9. For degree 0 the status 'decreased' is reported and zeros returned."},
{"property": "C22", "status": "proved", "theorems": ["Verif.Eop.regularize_inverse", "Verif.Eop.regularize_values", "Verif.Eop.regularize_twice"], "note": "Exact arithmetic."},
{"property": "C23", "status": "proved", "theorems": ["Verif.Eop.approx_dut1_spec", "Verif.Eop.approx_dut1_agrees"], "note": "Exact arithmetic, valid cached iterator."},
{"property": "C24", "status": "partial", "theorems": ["Verif.Eop.c0414_complete", "Verif.Eop.c0420_complete", "Verif.Eop.parseC04_complete", "Verif.Eop.c0414_sound", "Verif.Eop.c0420_sound", "Verif.Eop.choose_c04", "Verif.Eop.parse_empty_interval", "Verif.Eop.parse_no_file", "Verif.Eop.c04_short_line_fails"], "note": "Text level. Both directions for both formats; data lines shorter than 12 characters are read past their end instead of being rejected."},
{"property": "C25", "status": "partial", "theorems": ["Verif.Angle.era00_correct", "Verif.Angle.gmst_correct", "Verif.Angle.gmst82_correct", "Verif.Angle.delaunay_correct_partial", "Verif.Angle.delaunay_range", "Verif.Angle.planet_longitudes_partial", "Verif.Angle.faom03_range_fails"], "note": "fundamental arguments can be negative"},
{"property": "C26", "status": "partial", "theorems": ["Verif.Angle.fundarg_rates_partial", "Verif.Angle.fundarg_rate_fails", "Verif.Angle.dfaf03_epoch_fails", "Verif.Angle.dgmst_fails", "Verif.Angle.dgmst_value", "Verif.Rounding.dgmst_rounded_fails"], "note": "rate functions return mean rates since J2000; dgmst doubles the rotation rate  ; the same for dgmst in double precision"},
{"property": "C27", "status": "partial", "theorems": ["Verif.Icgem.icgem1_read_partial", "Verif.Icgem.icgem1_sound", "Verif.Icgem.icgem2_read", "Verif.Icgem.icgem2_sound", "Verif.Icgem.icgem_order_fails", "Verif.Icgem.icgem_missing_column_fails"], "note": "Text level, both directions, any file. In version 1 the files must have the reference line of a coefficient before its time-dependent lines with no reference of another coefficient between; otherwise the reader aborts (icgem_order_fails)."},
{"property": "C28", "status": "proved", "theorems": ["Verif.Icgem.icgem2_read", "Verif.Icgem.icgem2_sound"], "note": "Version 2: a record counts iff it is static or t0 <= t < t1."},
{"property": "C29", "status": "partial", "theorems": ["Verif.Icgem.icgem_no_oob_partial", "Verif.Icgem.icgem_bad_request", "Verif.Icgem.icgem_bad_index_fails", "Verif.Icgem.icgem_unknown_line_fails", "Verif.Icgem.icgem_reject_modifies_fails"], "note": "No access outside the matrices for files whose lines within the request name coefficients that exist. A line with order > degree or an unknown first line leads to an access outside; bad requests are rejected, but only after the caller's coefficients were resized and cleared."},
{"property": "C30", "status": "proved", "theorems": ["Verif.Icgem.icgem1_read_partial", "Verif.Icgem.icgem1_sound", "Verif.Icgem.icgem2_read", "Verif.Icgem.icgem2_sound"], "note": "The reported degree and order are the largest of the records used (Result in Spec/Icgem)."},
{"property": "C31", "status": "partial", "theorems": ["Verif.Icgem.icgem1_fortran_partial", "Verif.Icgem.icgem_fortran_fails"], "note": "Version 1 files with D exponents with a sign read like files with e exponents. Without a sign, and in version 2, the exponent is dropped without an error."},
{"property": "C32", "status": "partial", "theorems": ["Verif.Aod1b.release_round_trip_partial", "Verif.Aod1b.filename_gz_fails", "Verif.Aod1b.release_no_dir_fails"], "note": "Release round trip proved for paths with a directory part. The compressed name does not end in .gz (suffix is written behind the terminating zero) and a bare file name dereferences a null pointer; both proved as failures."},
{"property": "C33", "status": "proved", "theorems": ["Verif.Aod1b.collect_complete", "Verif.Aod1b.collect_resize_complete", "Verif.Aod1b.collect_sound"], "note": "Completeness for well-formed lines and soundness for any text, with and without resizing."},
{"property": "C34", "status": "partial", "theorems": ["Verif.Aod1b.goto_next_partial", "Verif.Aod1b.goto_begin_partial", "Verif.Aod1b.goto_fails"], "note": "Holds for files of well-formed blocks unless the only matching block is the last one seen from the start of the file; goto_fails proves that case is not found."},
{"property": "C35", "status": "partial", "theorems": ["Verif.Aod1b.stream_interpolates_partial", "Verif.Aod1b.stream_files_partial", "Verif.Aod1b.interpolated_at_epoch", "Verif.Aod1b.stream_three_fails", "Verif.Aod1b.stream_jump", "Verif.Aod1b.stream_jump_fails", "Verif.Aod1b.stream_history", "Verif.Aod1b.stream_history_partial", "Verif.Aod1b.stream_series_partial", "Verif.Aod1b.stream_exact_fails", "Verif.Aod1b.stream_gap", "Verif.Aod1b.stream_gap_fails", "Verif.Aod1b.stream_marked", "Verif.Aod1b.stream_marked_fails"], "note": "Proved for query sequences that advance at most one interval at a time (or stay within the first four data sets), over one file and over a series of files. The code extrapolates when the first query jumps ahead (stream_jump_fails) and cannot start on a file with three data sets (stream_three_fails). For every sequence of queries whatever, on one file or a series of files, the answers are those of a small machine (stream_history): refused, or on a line through two data sets in order, the first not after the query; a query at the very epoch of the data set after the buffered ones is refused, and after a jump two data sets far apart are taken for adjacent; after a jump to the last data set of a file the next file is interpolated with a data set taken at the epoch that marks the end (stream_marked_fails). Copies and moves of a stream: C86."},
{"property": "C36", "status": "partial", "theorems": ["Verif.Aod1b.tidal_complete", "Verif.Aod1b.tidal_sound_partial", "Verif.Aod1b.tidal_trailing_fails", "Verif.Aod1b.tidal_empty_fails"], "note": "Read iff both blocks are there, up to one unterminated trailing line (accepted) and a file that ends after its header (buffer over-read)."},
{"property": "C37", "status": "partial", "theorems": ["Verif.Tide.append_rejected", "Verif.Tide.append_accepted", "Verif.Tide.append_new", "Verif.Tide.atlas_distinct", "Verif.Tide.atlas_find", "Verif.Tide.atm_duplicate_fails"], "note": "Distinctness, rejection and lookup are proved for TideAtlas::append_wave. AtmosphericTide::append_wave pushes without the duplicate check, so the same wave can be stored twice (atm_duplicate_fails)."},
{"property": "C38", "status": "partial", "theorems": ["Verif.Tide.ocean_sum_partial", "Verif.Tide.atm_sum_partial", "Verif.Tide.ocean_model_partial", "Verif.Tide.atm_model_partial", "Verif.Tide.ocean_degrees_fails"], "note": "Sum of all constituents proved when every constituent has the size of the container; otherwise the evaluation stops in an assertion (ocean_degrees_fails). Real arithmetic."},
{"property": "C39", "status": "partial", "theorems": ["Verif.Tide.atm_container_partial", "Verif.Tide.atm_container_fails"], "note": "Proved when the constituents' sizes are comparable in both degree and order; growing one dimension may shrink the other (atm_container_fails)."},
{"property": "C40", "status": "partial", "theorems": ["Verif.Tide.admittance_sum_partial", "Verif.Tide.admittance_linear", "Verif.Tide.admittance_rows_fails"], "note": "Proved when the matrix has a row per major wave; with fewer rows memory outside the matrix is read (admittance_rows_fails). Real arithmetic."},
{"property": "C41", "status": "partial", "theorems": ["Verif.Groops.names_partial", "Verif.Groops.parse_complete", "Verif.Groops.parse_sound", "Verif.Groops.names_sincos_fails", "Verif.Groops.names_long_fails"], "note": "Model, Doodson number and wave name survive the round trip; sine and cosine are always exchanged by the name maker (names_sincos_fails), and a long model name overruns its buffer."},
{"property": "C42", "status": "partial", "theorems": ["Verif.Groops.validate_partial", "Verif.Groops.validate_duplicates", "Verif.Groops.validate_alone_fails", "Verif.Groops.validate_case_fails", "Verif.Groops.validate_text_fails", "Verif.Groops.validate_full_fails"], "note": "Because the name maker exchanges sine and cosine, the partner check looks for the file itself: lists without partners are accepted. A model of 48 or a wave of 16 characters makes the check read behind an array (validate_full_fails)."},
{"property": "C43", "status": "partial", "theorems": ["Verif.Groops.admittance_complete", "Verif.Groops.admittance_sound_partial", "Verif.Groops.admittance_short_fails", "Verif.Groops.admittance_extra_fails", "Verif.Groops.admittance_columns_fails"], "note": "a matrix file with the right rows is read completely; fails: a file with fewer rows leaves the rest uninitialised, extra columns are ignored"},
{"property": "C44", "status": "partial", "theorems": ["Verif.OceanOwn.ownership_partial", "Verif.OceanOwn.move_assign_fails"], "note": "Proved by refinement to plain values for every program in which a move assignment's source has a model or its target has none. Otherwise the target keeps a pointer to freed memory (move_assign_fails)."},
{"property": "C45", "status": "proved", "theorems": ["Verif.PoleTide.solid_formula", "Verif.PoleTide.ocean_formula", "Verif.PoleTide.solid_zero_iff", "Verif.PoleTide.ocean_zero_iff", "Verif.PoleTide.superpose"], "note": ""},
{"property": "C46", "status": "partial", "theorems": ["Verif.PoleTide.ocean_coeffs_partial", "Verif.PoleTide.ocean_all_partial", "Verif.PoleTide.ocean_rejected", "Verif.PoleTide.make_wf", "Verif.PoleTide.ocean_360_fails", "Verif.PoleTide.ocean_default_fails", "Verif.PoleTide.ocean_stale_fails", "Verif.PoleTide.load_love"], "note": "holds for degrees below 360; degree 360 reads past the load Love numbers, coefficients left by an earlier call are scaled instead of cleared, a default object has no matrices"},
{"property": "C47", "status": "proved", "theorems": ["Verif.PoleTide.deformation_components", "Verif.PoleTide.frame_norm", "Verif.PoleTide.deformation_norm", "Verif.PoleTide.ocean_components"], "note": ""},
{"property": "C48", "status": "partial", "theorems": ["Verif.DesaiGrid.desai_grid_partial", "Verif.DesaiGrid.grid_sound_partial", "Verif.DesaiGrid.desai_longitude_fails", "Verif.DesaiGrid.desai_seam_fails"], "note": "bilinear interpolation proved at longitude + 180 degrees; the longitude is shifted, not wrapped, and cells across the seam are refused"},
{"property": "C49", "status": "partial", "theorems": ["Verif.Grid.grid_line", "Verif.Grid.grid_line_node", "Verif.Grid.grid_cell_exists", "Verif.Grid.grid_lines_distinct", "Verif.Grid.grid_node_partial", "Verif.Grid.grid_node_x", "Verif.Grid.grid_node_fails", "Verif.Grid.grid_negative_step_fails"], "note": "Line to node is wrong on non-square grids led by the x axis; descending axes are always out of range."},
{"property": "C50", "status": "partial", "theorems": ["Verif.Grid.surrounding_partial", "Verif.Grid.surrounding_x_partial", "Verif.Grid.surrounding_x_fails", "Verif.Grid.surrounding_edge_fails", "Verif.Grid.surrounding_outside_fails"], "note": "Right for inner cells of grids led by the y axis; the fourth corner is wrong on grids led by x, and points outside or in the last cells give wrong corners."},
{"property": "C51", "status": "proved", "theorems": ["Verif.SolidTide.anelastic_formula", "Verif.SolidTide.step1_formula", "Verif.SolidTide.step1_zonal"], "note": "Degrees 2, 3 (k_nm) and 4 (k+), against Rodrigues-defined normalised Legendre functions; exact reals; cartesian2spherical of the external library is a documented definition."},
{"property": "C52", "status": "proved", "theorems": ["Verif.SolidTide.step2_formula", "Verif.SolidTide.step2_bands", "Verif.SolidTide.table_published"], "note": "Sum over the 71 constituents for all arguments, in complex form; every row of the table belongs to a band."},
{"property": "C53", "status": "proved", "theorems": ["Verif.SolidTide.stokes_formula", "Verif.SolidTide.stokes_history", "Verif.SolidTide.stokes_last"], "note": "Every degree and order (all others zero), any history of calls on a constructed object with arbitrary memory."},
{"property": "C54", "status": "partial", "theorems": ["Verif.Alf.alf_value", "Verif.Alf.alf_latitude_partial", "Verif.Alf.value_latitude", "Verif.Alf.alf_exact_zero_fails", "Verif.Alf.alf_exact_fails", "Verif.Alf.alf_overflow_fails"], "note": "Proved for degree <= 1024 and a matrix with room for (order+1, order) and (1,1). Fails: a matrix that holds exactly the requested degrees is overrun when order = degree; degree >= 1025 overflows int."},
{"property": "C55", "status": "partial", "theorems": ["Verif.Alf.alfD_value_partial", "Verif.Alf.alfD_sign_fails"], "note": "The array holds minus the derivative with respect to the documented argument (the derivative with respect to colatitude), degree <= 1023."},
{"property": "C56", "status": "partial", "theorems": ["Verif.Cunningham.in_bounds_partial", "Verif.Cunningham.scratch_irrelevant", "Verif.Cunningham.junk_irrelevant", "Verif.Cunningham.exact_size_fails", "Verif.Cunningham.next_order_fails", "Verif.Cunningham.degree_limit"], "note": "Both work arrays stay in bounds for the sizes of Enough; with the arrays of degree+2 rows that the wrapper creates and accepts, order = degree and order = degree-1 run past the end. See also Verif.Alf.alf_value and alf_exact_fails under C54."},
{"property": "C57", "status": "partial", "theorems": ["Verif.Cunningham.acceleration_is_gradient_partial", "Verif.Cunningham.matrix_is_derivative_partial", "Verif.Cunningham.defaults", "Verif.Cunningham.order_zero", "Verif.Cunningham.order_zero_fails", "Verif.Cunningham.gradient_order_fails"], "note": "Exact arithmetic. Proved for orders 1..degree and degrees up to 198; order 0 includes the order 1 terms; the matrix is right only for order = degree."},
{"property": "C58", "status": "proved", "theorems": ["Verif.Cunningham.symmetric_traceless"], "note": "For all arguments."},
{"property": "C59", "status": "proved", "theorems": ["Verif.PointMass.same", "Verif.PointMass.centre", "Verif.PointMass.linear", "Verif.PointMass.additive", "Verif.PointMass.acc_gradient", "Verif.PointMass.jacobian", "Verif.PointMass.jacobian_harmonic"], "note": "The acceleration is the gradient of the tidal potential, the matrix its derivative, symmetric and traceless; exact reals."},
{"property": "C60", "status": "partial", "theorems": ["Verif.EarthRot.C_matrix", "Verif.EarthRot.C_pole", "Verif.EarthRot.Cq_eq", "Verif.EarthRot.bz_eq", "Verif.EarthRot.c2i06a_matrix", "Verif.EarthRot.rotations", "Verif.EarthRot.bz_agrees", "Verif.EarthRot.pq_agrees", "Verif.EarthRot.fail_together", "Verif.EarthRot.C_xy", "Verif.EarthRot.Crxy_close", "Verif.EarthRot.Crxy_fails"], "note": "Missing: the matrix form in X and Y is a rotation only at X = Y = 0 (Crxy_fails), within 3/8 r^6 of one elsewhere; no rotation outside the unit disc (fail_together)."},
{"property": "C61", "status": "proved", "theorems": ["Verif.EarthRot.dRdt_derivative", "Verif.EarthRot.derivative", "Verif.EarthRot.derivative_axis", "Verif.EarthRot.state_round_trip", "Verif.EarthRot.rate_first_order"], "note": "The other angles are held, as in the code."},
{"property": "C62", "status": "proved", "theorems": ["Verif.EarthRot.spherical_value", "Verif.EarthRot.spherical_outside", "Verif.EarthRot.spherical_spec", "Verif.EarthRot.C_pole"], "note": ""},
{"property": "C63", "status": "proved", "theorems": ["Verif.Kahan.kahan_exact", "Verif.Kahan.kahan_tracks", "Verif.Kahan.kahan_correctly_rounded", "Verif.Kahan.rn_nearest", "Verif.Kahan.kahan_accurate"], "note": "Rounding is an abstract round-to-nearest; rn_nearest shows one exists.  With rounding to nearest the result is the exact sum up to one rounding and an error of second order."},
{"property": "C64", "status": "partial", "theorems": ["Verif.Clock.clock_totals", "Verif.Clock.clock_average_partial", "Verif.Clock.clock_average_fails", "Verif.Clock.clock_no_sample_fails", "Verif.Clock.clock_copy", "Verif.Clock.clock_faster_partial", "Verif.Clock.clock_faster_fails", "Verif.Clock.clock_compare_partial", "Verif.Clock.clock_compare_fails"], "note": "The average is an integer division: the fraction is lost, with no sample it divides by zero, clocks within one microsecond compare as equal, and `compare` divides by zero for means below one microsecond."},
{"property": "C65", "status": "partial", "theorems": ["Verif.Fcn.fcn_amplitude", "Verif.Fcn.amplitude_unique", "Verif.Fcn.fcn_at_node", "Verif.Fcn.fcn_sigma_partial", "Verif.Fcn.fcn_sigma_fails", "Verif.Fcn.fcn_empty_fails", "Verif.Fcn.table52c_ok", "Verif.Fcn.table52c_dates"], "note": "Amplitudes proved for all tables and epochs; before the first epoch the uncertainty shrinks and becomes negative; an empty table is undefined behaviour. The table's dates are checked against the calendar."},
{"property": "C66", "status": "proved", "theorems": ["Verif.Fcn.lambert_file", "Verif.Fcn.lambert_file_sound"], "note": "Text level: a well-formed file is read exactly; status 0 implies that every line holds a record."},
{"property": "C67", "status": "proved", "theorems": ["Verif.Relativity.relativity_si"], "note": "Against eq. (10.12) of the IERS Conventions."},
{"property": "C68", "status": "proved", "theorems": ["Verif.Planets.planet_id", "Verif.Planets.planet_id_injective", "Verif.Planets.planet_idstr", "Verif.Planets.planet_idstr_small", "Verif.Planets.planet_idstr_fails"], "note": "Buffers of 3 characters (below the documented 4) are filled without a terminator."},
{"property": "C69", "status": "partial", "theorems": ["Verif.Planets.kernels_loaded_partial", "Verif.Planets.kernel_prefix_fails", "Verif.Planets.kernel_long_fails"], "note": "Names are compared by prefix, and only their first 127 characters."},
{"property": "C70", "status": "partial", "theorems": ["Verif.Doodson.get_wave_name", "Verif.Doodson.wave_name_partial", "Verif.Doodson.wave_name_fails"], "note": "names of 16 bytes or more are not terminated"},
{"property": "C71", "status": "partial", "theorems": ["Verif.Groops.atlas_parts", "Verif.Groops.atlas_alone_fails", "Verif.Groops.atlas_path_fails"], "note": "each wave once, each part from its own file; fails: a wave with one file only has uninitialised coefficients; a long path overflows"},
{"property": "C72", "status": "partial", "theorems": ["Verif.Groops.fileList_partial", "Verif.Groops.fileList_long_fails", "Verif.Groops.doodson_rows_partial", "Verif.Groops.doodson_sound_partial", "Verif.Groops.doodson_long_fails"], "note": "complete for lines that fit the buffer; fails: a longer line ends the reading silently"},
{"property": "C73", "status": "partial", "theorems": ["Verif.Icgem.Head.header_read_partial", "Verif.Icgem.Head.header_sound", "Verif.Icgem.Head.header_unterminated", "Verif.Icgem.Head.header_defined_partial", "Verif.Icgem.Head.file_read1_partial", "Verif.Icgem.Head.file_read2_partial", "Verif.Icgem.Head.sample_read", "Verif.Icgem.Head.header_overflow_fails", "Verif.Icgem.Head.header_name_fails", "Verif.Icgem.Head.header_comment_fails", "Verif.Icgem.Head.header_exponent_fails", "Verif.Icgem.Head.header_mandatory_fails", "Verif.Icgem.Head.header_crlf_fails", "Verif.Icgem.Head.header_tab_fails", "Verif.Icgem.Head.header_unreadable"], "note": "Missing: comments that begin with the letters of a keyword, texts longer than the members (both overrun or are misread), Fortran exponents, mandatory keywords."},
{"property": "C74", "status": "partial", "theorems": ["Verif.PoleTide.desai_complete_partial", "Verif.PoleTide.desai_sound_partial", "Verif.PoleTide.desai_triangle_fails"], "note": "lines with m > l are stored instead of rejected"},
{"property": "C75", "status": "proved", "theorems": ["Verif.SolidTide.site_step1", "Verif.SolidTide.site_step2", "Verif.SolidTide.site_bands", "Verif.SolidTide.displacement_formula"], "note": "Exact reals; all sites other than the geocentre."},
{"property": "C76", "status": "proved", "theorems": ["Verif.EopTides.zonal_turns", "Verif.EopTides.zonal_lod", "Verif.EopTides.zonal_omega", "Verif.EopTides.zonal_sources"], "note": "62-row table; rates from the Conventions' polynomials; exact real arithmetic"},
{"property": "C77", "status": "partial", "theorems": ["Verif.EopTides.libration_pole", "Verif.EopTides.libration_ut1_partial", "Verif.EopTides.libration_close_partial", "Verif.EopTides.libration_ut1_fails", "Verif.EopTides.libration_no_long"], "note": "polar motion is PMSDNUT2 exactly; three UT1/LOD amplitudes differ from UTLIBR, and the exact differences are proved"},
{"property": "C78", "status": "partial", "theorems": ["Verif.EopTides.ocean_lod", "Verif.EopTides.libration_lod", "Verif.EopTides.rows_within_rounding_partial", "Verif.EopTides.m2_row_fails"], "note": "total bounds 6.1 and 0.9 microseconds; every row but M2 of the ocean table is within rounding"},
{"property": "C79", "status": "partial", "theorems": ["Verif.Cip.merged_series", "Verif.Cip.cip_coordinates", "Verif.Cip.outargs_correct", "Verif.Cip.y_series", "Verif.Cip.x_series_partial", "Verif.Cip.extra_close_partial", "Verif.Cip.extra_x_fails"], "note": "proved for xycip06a and for Y of extra::xycip06a; X of extra::xycip06a is off by 0.01 t cos Omega microarcseconds (a truncated amplitude), proved exactly."},
{"property": "C80", "status": "proved", "theorems": ["Verif.Cip.cio_locator", "Verif.Cip.cio_from_cip"], "note": "exact real arithmetic."},
{"property": "C81", "status": "proved", "theorems": ["Verif.EarthRot.gcrs_to_itrs", "Verif.EarthRot.four_agree", "Verif.EarthRot.pole_direction", "Verif.EarthRot.rate_of_rotation"], "note": "The conversion TT to UT1 of the datetime library is a parameter; dX, dY up to a degree and ten centuries are far beyond any use."},
{"property": "C82", "status": "partial", "theorems": ["Verif.Aod1b.Head.header_read_partial", "Verif.Aod1b.Head.tidal_file_read_partial", "Verif.Aod1b.Head.header_sound", "Verif.Aod1b.Head.sample_read", "Verif.Aod1b.Head.text_empty_fails", "Verif.Aod1b.Head.text_long_fails", "Verif.Aod1b.Head.radius_column_fails", "Verif.Aod1b.Head.colon_missing_fails", "Verif.Aod1b.Head.wave_unknown_fails", "Verif.Aod1b.Head.header_incomplete_fails", "Verif.Aod1b.Head.header_crlf_fails", "Verif.Aod1b.Head.date_bad_fails"], "note": "Missing: empty and overlong texts, lines without a colon, the radius with its colon before column 22, unknown tides (undefined behaviour), missing keys (uninitialised), carriage returns and unreadable dates (the program ends)."},
{"property": "C83", "status": "partial", "theorems": ["Verif.Planets.planet_position", "Verif.Planets.planet_position_velocity", "Verif.Planets.planet_pos_state", "Verif.Planets.earth_at_origin", "Verif.Planets.planet_velocity_is_rate", "Verif.Planets.planet_no_data_partial", "Verif.Planets.planet_no_data_fails"], "note": "Missing: with the CSPICE error action RETURN a failed request uses uninitialised numbers and reports success."},
{"property": "C84", "status": "partial", "theorems": ["Verif.Planets.gm_of_kernel_partial", "Verif.Planets.gm_of_pool", "Verif.Planets.gm_overridden_fails", "Verif.Planets.gm_prefix_fails", "Verif.Planets.gm_missing_fails"], "note": "Missing: kernels loaded earlier and overridden since, kernels whose name begins another loaded name, kernels without the constants under the error action RETURN."},
{"property": "C85", "status": "partial", "theorems": ["Verif.Aod1b.stream_archive_partial", "Verif.Aod1b.stream_archive_history", "Verif.Aod1b.archive_bare_fails", "Verif.Aod1b.archive_long_fails"], "note": "The property is proved for queries that go forward, one data set at a time; any other queries are answered or refused exactly as a small machine on data sets says (stream_archive_history), which is not always by interpolation between neighbours (see C35). Missing: a first file given without a directory and directories of more than 229 characters (undefined behaviour, proved)."},
{"property": "C86", "status": "partial", "theorems": ["Verif.Aod1b.Own.stream_lifetimes_partial", "Verif.Aod1b.Own.stream_moves_fails", "Verif.Aod1b.Own.stream_moved_to_fails", "Verif.Aod1b.Own.stream_assign_leak_fails"], "note": "Proved for all programs without moves. For programs with moves the property is false, and this is proved for every such program: an object is left whose destructor dereferences a null pointer."},
{"property": "C87", "status": "proved", "theorems": ["Verif.Aod1b.Copy.header_copied", "Verif.Aod1b.Copy.header_moved", "Verif.Aod1b.Copy.header_assigned", "Verif.Aod1b.Copy.header_move_assigned"], "note": ""},
{"property": "C88", "status": "partial", "theorems": ["Verif.Groops.stored_ocean_partial", "Verif.Groops.stored_admittance_partial", "Verif.Groops.stored_degree_fails", "Verif.Groops.stored_sizes_fails", "Verif.Groops.stored_name_fails"], "note": "The model is made and gives the documented sums whenever the files are well formed, are all read to the same degree and one cosine file has a record of that degree. Otherwise: an assertion stops the program at the first evaluation although the model was made (stored_degree_fails, stored_sizes_fails), a long model name overflows a buffer (stored_name_fails)."},
{"property": "C89", "status": "partial", "theorems": ["Verif.Merge.merge_two_partial", "Verif.Merge.merge_three_fails", "Verif.Merge.merged_unreadable_fails", "Verif.Merge.merge_overwrites_fails", "Verif.Merge.merge_reversed_fails"], "note": "Proved for two files in either order. Three or more files are never merged (no run succeeds, whatever the files); the merged file has no end of header, so the library refuses it; a name without .asc is overwritten.  The method merge on its own keeps the first epoch of the later file when called on the later object (merge_reversed_fails)."},
{"property": "C90", "status": "partial", "theorems": ["Verif.Costg.bench_rows", "Verif.Costg.bench_long", "Verif.Costg.bench_accelerations", "Verif.Costg.bench_orbit", "Verif.Costg.bench_rotations", "Verif.Costg.bench_eops", "Verif.Costg.compare_all", "Verif.Costg.compare_stops", "Verif.Costg.check_sun_partial", "Verif.Costg.check_moon_partial", "Verif.Costg.check_relativity_partial", "Verif.Costg.check_body_mismatch", "Verif.Costg.check_pole_partial", "Verif.Costg.check_ocean_pole_partial", "Verif.Costg.compare_short_fails", "Verif.Costg.check_pole_short_fails", "Verif.Costg.check_ocean_pole_time_fails", "Verif.Costg.basename_partial", "Verif.Costg.basename_fails", "Verif.Costg.accept_sun_partial", "Verif.Costg.accept_moon_partial", "Verif.Costg.accept_relativity_partial", "Verif.Costg.accept_pole_partial", "Verif.Costg.accept_ocean_pole_partial", "Verif.Costg.compareTol_success", "Verif.Costg.check_body_success", "Verif.Costg.accept_body_success", "Verif.Costg.check_relativity_success", "Verif.Costg.accept_relativity_success", "Verif.Costg.accept_pole_success", "Verif.Costg.accept_ocean_pole_success"], "note": "Proved: the four readers return exactly the rows; the programs for Sun, Moon, relativity, pole tide and ocean pole tide succeed with the specified lines when the orbit's epochs are the first of the other files, and stop with status 1 at the first benchmark epoch that differs. The code violates the rest: with fewer rows in another file than in the orbit it reads behind the end (compare_short_fails, check_pole_short_fails), the ocean pole tide is computed for the date in GPS time instead of TT (check_ocean_pole_time_fails), and the title drops the first letter of a name without directory (basename_fails). The tests of test/costg_benchmark accept exactly what is within the tolerance (accept_*_partial, compareTol_success). The other programs are C94 to C98.      "},
{"property": "C91", "status": "proved", "theorems": ["Verif.Stokes.value_read", "Verif.Stokes.value_step", "Verif.Stokes.value_run", "Verif.Stokes.value_init"], "note": "All legal programs. GM, radius and normalisation flag are not part of the state with memory. Default-constructed and moved-from sets are outside (C10)."},
{"property": "C92", "status": "partial", "theorems": ["Verif.Rounding.anp_rounded", "Verif.Rounding.anp_rounded_fails", "Verif.Rounding.era00_rounded", "Verif.Rounding.gmst_rounded", "Verif.Rounding.delaunay_rounded", "Verif.RoundedCip.args_rounded", "Verif.Rounding.doodson_rounded", "Verif.Rounding.argument_rounded", "Verif.RoundedCip.cip_rounded", "Verif.Rounding.gmst82_rounded"], "note": "All error bounds are proved. The range fails: a small negative angle is normalised to 2pi itself (anp_rounded_fails), so only [0, 2pi] holds (anp_rounded). The exponent range of double is not modelled; days, centuries and sec2rad of the external libraries are assumed accurate to a few units in the last place. ; gmst82 likewise"},
{"property": "C93", "status": "partial", "theorems": ["Verif.Groops.ocean_force", "Verif.Groops.ocean_force_partial", "Verif.Groops.admittance_force_partial", "Verif.Groops.ocean_force_fails"], "note": "The model keeps the constants of the Conventions instead of those of the files: right if they agree, otherwise scaled (ocean_force_fails). Missing: files with different constants, degrees over 198, files that lack the largest order."},
{"property": "C94", "status": "partial", "theorems": ["Verif.Costg.check_fes_partial", "Verif.Costg.check_eot_partial", "Verif.Costg.check_fes_admittance_partial", "Verif.Costg.check_eot_admittance_partial", "Verif.Costg.check_empty_fails", "Verif.Costg.check_short_fails", "Verif.Costg.check_late_fails", "Verif.Costg.check_tide_success"], "note": "Missing: files with other constants than the Conventions (ocean_force_fails), an empty orbit, rows missing in a table and epochs the Earth orientation does not reach (proved to fail), degrees over 180, rounding. "},
{"property": "C95", "status": "partial", "theorems": ["Verif.Costg.check_field_partial", "Verif.Costg.check_field_itrf_partial", "Verif.Costg.check_field_degree", "Verif.Costg.check_field_rejects", "Verif.Costg.check_field_empty_fails", "Verif.Costg.check_field_short_fails", "Verif.Costg.check_field_success", "Verif.Costg.check_field_itrf_success"], "note": "Proved for models of both ICGEM versions and orbits with rows for every epoch in the other tables. Missing: rows missing in a table and empty orbits, where the programs read behind the end of a vector (negations proved). Arithmetic on exact reals.  "},
{"property": "C96", "status": "partial", "theorems": ["Verif.Costg.check_atm_partial", "Verif.Costg.check_atm_s1_partial", "Verif.Costg.check_atm_rejects", "Verif.Costg.check_atm_constants_fails", "Verif.Costg.check_empty_fails", "Verif.Costg.check_tide_success", "Verif.Costg.appendAll_success"], "note": "Proved for tidal files of degree 180 with the constants of the Conventions and orbits with rows for every epoch in the other tables. Missing: files with other constants (negation proved), empty orbits (negation) and missing rows. Arithmetic on exact reals.  "},
{"property": "C97", "status": "partial", "theorems": ["Verif.Costg.check_solid_partial", "Verif.Costg.check_solid_empty_fails", "Verif.Costg.check_solid_short_fails", "Verif.Costg.check_solid_late_fails", "Verif.Costg.check_solid_success"], "note": "Exact arithmetic; CSPICE as documented. Fails: an empty orbit, tables with fewer rows than the orbit, epochs after the Earth orientation read. "},
{"property": "C98", "status": "partial", "theorems": ["Verif.Costg.check_aod_partial", "Verif.Costg.check_aod_history", "Verif.Costg.check_aod_short_fails", "Verif.Costg.check_aod_degree_fails", "Verif.Costg.check_aod_empty", "Verif.Costg.check_aod_success", "Verif.Costg.check_aod_covered"], "note": "Proved as stated for orbits that go forward, one data set at a time; for every other orbit check_aod_history says which data sets serve each row and when the program stops with status 1 (see C35). The program fails on missing rows and on files of a degree below 180."},
{"property": "C99", "status": "partial", "theorems": ["Verif.Orient.interpolated_at", "Verif.Orient.oriented_at", "Verif.Orient.oriented_outside", "Verif.Orient.orientation_unique", "Verif.Orient.check_eops_partial", "Verif.Orient.check_eops_window_fails", "Verif.Orient.check_eops_empty_fails", "Verif.Orient.check_eops_blind_fails", "Verif.Orient.check_eops_linear_fails", "Verif.Orient.check_ref_partial", "Verif.Orient.check_ref_daily_partial", "Verif.Orient.check_ref_none", "Verif.Orient.check_ref_long_fails", "Verif.Orient.check_c2i_partial", "Verif.Orient.check_c2i_mismatch", "Verif.Orient.check_c2i_short_fails", "Verif.Orient.check_c2i_empty_fails", "Verif.Orient.check_c2i_ut1_fails", "Verif.Orient.check_c2i_velocity_fails", "Verif.Orient.eop_example_fails", "Verif.Orient.eop_example_count", "Verif.Orient.check_ref_success", "Verif.Orient.check_ref_outside", "Verif.Orient.check_c2i_success"], "note": "Exact numbers. \u0394AT and the time scales of the library datetime are parameters. tcheck_eops accepts exactly the tables that agree to its tolerances if their epochs lie within the records it reads; negations for what it does not read or check. i2c_astropy likewise; check_c2i uses UT1 without zonal tides and a wrong sign in the velocity; the example program never ends. Rotation of the Conventions for CIP corrections below a degree.   "}
]}
