# Axioms each claimed theorem depends on

Output of `#print axioms` for every theorem named in `MANIFEST.json`, grouped by the set of axioms.
(`propext`, `Classical.choice` and `Quot.sound` are the standard axioms of Lean; there are no others.)

## no axioms (7 theorems)

* `Verif.Doodson.doodson_str_overflow_fails`
* `Verif.Clock.clock_average_fails`
* `Verif.Clock.clock_no_sample_fails`
* `Verif.Clock.clock_copy`
* `Verif.Clock.clock_faster_fails`
* `Verif.Planets.planet_id`
* `Verif.Planets.planet_id_injective`

## propext (12 theorems)

* `Verif.Matrix.matrix_no_leak_fails`
* `Verif.Matrix.matrix_self_move_fails`
* `Verif.MatrixExpr.expr_addAssign_abort`
* `Verif.Stokes.stokes_add_fails`
* `Verif.Stokes.stokes_construct`
* `Verif.Stokes.stokes_default_fails`
* `Verif.Stokes.stokes_moved_from_fails`
* `Verif.Stokes.stokes_scale_fails`
* `Verif.Aod1b.release_no_dir_fails`
* `Verif.Groops.fileList_long_fails`
* `Verif.Costg.basename_fails`
* `Verif.Stokes.value_init`

## Quot.sound, propext (38 theorems)

* `Verif.Storage.make_wf`
* `Verif.Storage.make_ok`
* `Verif.Matrix.matrix_self_copy_assign`
* `Verif.MatrixKept.kept_abort`
* `Verif.EopThreads.race_fails`
* `Verif.EopThreads.crash_fails`
* `Verif.Doodson.doodson_parse_defined`
* `Verif.Doodson.doodson_range_fails`
* `Verif.Doodson.atmospheric_unambiguous`
* `Verif.Doodson.find_wave_entry_iff`
* `Verif.Doodson.match_ocean_doodson_fails`
* `Verif.Doodson.iers10_fails`
* `Verif.Doodson.iers10_short_fails`
* `Verif.Eop.eop_copy_fails`
* `Verif.Eop.eop_empty_fails`
* `Verif.Groops.validate_duplicates`
* `Verif.Groops.validate_alone_fails`
* `Verif.Groops.validate_case_fails`
* `Verif.Groops.validate_text_fails`
* `Verif.OceanOwn.ownership_partial`
* `Verif.OceanOwn.move_assign_fails`
* `Verif.Planets.planet_idstr`
* `Verif.Planets.planet_idstr_small`
* `Verif.Planets.planet_idstr_fails`
* `Verif.Planets.kernel_prefix_fails`
* `Verif.Planets.kernel_long_fails`
* `Verif.Doodson.wave_name_partial`
* `Verif.Doodson.wave_name_fails`
* `Verif.Groops.fileList_partial`
* `Verif.EopTides.libration_no_long`
* `Verif.Aod1b.Own.stream_moves_fails`
* `Verif.Aod1b.Own.stream_moved_to_fails`
* `Verif.Aod1b.Own.stream_assign_leak_fails`
* `Verif.Aod1b.Copy.header_copied`
* `Verif.Aod1b.Copy.header_moved`
* `Verif.Aod1b.Copy.header_assigned`
* `Verif.Aod1b.Copy.header_move_assigned`
* `Verif.Costg.basename_partial`

## Classical.choice, Quot.sound, propext (634 theorems)

* `Verif.Storage.index_in_bounds`
* `Verif.Storage.index_injective`
* `Verif.Storage.index_bijective`
* `Verif.Storage.slices_tile`
* `Verif.Storage.slice_elements`
* `Verif.Matrix.matrix_last_write`
* `Verif.Matrix.matrix_reach_memOk`
* `Verif.Matrix.matrix_step_defined`
* `Verif.Matrix.matrix_read_defined`
* `Verif.Matrix.matrix_step_frame`
* `Verif.Matrix.matrix_no_leak_partial`
* `Verif.Matrix.matrix_all_freed_partial`
* `Verif.Matrix.matrix_destroy_ok`
* `Verif.Matrix.matrix_cresize_keeps`
* `Verif.Matrix.matrix_resize_shape`
* `Verif.Matrix.matrix_copy_ctor`
* `Verif.Matrix.matrix_copy_assign`
* `Verif.Matrix.matrix_move`
* `Verif.Matrix.matrix_swap`
* `Verif.Matrix.matrix_copies_independent`
* `Verif.Matrix.matrix_fill_multiply`
* `Verif.MatrixExpr.expr_addAssign`
* `Verif.MatrixExpr.expr_construct`
* `Verif.Stokes.stokes_add_partial`
* `Verif.Stokes.stokes_consistent_partial`
* `Verif.Stokes.stokes_coeff_defined`
* `Verif.Stokes.stokes_step_defined`
* `Verif.Stokes.stokes_shrink`
* `Verif.Stokes.stokes_cresize_keeps`
* `Verif.PoleExample.pole_example_partial`
* `Verif.PoleExample.pole_unique`
* `Verif.PoleExample.pole_example_fails`
* `Verif.PoleExample.pole_example_no_grid`
* `Verif.PoleExample.pole_example_no_eop`
* `Verif.PoleExample.pole_example_outside`
* `Verif.PoleExample.pole_example_empty_fails`
* `Verif.SolidTide.declared_order_partial`
* `Verif.SolidTide.documented_order`
* `Verif.SolidTide.documented_order_stokes`
* `Verif.SolidTide.documented_order_fails`
* `Verif.MatrixKept.kept_partial`
* `Verif.MatrixKept.kept_nested_fails`
* `Verif.EopThreads.serially_partial`
* `Verif.EopThreads.own_partial`
* `Verif.EopThreads.own_ends`
* `Verif.EopThreads.mixed_fails`
* `Verif.EopThreads.extrapolated_fails`
* `Verif.GetAod1b.fetch_partial`
* `Verif.GetAod1b.stopped_states`
* `Verif.GetAod1b.repeated_partial`
* `Verif.GetAod1b.truncated_fails`
* `Verif.GetAod1b.missing_fails`
* `Verif.GetAod1b.stuck_fails`
* `Verif.GetAod1b.tidal_fails`
* `Verif.GetAod1b.archive_fetched`
* `Verif.GetAod1b.status_zero`
* `Verif.GetAod1b.no_directory`
* `Verif.RoundedGcrs.cio_rounded`
* `Verif.RoundedGcrs.tio_rounded`
* `Verif.RoundedGcrs.gcrs_to_itrs_rounded`
* `Verif.RoundedGcrs.position_rounded`
* `Verif.RoundedGcrs.product_ok`
* `Verif.RoundedPoint.acc_rounded`
* `Verif.RoundedPoint.accJ_same`
* `Verif.RoundedPoint.jacobian_rounded`
* `Verif.RoundedPoint.centre_rounded`
* `Verif.RoundedPoint.squares_ok`
* `Verif.RoundedEop.interpolate_rounded`
* `Verif.RoundedEop.interpolate_window`
* `Verif.RoundedEop.daily_rounded`
* `Verif.RoundedEop.rounded_difference`
* `Verif.RoundedEop.daily_size`
* `Verif.TideName.names_partial`
* `Verif.TideName.groops_name`
* `Verif.TideName.name_long_fails`
* `Verif.TideName.groops_long_fails`
* `Verif.RoundedRelativity.relativity_rounded`
* `Verif.RoundedRelativity.relativity_default`
* `Verif.RoundedRelativity.dots_ok`
* `Verif.Stokes.anm_cells_distinct`
* `Verif.Stokes.stokes_to_anm`
* `Verif.Stokes.stokes_anm_roundtrip`
* `Verif.Stokes.stokes_from_to_anm`
* `Verif.RoundedEopTides.zonal_any`
* `Verif.RoundedEopTides.zonal_rounded`
* `Verif.RoundedEopTides.libration_rounded`
* `Verif.RoundedEopTides.ocean_rounded`
* `Verif.RoundedEopTides.libration_pmsdnut2`
* `Verif.RoundedEopTides.regularize_rounded`
* `Verif.RoundedEopTides.regularize_back`
* `Verif.RoundedTides.pole_rounded`
* `Verif.RoundedTides.deformation_rounded`
* `Verif.RoundedTides.stokes_rounded`
* `Verif.RoundedTides.earth_rounded`
* `Verif.RoundedSite.displacement_rounded`
* `Verif.RoundedSite.site_rounded`
* `Verif.RoundedAtlas.ocean_rounded`
* `Verif.RoundedAtlas.atm_rounded`
* `Verif.RoundedAtlas.admittance_rounded`
* `Verif.RoundedAtlas.sizes_rounded`
* `Verif.RoundedAtlas.sequential_inner`
* `Verif.RoundedOceanPole.ocean_rounded`
* `Verif.RoundedOceanPole.ocean_rejected`
* `Verif.RoundedOceanPole.deformation_rounded`
* `Verif.RoundedIcgem.icgem1_rounded`
* `Verif.RoundedIcgem.icgem1_rounded_sound`
* `Verif.RoundedIcgem.icgem2_rounded`
* `Verif.RoundedIcgem.icgem2_rounded_sound`
* `Verif.RoundedAod1b.stream_rounded`
* `Verif.RoundedAod1b.stream_rounded_file`
* `Verif.RoundedAod1b.stream_rounded_same`
* `Verif.RoundedGrid.desai_rounded_partial`
* `Verif.RoundedGrid.line_rounded`
* `Verif.RoundedGrid.surrounding_rounded`
* `Verif.RoundedGrid.grid_rounded_outside_fails`
* `Verif.RoundedGrid.desai_rounded_fails`
* `Verif.RoundedFcn.fcn_rounded`
* `Verif.RoundedFcn.sigma_rounded`
* `Verif.RoundedGcrs.closed_form_rounded`
* `Verif.RoundedGcrs.forms_agree_rounded`
* `Verif.RoundedGcrs.parts_rounded`
* `Verif.RoundedGcrs.derivative_rounded`
* `Verif.RoundedGcrs.forms_agree_tight`
* `Verif.Stokes.stokes_clear`
* `Verif.Stokes.stokes_scale_partial`
* `Verif.Stokes.stokes_scale_scale`
* `Verif.RoundedGcrs.celestial_rounded`
* `Verif.RoundedGcrs.celestial_series_rounded`
* `Verif.RoundedOrient.orientation_history`
* `Verif.RoundedOrient.orientation_inside`
* `Verif.RoundedOrient.orientation_rounded`
* `Verif.RoundedOrient.record_rounded`
* `Verif.RoundedOrient.approx_dut1_rounded`
* `Verif.RoundedOrient.orientation_outside`
* `Verif.RoundedState.state_rounded`
* `Verif.RoundedState.state_round_trip`
* `Verif.RoundedState.transformVector_ok`
* `Verif.RoundedState.mulVec_ok`
* `Verif.RoundedState.state_parts_rounded`
* `Verif.RoundedState.round_trip_tight`
* `Verif.RoundedState.states_agree_tight`
* `Verif.RoundedOptions.options_inside`
* `Verif.RoundedOptions.options_outside`
* `Verif.RoundedOptions.options_history`
* `Verif.RoundedOptions.raw_inside`
* `Verif.RoundedOptions.options_raw`
* `Verif.RoundedOptions.truth_unique`
* `Verif.RoundedOptions.check_rows`
* `Verif.RoundedOptions.check_accepts`
* `Verif.RoundedOptions.check_rejects`
* `Verif.RoundedEops.line_inside`
* `Verif.RoundedEops.line_outside`
* `Verif.RoundedEops.interpolate_old`
* `Verif.RoundedEops.orientation_unique`
* `Verif.RoundedEops.accepts_margin`
* `Verif.RoundedEops.eops_rows`
* `Verif.RoundedEops.eops_accepts`
* `Verif.RoundedEops.eops_rejects`
* `Verif.RoundedSofa.era00_drawn`
* `Verif.RoundedSofa.gmst_drawn`
* `Verif.RoundedSofa.era_check_partial`
* `Verif.RoundedSofa.era_check_sound`
* `Verif.RoundedSofa.era_check_wrap_fails`
* `Verif.RoundedSofa.sp_check`
* `Verif.RoundedSofa.sp_check_sound`
* `Verif.RoundedSofa.gmst_check_partial`
* `Verif.RoundedSofa.gmst_check_j2000_fails`
* `Verif.RoundedSeries.extra_rounded_partial`
* `Verif.RoundedSeries.extra_x_partial`
* `Verif.RoundedSeries.extra_x_rounded_fails`
* `Verif.RoundedSeries.agree_of_close`
* `Verif.RoundedSeries.close_of_agree`
* `Verif.RoundedSeries.xy_check`
* `Verif.RoundedSeries.xy_check_sound`
* `Verif.RoundedSeries.xy_check_rejects`
* `Verif.LibrationCheck.libration_routines`
* `Verif.LibrationCheck.libration_check`
* `Verif.LibrationCheck.libration_check_rejects`
* `Verif.LibrationCheck.libration_check_sound_partial`
* `Verif.LibrationCheck.libration_check_unreadable`
* `Verif.LibrationCheck.libration_check_fails`
* `Verif.LibrationCheck.libration_check_no_file`
* `Verif.LibrationCheck.libration_check_lines_partial`
* `Verif.OceanCheck.ocean_variation`
* `Verif.OceanCheck.ocean_check`
* `Verif.OceanCheck.ocean_check_unreadable`
* `Verif.OceanCheck.ocean_check_fails`
* `Verif.OceanCheck.ocean_check_no_file`
* `Verif.OceanCheck.ocean_check_lines_partial`
* `Verif.Doodson.doodson_str_renders`
* `Verif.Doodson.doodson_parse_renders`
* `Verif.Doodson.doodson_roundtrip`
* `Verif.Doodson.doodson_parse_accepts`
* `Verif.ZonalCheck.zonal_values`
* `Verif.ZonalCheck.zonal_check`
* `Verif.ZonalCheck.zonal_check_unreadable`
* `Verif.ZonalCheck.zonal_check_fails`
* `Verif.ZonalCheck.zonal_check_no_file`
* `Verif.ZonalCheck.zonal_check_lines_partial`
* `Verif.RegularizeCheck.regularize_check`
* `Verif.RegularizeCheck.regularize_check_count`
* `Verif.RegularizeCheck.regularize_check_passes`
* `Verif.RegularizeCheck.removed_assertions`
* `Verif.RegularizeCheck.restored_assertions`
* `Verif.EdgesCheck.edges_check`
* `Verif.EdgesCheck.edges_check_count`
* `Verif.EdgesCheck.edges_check_fails`
* `Verif.CountCheck.count_check`
* `Verif.CountCheck.count_check_days`
* `Verif.CountCheck.count_check_no_file`
* `Verif.Doodson.doodson_roundtrip_iff_partial`
* `Verif.Doodson.doodson_str_injective`
* `Verif.Angle.doodson_argument`
* `Verif.Angle.delaunay_relations`
* `Verif.Angle.argument_either_basis`
* `Verif.Doodson.oceanic_unambiguous`
* `Verif.Doodson.match_ocean_name_iff`
* `Verif.Doodson.match_ocean_doodson_iff_partial`
* `Verif.Doodson.iers10_digits`
* `Verif.Doodson.iers10_agrees`
* `Verif.Doodson.iers10_accepts_partial`
* `Verif.Eop.eop_prior`
* `Verif.Eop.eop_later`
* `Verif.Eop.eop_inside`
* `Verif.Eop.eop_history`
* `Verif.Eop.eop_poly_exact`
* `Verif.Eop.eop_at_node_partial`
* `Verif.Eop.eop_rates_fails`
* `Verif.Eop.eop_leap`
* `Verif.Eop.approx_dut1_spec`
* `Verif.Eop.eop_status_outside`
* `Verif.Eop.eop_degree0_fails`
* `Verif.Eop.regularize_inverse`
* `Verif.Eop.regularize_values`
* `Verif.Eop.regularize_twice`
* `Verif.Eop.approx_dut1_agrees`
* `Verif.Eop.c0414_complete`
* `Verif.Eop.c0420_complete`
* `Verif.Eop.parseC04_complete`
* `Verif.Eop.c0414_sound`
* `Verif.Eop.c0420_sound`
* `Verif.Eop.choose_c04`
* `Verif.Eop.parse_empty_interval`
* `Verif.Eop.parse_no_file`
* `Verif.Eop.c04_short_line_fails`
* `Verif.Angle.era00_correct`
* `Verif.Angle.gmst_correct`
* `Verif.Angle.gmst82_correct`
* `Verif.Angle.delaunay_correct_partial`
* `Verif.Angle.delaunay_range`
* `Verif.Angle.planet_longitudes_partial`
* `Verif.Angle.faom03_range_fails`
* `Verif.Angle.fundarg_rates_partial`
* `Verif.Angle.fundarg_rate_fails`
* `Verif.Angle.dfaf03_epoch_fails`
* `Verif.Angle.dgmst_fails`
* `Verif.Angle.dgmst_value`
* `Verif.Rounding.dgmst_rounded_fails`
* `Verif.Icgem.icgem1_read_partial`
* `Verif.Icgem.icgem1_sound`
* `Verif.Icgem.icgem2_read`
* `Verif.Icgem.icgem2_sound`
* `Verif.Icgem.icgem_order_fails`
* `Verif.Icgem.icgem_missing_column_fails`
* `Verif.Icgem.icgem_no_oob_partial`
* `Verif.Icgem.icgem_bad_request`
* `Verif.Icgem.icgem_bad_index_fails`
* `Verif.Icgem.icgem_unknown_line_fails`
* `Verif.Icgem.icgem_reject_modifies_fails`
* `Verif.Icgem.icgem1_fortran_partial`
* `Verif.Icgem.icgem_fortran_fails`
* `Verif.Aod1b.release_round_trip_partial`
* `Verif.Aod1b.filename_gz_fails`
* `Verif.Aod1b.collect_complete`
* `Verif.Aod1b.collect_resize_complete`
* `Verif.Aod1b.collect_sound`
* `Verif.Aod1b.goto_next_partial`
* `Verif.Aod1b.goto_begin_partial`
* `Verif.Aod1b.goto_fails`
* `Verif.Aod1b.stream_interpolates_partial`
* `Verif.Aod1b.stream_files_partial`
* `Verif.Aod1b.interpolated_at_epoch`
* `Verif.Aod1b.stream_three_fails`
* `Verif.Aod1b.stream_jump`
* `Verif.Aod1b.stream_jump_fails`
* `Verif.Aod1b.stream_history`
* `Verif.Aod1b.stream_history_partial`
* `Verif.Aod1b.stream_series_partial`
* `Verif.Aod1b.stream_exact_fails`
* `Verif.Aod1b.stream_gap`
* `Verif.Aod1b.stream_gap_fails`
* `Verif.Aod1b.stream_marked`
* `Verif.Aod1b.stream_marked_fails`
* `Verif.Aod1b.tidal_complete`
* `Verif.Aod1b.tidal_sound_partial`
* `Verif.Aod1b.tidal_trailing_fails`
* `Verif.Aod1b.tidal_empty_fails`
* `Verif.Tide.append_rejected`
* `Verif.Tide.append_accepted`
* `Verif.Tide.append_new`
* `Verif.Tide.atlas_distinct`
* `Verif.Tide.atlas_find`
* `Verif.Tide.atm_duplicate_fails`
* `Verif.Tide.ocean_sum_partial`
* `Verif.Tide.atm_sum_partial`
* `Verif.Tide.ocean_model_partial`
* `Verif.Tide.atm_model_partial`
* `Verif.Tide.ocean_degrees_fails`
* `Verif.Tide.atm_container_partial`
* `Verif.Tide.atm_container_fails`
* `Verif.Tide.admittance_sum_partial`
* `Verif.Tide.admittance_linear`
* `Verif.Tide.admittance_rows_fails`
* `Verif.Groops.names_partial`
* `Verif.Groops.parse_complete`
* `Verif.Groops.parse_sound`
* `Verif.Groops.names_sincos_fails`
* `Verif.Groops.names_long_fails`
* `Verif.Groops.validate_partial`
* `Verif.Groops.validate_full_fails`
* `Verif.Groops.admittance_complete`
* `Verif.Groops.admittance_sound_partial`
* `Verif.Groops.admittance_short_fails`
* `Verif.Groops.admittance_extra_fails`
* `Verif.Groops.admittance_columns_fails`
* `Verif.PoleTide.solid_formula`
* `Verif.PoleTide.ocean_formula`
* `Verif.PoleTide.solid_zero_iff`
* `Verif.PoleTide.ocean_zero_iff`
* `Verif.PoleTide.superpose`
* `Verif.PoleTide.ocean_coeffs_partial`
* `Verif.PoleTide.ocean_all_partial`
* `Verif.PoleTide.ocean_rejected`
* `Verif.PoleTide.make_wf`
* `Verif.PoleTide.ocean_360_fails`
* `Verif.PoleTide.ocean_default_fails`
* `Verif.PoleTide.ocean_stale_fails`
* `Verif.PoleTide.load_love`
* `Verif.PoleTide.deformation_components`
* `Verif.PoleTide.frame_norm`
* `Verif.PoleTide.deformation_norm`
* `Verif.PoleTide.ocean_components`
* `Verif.DesaiGrid.desai_grid_partial`
* `Verif.DesaiGrid.grid_sound_partial`
* `Verif.DesaiGrid.desai_longitude_fails`
* `Verif.DesaiGrid.desai_seam_fails`
* `Verif.Grid.grid_line`
* `Verif.Grid.grid_line_node`
* `Verif.Grid.grid_cell_exists`
* `Verif.Grid.grid_lines_distinct`
* `Verif.Grid.grid_node_partial`
* `Verif.Grid.grid_node_x`
* `Verif.Grid.grid_node_fails`
* `Verif.Grid.grid_negative_step_fails`
* `Verif.Grid.surrounding_partial`
* `Verif.Grid.surrounding_x_partial`
* `Verif.Grid.surrounding_x_fails`
* `Verif.Grid.surrounding_edge_fails`
* `Verif.Grid.surrounding_outside_fails`
* `Verif.SolidTide.anelastic_formula`
* `Verif.SolidTide.step1_formula`
* `Verif.SolidTide.step1_zonal`
* `Verif.SolidTide.step2_formula`
* `Verif.SolidTide.step2_bands`
* `Verif.SolidTide.table_published`
* `Verif.SolidTide.stokes_formula`
* `Verif.SolidTide.stokes_history`
* `Verif.SolidTide.stokes_last`
* `Verif.Alf.alf_value`
* `Verif.Alf.alf_latitude_partial`
* `Verif.Alf.value_latitude`
* `Verif.Alf.alf_exact_zero_fails`
* `Verif.Alf.alf_exact_fails`
* `Verif.Alf.alf_overflow_fails`
* `Verif.Alf.alfD_value_partial`
* `Verif.Alf.alfD_sign_fails`
* `Verif.Cunningham.in_bounds_partial`
* `Verif.Cunningham.scratch_irrelevant`
* `Verif.Cunningham.junk_irrelevant`
* `Verif.Cunningham.exact_size_fails`
* `Verif.Cunningham.next_order_fails`
* `Verif.Cunningham.degree_limit`
* `Verif.Cunningham.acceleration_is_gradient_partial`
* `Verif.Cunningham.matrix_is_derivative_partial`
* `Verif.Cunningham.defaults`
* `Verif.Cunningham.order_zero`
* `Verif.Cunningham.order_zero_fails`
* `Verif.Cunningham.gradient_order_fails`
* `Verif.Cunningham.symmetric_traceless`
* `Verif.PointMass.same`
* `Verif.PointMass.centre`
* `Verif.PointMass.linear`
* `Verif.PointMass.additive`
* `Verif.PointMass.acc_gradient`
* `Verif.PointMass.jacobian`
* `Verif.PointMass.jacobian_harmonic`
* `Verif.EarthRot.C_matrix`
* `Verif.EarthRot.C_pole`
* `Verif.EarthRot.Cq_eq`
* `Verif.EarthRot.bz_eq`
* `Verif.EarthRot.c2i06a_matrix`
* `Verif.EarthRot.rotations`
* `Verif.EarthRot.bz_agrees`
* `Verif.EarthRot.pq_agrees`
* `Verif.EarthRot.fail_together`
* `Verif.EarthRot.C_xy`
* `Verif.EarthRot.Crxy_close`
* `Verif.EarthRot.Crxy_fails`
* `Verif.EarthRot.dRdt_derivative`
* `Verif.EarthRot.derivative`
* `Verif.EarthRot.derivative_axis`
* `Verif.EarthRot.state_round_trip`
* `Verif.EarthRot.rate_first_order`
* `Verif.EarthRot.spherical_value`
* `Verif.EarthRot.spherical_outside`
* `Verif.EarthRot.spherical_spec`
* `Verif.Kahan.kahan_exact`
* `Verif.Kahan.kahan_tracks`
* `Verif.Kahan.kahan_correctly_rounded`
* `Verif.Kahan.rn_nearest`
* `Verif.Kahan.kahan_accurate`
* `Verif.Clock.clock_totals`
* `Verif.Clock.clock_average_partial`
* `Verif.Clock.clock_faster_partial`
* `Verif.Clock.clock_compare_partial`
* `Verif.Clock.clock_compare_fails`
* `Verif.Fcn.fcn_amplitude`
* `Verif.Fcn.amplitude_unique`
* `Verif.Fcn.fcn_at_node`
* `Verif.Fcn.fcn_sigma_partial`
* `Verif.Fcn.fcn_sigma_fails`
* `Verif.Fcn.fcn_empty_fails`
* `Verif.Fcn.table52c_ok`
* `Verif.Fcn.table52c_dates`
* `Verif.Fcn.lambert_file`
* `Verif.Fcn.lambert_file_sound`
* `Verif.Relativity.relativity_si`
* `Verif.Planets.kernels_loaded_partial`
* `Verif.Doodson.get_wave_name`
* `Verif.Groops.atlas_parts`
* `Verif.Groops.atlas_alone_fails`
* `Verif.Groops.atlas_path_fails`
* `Verif.Groops.doodson_rows_partial`
* `Verif.Groops.doodson_sound_partial`
* `Verif.Groops.doodson_long_fails`
* `Verif.Icgem.Head.header_read_partial`
* `Verif.Icgem.Head.header_sound`
* `Verif.Icgem.Head.header_unterminated`
* `Verif.Icgem.Head.header_defined_partial`
* `Verif.Icgem.Head.file_read1_partial`
* `Verif.Icgem.Head.file_read2_partial`
* `Verif.Icgem.Head.sample_read`
* `Verif.Icgem.Head.header_overflow_fails`
* `Verif.Icgem.Head.header_name_fails`
* `Verif.Icgem.Head.header_comment_fails`
* `Verif.Icgem.Head.header_exponent_fails`
* `Verif.Icgem.Head.header_mandatory_fails`
* `Verif.Icgem.Head.header_crlf_fails`
* `Verif.Icgem.Head.header_tab_fails`
* `Verif.Icgem.Head.header_unreadable`
* `Verif.PoleTide.desai_complete_partial`
* `Verif.PoleTide.desai_sound_partial`
* `Verif.PoleTide.desai_triangle_fails`
* `Verif.SolidTide.site_step1`
* `Verif.SolidTide.site_step2`
* `Verif.SolidTide.site_bands`
* `Verif.SolidTide.displacement_formula`
* `Verif.EopTides.zonal_turns`
* `Verif.EopTides.zonal_lod`
* `Verif.EopTides.zonal_omega`
* `Verif.EopTides.zonal_sources`
* `Verif.EopTides.libration_pole`
* `Verif.EopTides.libration_ut1_partial`
* `Verif.EopTides.libration_close_partial`
* `Verif.EopTides.libration_ut1_fails`
* `Verif.EopTides.ocean_lod`
* `Verif.EopTides.libration_lod`
* `Verif.EopTides.rows_within_rounding_partial`
* `Verif.EopTides.m2_row_fails`
* `Verif.Cip.merged_series`
* `Verif.Cip.cip_coordinates`
* `Verif.Cip.outargs_correct`
* `Verif.Cip.y_series`
* `Verif.Cip.x_series_partial`
* `Verif.Cip.extra_close_partial`
* `Verif.Cip.extra_x_fails`
* `Verif.Cip.cio_locator`
* `Verif.Cip.cio_from_cip`
* `Verif.EarthRot.gcrs_to_itrs`
* `Verif.EarthRot.four_agree`
* `Verif.EarthRot.pole_direction`
* `Verif.EarthRot.rate_of_rotation`
* `Verif.Aod1b.Head.header_read_partial`
* `Verif.Aod1b.Head.tidal_file_read_partial`
* `Verif.Aod1b.Head.header_sound`
* `Verif.Aod1b.Head.sample_read`
* `Verif.Aod1b.Head.text_empty_fails`
* `Verif.Aod1b.Head.text_long_fails`
* `Verif.Aod1b.Head.radius_column_fails`
* `Verif.Aod1b.Head.colon_missing_fails`
* `Verif.Aod1b.Head.wave_unknown_fails`
* `Verif.Aod1b.Head.header_incomplete_fails`
* `Verif.Aod1b.Head.header_crlf_fails`
* `Verif.Aod1b.Head.date_bad_fails`
* `Verif.Planets.planet_position`
* `Verif.Planets.planet_position_velocity`
* `Verif.Planets.planet_pos_state`
* `Verif.Planets.earth_at_origin`
* `Verif.Planets.planet_velocity_is_rate`
* `Verif.Planets.planet_no_data_partial`
* `Verif.Planets.planet_no_data_fails`
* `Verif.Planets.gm_of_kernel_partial`
* `Verif.Planets.gm_of_pool`
* `Verif.Planets.gm_overridden_fails`
* `Verif.Planets.gm_prefix_fails`
* `Verif.Planets.gm_missing_fails`
* `Verif.Aod1b.stream_archive_partial`
* `Verif.Aod1b.stream_archive_history`
* `Verif.Aod1b.archive_bare_fails`
* `Verif.Aod1b.archive_long_fails`
* `Verif.Aod1b.Own.stream_lifetimes_partial`
* `Verif.Groops.stored_ocean_partial`
* `Verif.Groops.stored_admittance_partial`
* `Verif.Groops.stored_degree_fails`
* `Verif.Groops.stored_sizes_fails`
* `Verif.Groops.stored_name_fails`
* `Verif.Merge.merge_two_partial`
* `Verif.Merge.merge_three_fails`
* `Verif.Merge.merged_unreadable_fails`
* `Verif.Merge.merge_overwrites_fails`
* `Verif.Merge.merge_reversed_fails`
* `Verif.Costg.bench_rows`
* `Verif.Costg.bench_long`
* `Verif.Costg.bench_accelerations`
* `Verif.Costg.bench_orbit`
* `Verif.Costg.bench_rotations`
* `Verif.Costg.bench_eops`
* `Verif.Costg.compare_all`
* `Verif.Costg.compare_stops`
* `Verif.Costg.check_sun_partial`
* `Verif.Costg.check_moon_partial`
* `Verif.Costg.check_relativity_partial`
* `Verif.Costg.check_body_mismatch`
* `Verif.Costg.check_pole_partial`
* `Verif.Costg.check_ocean_pole_partial`
* `Verif.Costg.compare_short_fails`
* `Verif.Costg.check_pole_short_fails`
* `Verif.Costg.check_ocean_pole_time_fails`
* `Verif.Costg.accept_sun_partial`
* `Verif.Costg.accept_moon_partial`
* `Verif.Costg.accept_relativity_partial`
* `Verif.Costg.accept_pole_partial`
* `Verif.Costg.accept_ocean_pole_partial`
* `Verif.Costg.compareTol_success`
* `Verif.Costg.check_body_success`
* `Verif.Costg.accept_body_success`
* `Verif.Costg.check_relativity_success`
* `Verif.Costg.accept_relativity_success`
* `Verif.Costg.accept_pole_success`
* `Verif.Costg.accept_ocean_pole_success`
* `Verif.Stokes.value_read`
* `Verif.Stokes.value_step`
* `Verif.Stokes.value_run`
* `Verif.Rounding.anp_rounded`
* `Verif.Rounding.anp_rounded_fails`
* `Verif.Rounding.era00_rounded`
* `Verif.Rounding.gmst_rounded`
* `Verif.Rounding.delaunay_rounded`
* `Verif.RoundedCip.args_rounded`
* `Verif.Rounding.doodson_rounded`
* `Verif.Rounding.argument_rounded`
* `Verif.RoundedCip.cip_rounded`
* `Verif.Rounding.gmst82_rounded`
* `Verif.Groops.ocean_force`
* `Verif.Groops.ocean_force_partial`
* `Verif.Groops.admittance_force_partial`
* `Verif.Groops.ocean_force_fails`
* `Verif.Costg.check_fes_partial`
* `Verif.Costg.check_eot_partial`
* `Verif.Costg.check_fes_admittance_partial`
* `Verif.Costg.check_eot_admittance_partial`
* `Verif.Costg.check_empty_fails`
* `Verif.Costg.check_short_fails`
* `Verif.Costg.check_late_fails`
* `Verif.Costg.check_tide_success`
* `Verif.Costg.check_field_partial`
* `Verif.Costg.check_field_itrf_partial`
* `Verif.Costg.check_field_degree`
* `Verif.Costg.check_field_rejects`
* `Verif.Costg.check_field_empty_fails`
* `Verif.Costg.check_field_short_fails`
* `Verif.Costg.check_field_success`
* `Verif.Costg.check_field_itrf_success`
* `Verif.Costg.check_atm_partial`
* `Verif.Costg.check_atm_s1_partial`
* `Verif.Costg.check_atm_rejects`
* `Verif.Costg.check_atm_constants_fails`
* `Verif.Costg.appendAll_success`
* `Verif.Costg.check_solid_partial`
* `Verif.Costg.check_solid_empty_fails`
* `Verif.Costg.check_solid_short_fails`
* `Verif.Costg.check_solid_late_fails`
* `Verif.Costg.check_solid_success`
* `Verif.Costg.check_aod_partial`
* `Verif.Costg.check_aod_history`
* `Verif.Costg.check_aod_short_fails`
* `Verif.Costg.check_aod_degree_fails`
* `Verif.Costg.check_aod_empty`
* `Verif.Costg.check_aod_success`
* `Verif.Costg.check_aod_covered`
* `Verif.Orient.interpolated_at`
* `Verif.Orient.oriented_at`
* `Verif.Orient.oriented_outside`
* `Verif.Orient.orientation_unique`
* `Verif.Orient.check_eops_partial`
* `Verif.Orient.check_eops_window_fails`
* `Verif.Orient.check_eops_empty_fails`
* `Verif.Orient.check_eops_blind_fails`
* `Verif.Orient.check_eops_linear_fails`
* `Verif.Orient.check_ref_partial`
* `Verif.Orient.check_ref_daily_partial`
* `Verif.Orient.check_ref_none`
* `Verif.Orient.check_ref_long_fails`
* `Verif.Orient.check_c2i_partial`
* `Verif.Orient.check_c2i_mismatch`
* `Verif.Orient.check_c2i_short_fails`
* `Verif.Orient.check_c2i_empty_fails`
* `Verif.Orient.check_c2i_ut1_fails`
* `Verif.Orient.check_c2i_velocity_fails`
* `Verif.Orient.eop_example_fails`
* `Verif.Orient.eop_example_count`
* `Verif.Orient.check_ref_success`
* `Verif.Orient.check_ref_outside`
* `Verif.Orient.check_c2i_success`
