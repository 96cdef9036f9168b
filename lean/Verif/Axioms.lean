import Verif.Props

/-! Axioms used by every property theorem (printed in the build log; generated by tools/claims.py). -/

#print axioms Verif.Lru.lru_most_recent
#print axioms Verif.Lru.lru_put_callback
#print axioms Verif.Lru.lru_callback_once
#print axioms Verif.XCorr.xcorr_antisymmetric
#print axioms Verif.XCorr.xcorr_last_write
#print axioms Verif.XCorr.xcorr_self_pair_lost
#print axioms Verif.TimeWindow.timewindow_never_negative
#print axioms Verif.TimeWindow.timewindow_setters
#print axioms Verif.TimeWindow.timewindow_contains
#print axioms Verif.TimeWindow.timewindow_overlap
#print axioms Verif.TimeWindow.timewindow_merge
#print axioms Verif.TimeWindow.timewindow_extend
#print axioms Verif.TimeWindow.timewindow_contiguous
#print axioms Verif.Trace.trace_slice_sound
#print axioms Verif.Trace.trace_slice_complete_partial
#print axioms Verif.Trace.trace_slice_complete_exact_partial
#print axioms Verif.Trace.trace_slice_fails_inside
#print axioms Verif.Trace.trace_setEndTime
#print axioms Verif.Utc.utc_text_round_trip_partial
#print axioms Verif.Utc.utc_text_meaning
#print axioms Verif.Utc.utc_text_injective_partial
#print axioms Verif.Utc.utc_text_lost_before_epoch
#print axioms Verif.Utc.utc_text_not_a_time_before_epoch
#print axioms Verif.Utc.utc_text_accepts_31_february
#print axioms Verif.Utc.utc_text_long_fraction_ub
#print axioms Verif.Utc.long_fraction
#print axioms Verif.Utc.utc_fields_in_range
#print axioms Verif.Utc.utc_calendar_correct
#print axioms Verif.Utc.utc_date_round_trip
#print axioms Verif.Utc.utc_date_injective
#print axioms Verif.Utc.utc_date_throws_before_epoch
#print axioms Verif.Csv.csv_row_round_trip
#print axioms Verif.Csv.csv_field_count
#print axioms Verif.Csv.csv_table_round_trip
#print axioms Verif.Csv.csv_char_after_quote_dropped
#print axioms Verif.Csv.csv_header_mapping
#print axioms Verif.Csv.csv_header_repeated
#print axioms Verif.Csv.csv_read_with_header_partial
#print axioms Verif.Csv.csv_empty_file_ub
#print axioms Verif.Catalog.Catalog.catalog_integrity
#print axioms Verif.Catalog.Catalog.catalog_addEvent_keep
#print axioms Verif.Catalog.Catalog.catalog_addEvent_new_partial
#print axioms Verif.Catalog.Catalog.catalog_addEvent_wraps
#print axioms Verif.Catalog.Catalog.catalog_removeEvent
#print axioms Verif.Catalog.Catalog.catalog_extractEvent
#print axioms Verif.Catalog.Catalog.catalog_extract_readd
#print axioms Verif.Catalog.Catalog.catalog_merge_new_ids
#print axioms Verif.Catalog.Catalog.catalog_merge_keep_ids
#print axioms Verif.Catalog.Catalog.catalog_merge_adopts_orphan_phase
#print axioms Verif.Catalog.Catalog.phase_classification
#print axioms Verif.Catalog.Catalog.fillProcessingInfo_phases
#print axioms Verif.Catalog.Catalog.pick_weight_range
#print axioms Verif.Catalog.Catalog.pick_weight_antitone_partial
#print axioms Verif.Catalog.Catalog.pick_weight_best_pick_lowest
#print axioms Verif.IdToIndex.index_in_order_of_first_use
#print axioms Verif.IdToIndex.index_stable
#print axioms Verif.IdToIndex.index_bijection
#print axioms Verif.DDSystem.aprod_adjoint
#print axioms Verif.DDSystem.aprod_sizes
#print axioms Verif.DDSystem.aprod1_is_design_matrix
#print axioms Verif.DDSystem.aprod2_is_transpose
#print axioms Verif.DDSystem.adapter_weighted_misfit
#print axioms Verif.DDSystem.normalisation_positive
#print axioms Verif.DDSystem.normalisation_same_solutions_partial
#print axioms Verif.DDSystem.normalisation_unit_columns
#print axioms Verif.DDSystem.normalisation_nan
#print axioms Verif.Solver.first_observation_wins_partial
#print axioms Verif.Solver.first_of_each
#print axioms Verif.Solver.rows_are_distinct_observations_partial
#print axioms Verif.Solver.observation_lost
#print axioms Verif.Solver.system_prepared
#print axioms Verif.Solver.system_prepared_unweighted
#print axioms Verif.Solver.prepared_in_range
#print axioms Verif.Solver.preparation_needs_params
#print axioms Verif.Solver.residual_weights_partial
#print axioms Verif.Solver.residual_weight_nan
#print axioms Verif.Solver.residual_weights_nan
#print axioms Verif.Solver.event_changes
#print axioms Verif.Solver.event_phase_used
#print axioms Verif.KdTree.tree_holds_points
#print axioms Verif.KdTree.tree_lookup
#print axioms Verif.KdTree.radius_search_exact
#print axioms Verif.Geo.radius_search_real_partial
#print axioms Verif.Geo.Missed.radius_search_false
#print axioms Verif.KdTree.nearest_neighbour_exact
#print axioms Verif.KdTree.k_nearest_exact_partial
#print axioms Verif.KdTree.k_nearest_zero_ub
#print axioms Verif.Geo.Missed.nearest_neighbour_false
#print axioms Verif.KdTree.best_first_in_order
#print axioms Verif.Geo.Missed.best_first_false
#print axioms Verif.Geo.axis_bound_partial
#print axioms Verif.Geo.latitude_bound_partial
#print axioms Verif.Geo.latitude_bound_surface_partial
#print axioms Verif.Geo.longitude_bound_partial
#print axioms Verif.Geo.depth_bound_partial
#print axioms Verif.Geo.latitude_bound_false
#print axioms Verif.Geo.depth_bound_false
#print axioms Verif.Geo.Missed.longitude_bound_false
#print axioms Verif.Selection.createEventTree_wf
#print axioms Verif.Selection.neighbours_meet_constraints_partial
#print axioms Verif.Selection.selection_returns
#print axioms Verif.Selection.selection_fails_cleanly
#print axioms Verif.Selection.Example.too_few_phases
#print axioms Verif.Selection.nearest_selection_maximal_partial
#print axioms Verif.Selection.ellipsoid_selection_maximal_partial
#print axioms Verif.Selection.ellipsoid_selection_complete_partial
#print axioms Verif.Selection.unmatched_not_selected
#print axioms Verif.Selection.Example.no_limit_differs
#print axioms Verif.Geo.eligible_event_lost
#print axioms Verif.Selection.reference_limits_ineffective
#print axioms Verif.Selection.Example.reference_station_too_far
#print axioms Verif.Selection.catalog_selection_closed
#print axioms Verif.Selection.catalog_selection_fails_cleanly
#print axioms Verif.Clusters.clusters_are_components
#print axioms Verif.Clusters.selected_wf
#print axioms Verif.Clusters.pairs_used_once
#print axioms Verif.Selection.exactly_one_layer
#print axioms Verif.Selection.round_robin_not_stuck
#print axioms Verif.Geo.isInside_iff
#print axioms Verif.Geo.some_quadrant
#print axioms Verif.Geo.exactly_one_real_layer
#print axioms Verif.Geo.layered_partial
#print axioms Verif.Geo.layer_ranges_miss
#print axioms Verif.Geo.eligible_event_lost
#print axioms Verif.XCorr.correlation_exact
#print axioms Verif.XCorr.abs_pearson_le_one
#print axioms Verif.XCorr.crosscorr_antisymmetric
#print axioms Verif.XCorr.xcorr_bounded
#print axioms Verif.XCorr.negative_delay_ub
#print axioms Verif.XCorr.huge_delay_ub
#print axioms Verif.XCorr.empty_trace_ub
#print axioms Verif.Waveform.memcache_first_answer
#print axioms Verif.Waveform.memcache_transparent_partial
#print axioms Verif.Waveform.request_id_injective
#print axioms Verif.Waveform.Example.memcache_ignores_filter
#print axioms Verif.Waveform.Example.memcache_ignores_event
#print axioms Verif.Waveform.Example.memcache_key_collision
#print axioms Verif.Waveform.disk_cache_transparent_partial
#print axioms Verif.Waveform.disk_cache_failed_load
#print axioms Verif.Waveform.disk_cache_hit_forever
#print axioms Verif.Waveform.disk_cache_store
#print axioms Verif.Waveform.waveform_id_injective
#print axioms Verif.Waveform.disk_cache_poisoned
#print axioms Verif.Waveform.Batch.batch_requests_once
#print axioms Verif.Waveform.Batch.batch_available
#print axioms Verif.Waveform.Batch.batch_available_iff_partial
#print axioms Verif.Waveform.Batch.batch_nothing_before_load
#print axioms Verif.Waveform.Batch.Example.batch_delivered_but_unavailable
#print axioms Verif.Waveform.Batch.Example.batch_order_matters
#print axioms Verif.Waveform.load_window_contains
#print axioms Verif.Waveform.load_window_aligned_partial
#print axioms Verif.Waveform.extra_len_covers
#print axioms Verif.Waveform.load_window_not_aligned_before_1970
#print axioms Verif.Waveform.rotation_isometry
#print axioms Verif.Waveform.rotation_projects
#print axioms Verif.Waveform.rotation_horizontal
#print axioms Verif.Waveform.rotation_away_from_event
#print axioms Verif.Waveform.transform_l2_output
#print axioms Verif.Waveform.transform_rt_output_partial
#print axioms Verif.Waveform.transforms_succeed
#print axioms Verif.Waveform.transform_rt_start_time_wrong
#print axioms Verif.Waveform.transform_l2_disjoint_ub
#print axioms Verif.Waveform.rotation_needs_orthogonal
#print axioms Verif.Grid.grid_file_roundtrip
#print axioms Verif.Grid.grid_offsets_disjoint
#print axioms Verif.Grid.grid_read_safe_partial
#print axioms Verif.Grid.grid_read_wraps
#print axioms Verif.Grid.grid_read_aliases
#print axioms Verif.Grid.grid_failed_load_reads_zeros
#print axioms Verif.Grid.grid_interpolates_3d
#print axioms Verif.Grid.grid_exact_at_nodes
#print axioms Verif.Grid.grid_bounded_by_cell
#print axioms Verif.Grid.grid_continuous
#print axioms Verif.Grid.grid_outside_throws
#print axioms Verif.Grid.grid_interpolates_2d
#print axioms Verif.Grid.grid_single_layer_unusable
#print axioms Verif.Grid.grid_zero_cell_ub
#print axioms Verif.Geo.transform_arguments_checked
#print axioms Verif.Geo.global_round_trip_partial
#print axioms Verif.Geo.simple_round_trip_partial
#print axioms Verif.Geo.simple_round_trip_grid
#print axioms Verif.Geo.sdc_round_trip_partial
#print axioms Verif.Geo.rotation_isometry
#print axioms Verif.Geo.azimuthal_round_trip_partial
#print axioms Verif.Geo.azimuthal_distance
#print axioms Verif.Geo.azimuthal_antipode
#print axioms Verif.Geo.lambert_cone
#print axioms Verif.Geo.lambert_round_trip_partial
#print axioms Verif.Geo.lambert_round_trip_cone
#print axioms Verif.Geo.lambert_far_side
#print axioms Verif.Geo.lambert_opposite_parallels
#print axioms Verif.Geo.transverse_mercator_origin
#print axioms Verif.Geo.transverse_mercator_meridian_partial
#print axioms Verif.Geo.transverse_mercator_meridian_round_trip
#print axioms Verif.Geo.transverse_mercator_northing
#print axioms Verif.Geo.transverse_mercator_inexact
#print axioms Verif.Geo.normalised_longitude
#print axioms Verif.Geo.normalised_azimuth
#print axioms Verif.Geo.origin_azimuth
#print axioms Verif.Geo.grid_angle_round_trip_partial
#print axioms Verif.Geo.grid_angle_full_turn
#print axioms Verif.NllGrid.open_grids_bounded_partial
#print axioms Verif.NllGrid.grid_open_when_read
#print axioms Verif.NllGrid.open_grids_unbounded_at_zero
#print axioms Verif.NllGrid.close_open_files_leaks
#print axioms Verif.NllGrid.failed_load_is_used_later
#print axioms Verif.Relocate.relocate_returns
#print axioms Verif.Relocate.relocate_returns_solved_partial
#print axioms Verif.Relocate.relocate_content
#print axioms Verif.Relocate.marked_event_returned
#print axioms Verif.Relocate.parameter_interpolation_partial
#print axioms Verif.Relocate.relocation_parameters
#print axioms Verif.Relocate.relocation_iterations
#print axioms Verif.Relocate.single_iteration_uses_mean
#print axioms Verif.Relocate.reporting_iteration_overshoots
#print axioms Verif.Relocate.event_restored_partial
#print axioms Verif.Relocate.neighbour_only_event_stays_outside
#print axioms Verif.Relocate.single_event_only_target_partial
#print axioms Verif.Relocate.single_event_needs_neighbours
#print axioms Verif.SingleEvent.single_event_call_partial
#print axioms Verif.Scheduler.scheduler_processes_due_partial
#print axioms Verif.Scheduler.scheduler_processes_spaced_partial
#print axioms Verif.Scheduler.scheduler_offline_exact
#print axioms Verif.Scheduler.scheduler_loses_job
#print axioms Verif.Scheduler.scheduler_one_job_per_wakeup
#print axioms Verif.Scheduler.scheduler_queue_nodup
#print axioms Verif.Scheduler.scheduler_starts_only_elapsed
#print axioms Verif.Scheduler.scheduler_start_count
#print axioms Verif.Scheduler.scheduler_interval
#print axioms Verif.Scheduler.scheduler_failed_forgotten
#print axioms Verif.Region.rect_region_partial
#print axioms Verif.Region.other_regions
#print axioms Verif.Region.profile_selection
#print axioms Verif.Region.profile_needs_coordinates
#print axioms Verif.Region.profile_by_name
#print axioms Verif.Region.rect_region_misses_date_line
#print axioms Verif.AzGap.azimuthal_gap_primary
#print axioms Verif.AzGap.azimuthal_gap_secondary_partial
#print axioms Verif.AzGap.azimuthal_gap_order
#print axioms Verif.AzGap.azimuthal_gap_secondary_counts_phases
#print axioms Verif.Requests.requests_terminate
#print axioms Verif.Requests.requests_covered
#print axioms Verif.Requests.requests_one_stream_per_station
#print axioms Verif.Requests.requests_not_invented
#print axioms Verif.Requests.requests_cover_caller_windows
#print axioms Verif.Stats.median_is_middle
#print axioms Verif.Stats.median_splits
#print axioms Verif.Stats.mad_correct
#print axioms Verif.Stats.mean_correct
#print axioms Verif.Stats.five_numbers_partial
#print axioms Verif.Stats.five_numbers_ordered
#print axioms Verif.Stats.five_numbers_ub
#print axioms Verif.LeastSquares.vector_norm_is_euclidean
#print axioms Verif.LeastSquares.pair_norm_is_euclidean
#print axioms Verif.LeastSquares.vector_norm_scaled
#print axioms Verif.LeastSquares.lsqr_ends
#print axioms Verif.LeastSquares.lsmr_ends
#print axioms Verif.LeastSquares.solver_limit
#print axioms Verif.LeastSquares.bidiagonalization
#print axioms Verif.LeastSquares.solvers_vectors
#print axioms Verif.LeastSquares.lsqr_result
#print axioms Verif.LeastSquares.lsmr_result
#print axioms Verif.LeastSquares.gradient_bounds_error
#print axioms Verif.PairFile.pair_file_round_trip_partial
#print axioms Verif.PairFile.lonely_event_lost
#print axioms Verif.PairFile.no_events_no_file
#print axioms Verif.PairFile.Example.unknown_station_ub
#print axioms Verif.PairFile.Example.comma_cut
#print axioms Verif.Relocate.xcorr_computed_once
#print axioms Verif.Relocate.xcorr_cache_exact
#print axioms Verif.Relocate.xcorr_cache_origin
#print axioms Verif.Relocate.xcorr_build_succeeds
#print axioms Verif.Relocate.multi_event_correlations
#print axioms Verif.Relocate.observations_correct
#print axioms Verif.Relocate.observation_weight
#print axioms Verif.Relocate.observations_complete
#print axioms Verif.Relocate.observations_have_parameters
#print axioms Verif.Geo.distance_is_great_circle
#print axioms Verif.Geo.distance_close_to_great_circle
#print axioms Verif.Geo.distance_3d
#print axioms Verif.Geo.event_station_distance
#print axioms Verif.Geo.station_above_event
#print axioms Verif.Geo.destination_at_distance
#print axioms Verif.Geo.destination_round_trip
#print axioms Verif.Selection.catalog_selection_greatest
#print axioms Verif.Selection.catalog_selection_largest_partial
#print axioms Verif.XCorr.correlation_windows
#print axioms Verif.XCorr.pair_antisymmetric_partial
#print axioms Verif.XCorr.Example.tie_not_antisymmetric
#print axioms Verif.XCorr.empty_window_ub
#print axioms Verif.Waveform.resample_time_base
#print axioms Verif.Waveform.resample_homogeneous
#print axioms Verif.Waveform.resample_window_partial
#print axioms Verif.Waveform.process_defined
#print axioms Verif.Waveform.resample_first_sample_twice
#print axioms Verif.Waveform.resample_beyond_end
#print axioms Verif.TravelTime.azimuth_within_arc_partial
#print axioms Verif.TravelTime.azimuth_exact_at_nodes
#print axioms Verif.TravelTime.azimuth_constant
#print axioms Verif.TravelTime.dip_and_quality
#print axioms Verif.TravelTime.angles_roundtrip
#print axioms Verif.TravelTime.azimuth_opposite_is_north
#print axioms Verif.TravelTime.homogeneous_times_agree
#print axioms Verif.TravelTime.homogeneous_derivatives
#print axioms Verif.TravelTime.velocity_units
#print axioms Verif.TravelTime.grid_derivatives
#print axioms Verif.TravelTime.grid_derivatives_agree
#print axioms Verif.Relocate.parameters_correct
#print axioms Verif.Relocate.horizontal_derivative
#print axioms Verif.Relocate.iteration_parameters_partial
#print axioms Verif.Relocate.restored_event_stale_residual
#print axioms Verif.Relocate.solution_applied
#print axioms Verif.Relocate.relocation_endpoints
#print axioms Verif.Relocate.multi_event_result
#print axioms Verif.Relocate.multi_event_solved_partial
#print axioms Verif.Relocate.multi_event_all_move
#print axioms Verif.Relocate.marked_event_relocation_lost
#print axioms Verif.LeastSquares.solve_lsqr
#print axioms Verif.LeastSquares.solve_lsmr
#print axioms Verif.XCorrFile.xcorr_file_round_trip
#print axioms Verif.XCorrFile.six_decimals_exact
#print axioms Verif.XCorrFile.xcorr_file_meaning
#print axioms Verif.XCorrFile.Example.threshold_crossed
#print axioms Verif.XCorrFile.Example.unknown_station
#print axioms Verif.CatalogFile.catalog_file_round_trip
#print axioms Verif.CatalogFile.Example.phase_information_lost
#print axioms Verif.CatalogFile.Example.unknown_station_unreadable
#print axioms Verif.CatalogFile.Example.comma_shifts_columns
#print axioms Verif.CatalogFile.Example.tiny_residual_unreadable
#print axioms Verif.SeisComP.add_origins
#print axioms Verif.SeisComP.add_origins_succeeds
#print axioms Verif.SeisComP.add_origin_ids
#print axioms Verif.SeisComP.add_origin_file
#print axioms Verif.SeisComP.Example.short_constructors_ub
#print axioms Verif.SeisComP.Example.magnitude_not_found
#print axioms Verif.SeisComP.Example.unused_arrival_kept
#print axioms Verif.SeisComP.Example.origin_without_depth_throws
#print axioms Verif.SeisComP.origin_from_event
#print axioms Verif.SeisComP.relocation_reuses_picks
#print axioms Verif.SeisComP.no_used_phase_ub
#print axioms Verif.SeisComP.Example.shared_pick_loses_arrival
#print axioms Verif.Catalog.Catalog.catalog_of_lists
#print axioms Verif.Catalog.Catalog.catalog_of_rows
#print axioms Verif.Catalog.Catalog.add_phase
#print axioms Verif.Catalog.Catalog.remove_phase
#print axioms Verif.Catalog.Catalog.add_station
#print axioms Verif.Catalog.Catalog.update_station
#print axioms Verif.Catalog.Catalog.update_event
#print axioms Verif.Catalog.Catalog.search_phase
#print axioms Verif.Catalog.Catalog.search_station
#print axioms Verif.Catalog.Catalog.EditExample.dotted_codes_confused
#print axioms Verif.Neighbours.neighbours_remember
#print axioms Verif.Daemon.job_result
#print axioms Verif.Daemon.nothing_to_do
#print axioms Verif.Daemon.job_succeeds
#print axioms Verif.Daemon.run_history
#print axioms Verif.Daemon.test_mode_sends_nothing
#print axioms Verif.Daemon.run_scheduler
#print axioms Verif.Daemon.run_never_stops_partial
#print axioms Verif.Daemon.Example.no_evaluation_mode_stops
#print axioms Verif.Daemon.Example.no_depth_stops
#print axioms Verif.Daemon.Example.no_arrivals_ub
#print axioms Verif.Daemon.Example.no_database_ub
#print axioms Verif.Daemon.Example.old_preferred_origin
#print axioms Verif.Daemon.profile_moment
#print axioms Verif.Daemon.profile_reload
#print axioms Verif.Daemon.profile_fresh
#print axioms Verif.Daemon.profile_kept
#print axioms Verif.Daemon.profile_freed
#print axioms Verif.Daemon.Example.all_profiles_loaded
#print axioms Verif.Daemon.two_steps
#print axioms Verif.Daemon.two_steps_result
#print axioms Verif.Daemon.Example.start_rms_lost
#print axioms Verif.Daemon.Example.first_step_lost
#print axioms Verif.Relocate.residuals_reported
#print axioms Verif.Relocate.start_values_kept
#print axioms Verif.Relocate.returned_residuals
#print axioms Verif.Relocate.others_untouched
#print axioms Verif.Relocate.pick_marks_partial
#print axioms Verif.Relocate.restored_event_stale_residual
#print axioms Verif.Relocate.old_pick_mark_returned
#print axioms Verif.NllGrid.missing_grid_not_searched_again
#print axioms Verif.NllGrid.failed_grid_given_up
#print axioms Verif.NllGrid.no_descriptor_kept
#print axioms Verif.NllGrid.failed_map_keeps_descriptor
#print axioms Verif.GridHeader.header_accepted_iff
#print axioms Verif.GridHeader.accepted_header_has_transform
#print axioms Verif.GridHeader.transform_line_iff
#print axioms Verif.GridHeader.accepted_transform_constructed
#print axioms Verif.GridHeader.header_defined
#print axioms Verif.GridHeader.transform_lines_only
#print axioms Verif.GridHeader.station_line_missing
#print axioms Verif.GridHeader.nan_origin_accepted
#print axioms Verif.GridHeader.time_grids_found
#print axioms Verif.GridHeader.angle_grids_found
#print axioms Verif.GridHeader.velocity_grid_found
#print axioms Verif.GridHeader.search_order
#print axioms Verif.GridHeader.search_completes_partial
#print axioms Verif.GridHeader.access_method_checked
#print axioms Verif.GridHeader.search_undefined
#print axioms Verif.CatalogFile.number_text
#print axioms Verif.CatalogFile.id_text
#print axioms Verif.CatalogFile.header_row_iff
#print axioms Verif.CatalogFile.catalog_files_accepted_iff
#print axioms Verif.CatalogFile.catalog_files_meaning
#print axioms Verif.CatalogFile.catalog_files_defined_partial
#print axioms Verif.CatalogFile.Example.blank_line_rejected
#print axioms Verif.CatalogFile.Example.negative_id_accepted
#print axioms Verif.CatalogFile.Example.long_id_collides
#print axioms Verif.CatalogFile.Example.empty_file_undefined
#print axioms Verif.Access.preload_requests
#print axioms Verif.Access.preload_transparent
#print axioms Verif.Access.preload_succeeds_partial
#print axioms Verif.Access.unclassified_pick_fails
#print axioms Verif.Access.unclassified_pick_not_relocated
#print axioms Verif.Daemon.session_history
#print axioms Verif.Daemon.session_results
#print axioms Verif.Daemon.reload_replies
#print axioms Verif.CommandLine.tokens_commaSeparated
#print axioms Verif.CommandLine.given_origins_relocated
#print axioms Verif.CommandLine.origin_ids_relocated
#print axioms Verif.CommandLine.xml_origins_relocated
#print axioms Verif.CommandLine.given_origins_succeed
#print axioms Verif.CommandLine.merge_keeping_ids
#print axioms Verif.CommandLine.merge_with_new_ids
#print axioms Verif.CommandLine.merge_needs_triplets
#print axioms Verif.CommandLine.merge_missing_file
#print axioms Verif.CommandLine.merged_files_read_back
#print axioms Verif.CommandLine.relocated_catalog_xml
#print axioms Verif.CommandLine.relocate_catalog_fails
#print axioms Verif.CommandLine.catalog_of_ids
#print axioms Verif.CommandLine.catalog_of_files
#print axioms Verif.CommandLine.unused_event_ub
#print axioms Verif.CommandLine.mode_first
#print axioms Verif.CommandLine.sends_iff
#print axioms Verif.CommandLine.offline_iff
#print axioms Verif.CommandLine.reload_request
#print axioms Verif.CommandLine.reload_request_offline_ub
#print axioms Verif.Access.pair_correlation
#print axioms Verif.Access.pair_entry
#print axioms Verif.Access.pair_bounds
#print axioms Verif.Access.pair_safe
#print axioms Verif.Preload.preload_downloads
#print axioms Verif.Preload.preload_keeps
#print axioms Verif.Preload.preload_cached
#print axioms Verif.Preload.preload_then_correlate
#print axioms Verif.Preload.preload_again
#print axioms Verif.Preload.preload_finishes
#print axioms Verif.Tables.native_grid_table
#print axioms Verif.Tables.homogeneous_table
#print axioms Verif.Tables.plugin_table
#print axioms Verif.Tables.other_table
#print axioms Verif.Tables.native_and_plugin_agree
#print axioms Verif.Tables.native_grid_phases
#print axioms Verif.Tables.refused_with_exception
#print axioms Verif.Tables.max_open_files_wraps
#print axioms Verif.Tables.empty_part_lost
#print axioms Verif.Tables.phase_times
#print axioms Verif.Tables.failed_model_is_empty
#print axioms Verif.Tables.all_phases
#print axioms Verif.Tables.first_arrival
#print axioms Verif.Tables.first_arrival_misses_p
#print axioms Verif.Tables.outside_p_grid_hides_s
#print axioms Verif.SingleEvent.number_irrelevant_partial
#print axioms Verif.SingleEvent.one_event_form
#print axioms Verif.SingleEvent.number_matters
#print axioms Verif.Daemon.origin_has_number_one
#print axioms Verif.ClusterFiles.dumped_clusters_read_back_partial
#print axioms Verif.ClusterFiles.relocation_from_files_partial
#print axioms Verif.ClusterFiles.relocation_of_some_clusters_partial
#print axioms Verif.ClusterFiles.lonely_cluster_not_read_back
#print axioms Verif.ClusterFiles.missing_cluster_file_undefined
#print axioms Verif.Relocate.saved_results_reused
#print axioms Verif.Relocate.result_writable
#print axioms Verif.Relocate.catalog_relocation_completes
#print axioms Verif.Relocate.clusters_relocation_completes
#print axioms Verif.Relocate.single_relocation_completes
#print axioms Verif.Relocate.pairs_fit
#print axioms Verif.Relocate.pair_without_pick_undefined
#print axioms Verif.Relocate.pair_unclassified_throws
#print axioms Verif.Iteration.iteration_minimises
#print axioms Verif.Iteration.relocation_minimises
#print axioms Verif.LeastSquares.lsqr_accepts
#print axioms Verif.LeastSquares.lsmr_accepts
#print axioms Verif.Iteration.iteration_solved
#print axioms Verif.Iteration.usual_damping
#print axioms Verif.Iteration.relocation_all_iterations
#print axioms Verif.WfAccess.waveforms_unchanged_partial
#print axioms Verif.WfAccess.constructed_off
#print axioms Verif.WfAccess.enable_failed
#print axioms Verif.WfAccess.preload_failed
#print axioms Verif.WfAccess.Example.preload_not_repaired
#print axioms Verif.Configuration.starts_iff
#print axioms Verif.Configuration.profiles_configured_partial
#print axioms Verif.Configuration.parameter_owner
#print axioms Verif.Configuration.profiles_independent
#print axioms Verif.Configuration.selected_by_region
#print axioms Verif.Configuration.selected_by_name
#print axioms Verif.Configuration.database_kept
#print axioms Verif.Configuration.Example.negative_wraps
#print axioms Verif.Configuration.Example.unknown_type_is_circle
#print axioms Verif.Configuration.Example.mistyped_is_default
#print axioms Verif.Configuration.Example.two_files_are_origin_ids
#print axioms Verif.Dump.waveforms_dumped_partial
#print axioms Verif.Dump.file_names
#print axioms Verif.Dump.no_clash
#print axioms Verif.Dump.Example.two_picks_one_file
#print axioms Verif.Relocate.solution_order
#print axioms Verif.Relocate.relocation_solver_order
#print axioms Verif.Relocate.relocation_order_partial
#print axioms Verif.Relocate.nothing_restored
#print axioms Verif.Relocate.restored_event_order_matters
#print axioms Verif.Relocate.contradicting_calls_order_matters
#print axioms Verif.DDFile.file_written
#print axioms Verif.DDFile.iteration_file
#print axioms Verif.DDFile.relocation_files
#print axioms Verif.DDFile.no_final_file
#print axioms Verif.DistanceReport.report_correct
#print axioms Verif.DistanceReport.report_exact
#print axioms Verif.DistanceReport.report_printed_iff
#print axioms Verif.DistanceReport.report_ub
#print axioms Verif.DistanceReport.report_printed_partial
#print axioms Verif.XCorrReport.xcorr_summary
#print axioms Verif.XCorrReport.attempted_wanted
#print axioms Verif.XCorrReport.nothing_attempted
#print axioms Verif.Selection.catalog_selection_visit_order
#print axioms Verif.Selection.selection_order_partial
#print axioms Verif.Selection.catalog_selection_order_partial
#print axioms Verif.Selection.Example.equal_distance_order_decides
#print axioms Verif.Selection.Example.equal_station_order_decides
#print axioms Verif.Preload.report_same_run
#print axioms Verif.Preload.report_downloads
#print axioms Verif.Preload.report_cached_partial
#print axioms Verif.Preload.report_cached_twice
#print axioms Verif.Preload.report_event
#print axioms Verif.Preload.Example.reported
#print axioms Verif.Log.file_message
#print axioms Verif.Log.file_kept
#print axioms Verif.Log.shown_message
#print axioms Verif.Log.format_not_written
#print axioms Verif.Log.single_finished
#print axioms Verif.Log.singles_apart_partial
#print axioms Verif.Log.single_leaves_open
#print axioms Verif.Log.leaks_into_next
#print axioms Verif.Log.single_unsaved
#print axioms Verif.Log.single_cannot_open
#print axioms Verif.Log.multi_cannot_open
#print axioms Verif.Log.multi_finished
#print axioms Verif.Log.multi_leaves_open
#print axioms Verif.WorkingDir.name_is_the_second
#print axioms Verif.WorkingDir.search_first
#print axioms Verif.WorkingDir.search_goes_on
#print axioms Verif.WorkingDir.search_ends
#print axioms Verif.WorkingDir.relocation_new
#print axioms Verif.WorkingDir.relocations_apart
#print axioms Verif.WorkingDir.used_is_new
#print axioms Verif.WorkingDir.shared_same_second_partial
#print axioms Verif.WorkingDir.run_defined
#print axioms Verif.WorkingDir.Example.shared
#print axioms Verif.GridTable.same_answer
#print axioms Verif.GridTable.failures_do_not_alter_partial
#print axioms Verif.GridTable.no_grid_refused
#print axioms Verif.GridTable.ray_has_the_time
#print axioms Verif.GridTable.time_interpolated
#print axioms Verif.GridTable.time_interpolated_2d
#print axioms Verif.GridTable.alike_stations_share
#print axioms Verif.GridTable.failed_load_gives_zero
#print axioms Verif.ProfileLife.usable_iff_loaded
#print axioms Verif.ProfileLife.refused_iff_not_loaded
#print axioms Verif.ProfileLife.never_without_object
#print axioms Verif.ProfileLife.loaded_again_ignored
#print axioms Verif.ProfileLife.caches_apart
#print axioms Verif.ProfileLife.command_with_catalog
#print axioms Verif.ProfileLife.preload_own_catalog
#print axioms Verif.ProfileLife.refines_daemon
#print axioms Verif.TimeShift.selection_ignores_times
#print axioms Verif.TimeShift.relocation_ignores_times
#print axioms Verif.TimeShift.multi_ignores_times
#print axioms Verif.TimeShift.single_event_ignores_times
#print axioms Verif.FittedData.no_residual_no_change
#print axioms Verif.FittedData.no_residual_solved
#print axioms Verif.FittedData.fitted_catalog_stays_partial
#print axioms Verif.FittedData.fitted_data_weights_undefined
#print axioms Verif.FloatSolve.fitted_catalog_stays
#print axioms Verif.FloatSolve.nan_spoils_all
#print axioms Verif.FloatSolve.bad_derivative_spoils_all
#print axioms Verif.FloatSolve.nan_refused
#print axioms Verif.FloatSolve.infinite_scaling
#print axioms Verif.FloatSolve.infinite_scaling_moves_nothing
#print axioms Verif.FloatSolve.unknown_weights_refused
#print axioms Verif.FloatSolve.fitted_catalog_not_relocated
#print axioms Verif.FloatSolve.no_deviation_no_solution
#print axioms Verif.FloatSolve.irregular_moves_nothing
#print axioms Verif.FloatSolve.relocation_minimises_or_stays
#print axioms Verif.FloatSolve.real_model_exact
#print axioms Verif.FloatSolve.solved_is_float
#print axioms Verif.FloatTime.seconds_keep_microseconds
#print axioms Verif.FloatTime.seconds_lose_microseconds
#print axioms Verif.FloatTime.seconds_in_order
#print axioms Verif.FloatTime.seiscomp_times_kept
#print axioms Verif.FloatTime.seiscomp_truncation
#print axioms Verif.FloatTime.seconds_to_microseconds
#print axioms Verif.Double.round64_doubles
#print axioms Verif.Double.round64_nearest
#print axioms Verif.FloatTime.float_slice_sound
#print axioms Verif.FloatTime.float_slice_keeps_extra
#print axioms Verif.FloatTime.float_slice_ends_early
#print axioms Verif.FloatTime.float_slice_complete_partial
#print axioms Verif.FloatTime.float_slice_refuses_last_sample
#print axioms Verif.LagSpec.lag_is_shift_and_bias
#print axioms Verif.LagSpec.lag_is_shift_partial
#print axioms Verif.LagSpec.lag_is_shift_to_a_sample_partial
#print axioms Verif.LagSpec.default_s_lag_biased
#print axioms Verif.LagSpec.processed_is_cut
#print axioms Verif.LagSpec.combined_is_cut
#print axioms Verif.LagSpec.combined_loses_last_sample
#print axioms Verif.LagSpec.correlated_time_is_measured_partial
#print axioms Verif.LagSpec.relocation_uses_measured_times_partial
#print axioms Verif.LagSpec.answer_measured
#print axioms Verif.RepeaterSpec.perfect_iff_same_signal
#print axioms Verif.RepeaterSpec.gain_and_offset_irrelevant
#print axioms Verif.RepeaterSpec.repeater_recognised
#print axioms Verif.RepeaterSpec.perfect_lag_is_true_shift
#print axioms Verif.RepeaterSpec.RepeaterExample.identical_waveforms_lag
#print axioms Verif.FloatXCorrSpec.float_correlation_accurate_partial
#print axioms Verif.FloatXCorrSpec.float_delay_correct_partial
#print axioms Verif.FloatXCorrSpec.sqrt64_roots
#print axioms Verif.FloatXCorrSpec.float_polarity
#print axioms Verif.FloatXCorrSpec.DeadSegment.dead_segment_forgets_match
#print axioms Verif.FloatXCorrSpec.DeadSegment.dead_signal_no_coefficient
#print axioms Verif.DateLine.turning_changes_nothing
#print axioms Verif.DateLine.turning_moves_along
#print axioms Verif.DateLine.turned_search_partial
#print axioms Verif.DateLine.Fiji.date_line_hides_events
#print axioms Verif.DateLine.Fiji.date_line_hides_neighbours
#print axioms Verif.ListOrgSpec.lists_what_was_asked_for_partial
#print axioms Verif.ListOrgSpec.answer_is_unique
#print axioms Verif.ListOrgSpec.listing_ends_partial
#print axioms Verif.ListOrgSpec.lists_are_read
#print axioms Verif.ListOrgSpec.options_are_read
#print axioms Verif.ListOrgSpec.Alps.missing_depth_ends_listing
#print axioms Verif.ListOrgSpec.Alps.missing_creation_time_ends_listing
#print axioms Verif.ListOrgSpec.Alps.bad_area_ignored
#print axioms Verif.ListOrgSpec.Alps.misspelt_kind_accepted
#print axioms Verif.ListOrgSpec.Alps.date_line_origin_not_listed
#print axioms Verif.ListOrgSpec.columns_are_named
#print axioms Verif.ListOrgSpec.list_is_read_back_partial
#print axioms Verif.ListOrgSpec.simple_list_not_read
#print axioms Verif.Selection.trimmed_background_partial
#print axioms Verif.Selection.separate_catalogs_partial
#print axioms Verif.Selection.Example.useless_event_decides
#print axioms Verif.Relocate.same_data_same_relocation
#print axioms Verif.Relocate.single_event_by_neighbours
#print axioms Verif.Relocate.correlation_order_blind
#print axioms Verif.SingleEvent.single_event_trim_partial
#print axioms Verif.SingleEvent.single_event_storage_partial
#print axioms Verif.Relocate.cluster_alone
#print axioms Verif.Relocate.part_alone
#print axioms Verif.Relocate.found_clusters_split
#print axioms Verif.AppConfig.application_starts_iff
#print axioms Verif.AppConfig.application_settings
#print axioms Verif.AppConfig.settings_complete
#print axioms Verif.AppConfig.defaults_partial
#print axioms Verif.AppConfig.documented_time_alive_wrong
#print axioms Verif.AppConfig.allowed_origins
#print axioms Verif.AppConfig.profiles_stay
#print axioms Verif.Turn.relocation_elsewhere
#print axioms Verif.Turn.multi_elsewhere
#print axioms Verif.Turn.single_event_elsewhere
#print axioms Verif.Turn.solver_ignores_places
#print axioms Verif.Turn.round_earth_looks_the_same
#print axioms Verif.Turn.relocation_round_the_globe
#print axioms Verif.Turn.constant_velocity_is_round
#print axioms Verif.Renumber.relocation_renumbered
#print axioms Verif.Renumber.multi_renumbered
#print axioms Verif.Renumber.solver_ignores_numbers
#print axioms Verif.Renumber.catalog_renumbered
#print axioms Verif.Renumber.same_order_same_relocation
#print axioms Verif.Renumber.selection_renumbered
#print axioms Verif.Renumber.clusters_renumbered
#print axioms Verif.Renumber.run_renumbered
#print axioms Verif.Renumber.exists_orders
#print axioms Verif.Renumber.single_event_renumbered
#print axioms Verif.Weights.system_factor
#print axioms Verif.Weights.solver_ignores_factor
#print axioms Verif.Weights.relocation_factor
#print axioms Verif.Weights.catalog_factor
#print axioms Verif.Weights.uniform_uncertainties
#print axioms Verif.Weights.single_factor
#print axioms Verif.Weights.neighbours_ignore_weights
#print axioms Verif.Weights.event_factor
#print axioms Verif.LeastSquares.corrections_proportional
#print axioms Verif.LeastSquares.corrections_odd
#print axioms Verif.LeastSquares.corrections_homogeneous
