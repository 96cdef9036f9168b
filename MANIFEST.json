{
 "claims": [
  {
   "property": "C01",
   "status": "proved",
   "theorems": [
    "Verif.Lru.lru_most_recent"
   ],
   "note": ""
  },
  {
   "property": "C02",
   "status": "proved",
   "theorems": [
    "Verif.Lru.lru_put_callback",
    "Verif.Lru.lru_callback_once"
   ],
   "note": "clear() drops entries without callback; stated for histories without clear"
  },
  {
   "property": "C03",
   "status": "proved",
   "theorems": [
    "Verif.XCorr.xcorr_antisymmetric"
   ],
   "note": ""
  },
  {
   "property": "C04",
   "status": "proved",
   "theorems": [
    "Verif.XCorr.xcorr_last_write",
    "Verif.XCorr.xcorr_self_pair_lost"
   ],
   "note": "requires distinct events; for an event paired with itself the write is lost (proved)"
  },
  {
   "property": "C05",
   "status": "proved",
   "theorems": [
    "Verif.TimeWindow.timewindow_never_negative",
    "Verif.TimeWindow.timewindow_setters",
    "Verif.TimeWindow.timewindow_contains",
    "Verif.TimeWindow.timewindow_overlap",
    "Verif.TimeWindow.timewindow_merge",
    "Verif.TimeWindow.timewindow_extend",
    "Verif.TimeWindow.timewindow_contiguous"
   ],
   "note": ""
  },
  {
   "property": "C06",
   "status": "partial",
   "theorems": [
    "Verif.Trace.trace_slice_sound",
    "Verif.Trace.trace_slice_complete_partial",
    "Verif.Trace.trace_slice_complete_exact_partial",
    "Verif.Trace.trace_slice_fails_inside",
    "Verif.Trace.trace_setEndTime"
   ],
   "note": "soundness proved in full; 'fails only when tw is not contained' is false of the code (trace_slice_fails_inside: end time rounded up to the clock), proved when the window does not end after the last sample"
  },
  {
   "property": "C07",
   "status": "partial",
   "theorems": [
    "Verif.Utc.utc_text_round_trip_partial",
    "Verif.Utc.utc_text_meaning",
    "Verif.Utc.utc_text_injective_partial",
    "Verif.Utc.utc_text_lost_before_epoch",
    "Verif.Utc.utc_text_not_a_time_before_epoch",
    "Verif.Utc.utc_text_accepts_31_february",
    "Verif.Utc.utc_text_long_fraction_ub",
    "Verif.Utc.long_fraction"
   ],
   "note": "proved for all times from 1970 to year 9999; false before 1970 (proved)"
  },
  {
   "property": "C08",
   "status": "proved",
   "theorems": [
    "Verif.Utc.utc_fields_in_range",
    "Verif.Utc.utc_calendar_correct",
    "Verif.Utc.utc_date_round_trip",
    "Verif.Utc.utc_date_injective",
    "Verif.Utc.utc_date_throws_before_epoch"
   ],
   "note": "also before 1970, except the second [-2 s, -1 s) where the code throws (proved)"
  },
  {
   "property": "C09",
   "status": "proved",
   "theorems": [
    "Verif.Csv.csv_row_round_trip",
    "Verif.Csv.csv_field_count",
    "Verif.Csv.csv_table_round_trip",
    "Verif.Csv.csv_char_after_quote_dropped"
   ],
   "note": ""
  },
  {
   "property": "C10",
   "status": "partial",
   "theorems": [
    "Verif.Csv.csv_header_mapping",
    "Verif.Csv.csv_header_repeated",
    "Verif.Csv.csv_read_with_header_partial",
    "Verif.Csv.csv_empty_file_ub"
   ],
   "note": "mapping proved in full; 'an empty file is handled' is false: undefined behaviour (csv_empty_file_ub)"
  },
  {
   "property": "C11",
   "status": "partial",
   "theorems": [
    "Verif.Catalog.Catalog.catalog_integrity",
    "Verif.Catalog.Catalog.catalog_addEvent_keep",
    "Verif.Catalog.Catalog.catalog_addEvent_new_partial",
    "Verif.Catalog.Catalog.catalog_addEvent_wraps"
   ],
   "note": "integrity for every history and id keeping proved in full; fresh ids are proved unless 2^32-1 is already an event id, where the code overwrites event 0 (proved)"
  },
  {
   "property": "C12",
   "status": "proved",
   "theorems": [
    "Verif.Catalog.Catalog.catalog_removeEvent",
    "Verif.Catalog.Catalog.catalog_extractEvent",
    "Verif.Catalog.Catalog.catalog_extract_readd"
   ],
   "note": ""
  },
  {
   "property": "C13",
   "status": "proved",
   "theorems": [
    "Verif.Catalog.Catalog.catalog_merge_new_ids",
    "Verif.Catalog.Catalog.catalog_merge_keep_ids",
    "Verif.Catalog.Catalog.catalog_merge_adopts_orphan_phase"
   ],
   "note": "the result is again well formed, so chains of merges follow; with orphan phases (kept by the file reader) it is false (proved)"
  },
  {
   "property": "C14",
   "status": "partial",
   "theorems": [
    "Verif.Catalog.Catalog.phase_classification",
    "Verif.Catalog.Catalog.fillProcessingInfo_phases",
    "Verif.Catalog.Catalog.pick_weight_range",
    "Verif.Catalog.Catalog.pick_weight_antitone_partial",
    "Verif.Catalog.Catalog.pick_weight_best_pick_lowest"
   ],
   "note": "monotonicity needs a first class limit of at most 0; otherwise an uncertainty below it gets the lowest weight (proved)"
  },
  {
   "property": "C15",
   "status": "proved",
   "theorems": [
    "Verif.IdToIndex.index_in_order_of_first_use",
    "Verif.IdToIndex.index_stable",
    "Verif.IdToIndex.index_bijection"
   ],
   "note": ""
  },
  {
   "property": "C16",
   "status": "proved",
   "theorems": [
    "Verif.DDSystem.aprod_adjoint",
    "Verif.DDSystem.aprod_sizes"
   ],
   "note": ""
  },
  {
   "property": "C17",
   "status": "proved",
   "theorems": [
    "Verif.DDSystem.aprod1_is_design_matrix",
    "Verif.DDSystem.aprod2_is_transpose",
    "Verif.DDSystem.adapter_weighted_misfit"
   ],
   "note": ""
  },
  {
   "property": "C18",
   "status": "partial",
   "theorems": [
    "Verif.DDSystem.normalisation_positive",
    "Verif.DDSystem.normalisation_same_solutions_partial",
    "Verif.DDSystem.normalisation_unit_columns",
    "Verif.DDSystem.normalisation_nan"
   ],
   "note": "needs every used column to be non-zero; a used event with a zero column makes the system NaN (proved)"
  },
  {
   "property": "C19",
   "status": "partial",
   "theorems": [
    "Verif.Solver.first_observation_wins_partial",
    "Verif.Solver.first_of_each",
    "Verif.Solver.rows_are_distinct_observations_partial",
    "Verif.Solver.observation_lost"
   ],
   "note": "in full for phase names without the separator '@'; with it two observations collide (proved)"
  },
  {
   "property": "C20",
   "status": "proved",
   "theorems": [
    "Verif.Solver.system_prepared",
    "Verif.Solver.system_prepared_unweighted",
    "Verif.Solver.prepared_in_range",
    "Verif.Solver.preparation_needs_params"
   ],
   "note": "a NaN residual weight (MAD zero) is reported as a separate outcome, not followed further"
  },
  {
   "property": "C21",
   "status": "partial",
   "theorems": [
    "Verif.Solver.residual_weights_partial",
    "Verif.Solver.residual_weight_nan",
    "Verif.Solver.residual_weights_nan"
   ],
   "note": "false with zero MAD: zero residuals get weight NaN (proved)"
  },
  {
   "property": "C22",
   "status": "proved",
   "theorems": [
    "Verif.Solver.event_changes",
    "Verif.Solver.event_phase_used"
   ],
   "note": ""
  },
  {
   "property": "C23",
   "status": "proved",
   "theorems": [
    "Verif.KdTree.tree_holds_points",
    "Verif.KdTree.tree_lookup"
   ],
   "note": ""
  },
  {
   "property": "C24",
   "status": "proved",
   "theorems": [
    "Verif.KdTree.radius_search_exact",
    "Verif.Geo.radius_search_real_partial",
    "Verif.Geo.Missed.radius_search_false"
   ],
   "note": "under the stated condition; with the code's own distances, for which the condition fails, points are missed (radius_search_false) and a weaker completeness is proved"
  },
  {
   "property": "C25",
   "status": "partial",
   "theorems": [
    "Verif.KdTree.nearest_neighbour_exact",
    "Verif.KdTree.k_nearest_exact_partial",
    "Verif.KdTree.k_nearest_zero_ub",
    "Verif.Geo.Missed.nearest_neighbour_false"
   ],
   "note": "k = 0 on a non-empty tree is undefined behaviour (proved); with the code's own distances the result can be wrong (proved)"
  },
  {
   "property": "C26",
   "status": "proved",
   "theorems": [
    "Verif.KdTree.best_first_in_order",
    "Verif.Geo.Missed.best_first_false"
   ],
   "note": "under the stated condition; with the code's own distances the order can be wrong (best_first_false)"
  },
  {
   "property": "C27",
   "status": "partial",
   "theorems": [
    "Verif.Geo.axis_bound_partial",
    "Verif.Geo.latitude_bound_partial",
    "Verif.Geo.latitude_bound_surface_partial",
    "Verif.Geo.longitude_bound_partial",
    "Verif.Geo.depth_bound_partial",
    "Verif.Geo.latitude_bound_false",
    "Verif.Geo.depth_bound_false",
    "Verif.Geo.Missed.longitude_bound_false"
   ],
   "note": "false on every axis (proved with concrete points); the partial theorems bound the excess"
  },
  {
   "property": "C28",
   "status": "partial",
   "theorems": [
    "Verif.Selection.createEventTree_wf",
    "Verif.Selection.neighbours_meet_constraints_partial",
    "Verif.Selection.selection_returns",
    "Verif.Selection.selection_fails_cleanly",
    "Verif.Selection.Example.too_few_phases"
   ],
   "note": "constraints on the event-station distances hold for the neighbour but not for the reference event (see C30); the minimum number of phases counts picks, so two picks of the same phase count twice (proved)"
  },
  {
   "property": "C29",
   "status": "partial",
   "theorems": [
    "Verif.Selection.nearest_selection_maximal_partial",
    "Verif.Selection.ellipsoid_selection_maximal_partial",
    "Verif.Selection.ellipsoid_selection_complete_partial",
    "Verif.Selection.unmatched_not_selected",
    "Verif.Selection.Example.no_limit_differs",
    "Verif.Geo.eligible_event_lost"
   ],
   "note": "proved when the axis distances are admissible (nearest mode) and when the layers are searched at the right distances (ellipsoid mode); false in general: an eligible event is lost in the code's own geometry (proved)"
  },
  {
   "property": "C30",
   "status": "partial",
   "theorems": [
    "Verif.Selection.reference_limits_ineffective",
    "Verif.Selection.Example.reference_station_too_far"
   ],
   "note": "false: the two limits are joined by OR, so they never reject a station of the reference event (both theorems prove the negation)"
  },
  {
   "property": "C31",
   "status": "proved",
   "theorems": [
    "Verif.Selection.catalog_selection_closed",
    "Verif.Selection.catalog_selection_fails_cleanly"
   ],
   "note": "in full, for any iteration order of the containers, including termination; also for catalogs with unknown stations, for which the only other end is an exception"
  },
  {
   "property": "C32",
   "status": "proved",
   "theorems": [
    "Verif.Clusters.clusters_are_components",
    "Verif.Clusters.selected_wf"
   ],
   "note": "in full, for any choice of the next event; the hypotheses hold for the result of the catalog-wide selection (selected_wf)"
  },
  {
   "property": "C33",
   "status": "proved",
   "theorems": [
    "Verif.Clusters.pairs_used_once"
   ],
   "note": "in full; when the two directions of a pair list different phases those of the dropped direction are not kept (see Kept)"
  },
  {
   "property": "C34",
   "status": "partial",
   "theorems": [
    "Verif.Selection.exactly_one_layer",
    "Verif.Selection.round_robin_not_stuck",
    "Verif.Geo.isInside_iff",
    "Verif.Geo.some_quadrant",
    "Verif.Geo.exactly_one_real_layer",
    "Verif.Geo.layered_partial",
    "Verif.Geo.layer_ranges_miss",
    "Verif.Geo.eligible_event_lost"
   ],
   "note": "one layer and at least one quadrant: in full; never stuck: true for events at the depth of the centre, above it or well below it, false for events slightly below it (proved)"
  },
  {
   "property": "C35",
   "status": "proved",
   "theorems": [
    "Verif.XCorr.correlation_exact",
    "Verif.XCorr.abs_pearson_le_one"
   ],
   "note": "in full over exact reals; when no coefficient is defined NaN and the last delay are returned"
  },
  {
   "property": "C36",
   "status": "proved",
   "theorems": [
    "Verif.XCorr.crosscorr_antisymmetric",
    "Verif.XCorr.xcorr_bounded",
    "Verif.XCorr.negative_delay_ub",
    "Verif.XCorr.huge_delay_ub",
    "Verif.XCorr.empty_trace_ub"
   ],
   "note": "in full for non-empty traces and a maximum delay that is not negative and fits in an int; outside of that undefined behaviour is shown"
  },
  {
   "property": "C37",
   "status": "partial",
   "theorems": [
    "Verif.Waveform.memcache_first_answer",
    "Verif.Waveform.memcache_transparent_partial",
    "Verif.Waveform.request_id_injective",
    "Verif.Waveform.Example.memcache_ignores_filter",
    "Verif.Waveform.Example.memcache_ignores_event",
    "Verif.Waveform.Example.memcache_key_collision"
   ],
   "note": "every history: an id is passed on once and all requests with it get the first answer, also an unavailable one; transparent when requests with the same window, stream and transformation agree in filter, sampling frequency and (rotated) event position; false otherwise (proved)"
  },
  {
   "property": "C38",
   "status": "partial",
   "theorems": [
    "Verif.Waveform.disk_cache_transparent_partial",
    "Verif.Waveform.disk_cache_failed_load",
    "Verif.Waveform.disk_cache_hit_forever",
    "Verif.Waveform.disk_cache_store",
    "Verif.Waveform.waveform_id_injective",
    "Verif.Waveform.disk_cache_poisoned"
   ],
   "note": "in full except for writes interrupted half way, which poison the cache for ever (proved)"
  },
  {
   "property": "C39",
   "status": "partial",
   "theorems": [
    "Verif.Waveform.Batch.batch_requests_once",
    "Verif.Waveform.Batch.batch_available",
    "Verif.Waveform.Batch.batch_available_iff_partial",
    "Verif.Waveform.Batch.batch_nothing_before_load",
    "Verif.Waveform.Batch.Example.batch_delivered_but_unavailable",
    "Verif.Waveform.Batch.Example.batch_order_matters"
   ],
   "note": "each distinct waveform is requested exactly once: in full; available iff delivered: for traces whose duration is a whole number of microseconds, false otherwise (proved)"
  },
  {
   "property": "C40",
   "status": "partial",
   "theorems": [
    "Verif.Waveform.load_window_contains",
    "Verif.Waveform.load_window_aligned_partial",
    "Verif.Waveform.extra_len_covers",
    "Verif.Waveform.load_window_not_aligned_before_1970"
   ],
   "note": "containment for all times; alignment to full seconds from 1970 on, false before (proved)"
  },
  {
   "property": "C41",
   "status": "partial",
   "theorems": [
    "Verif.Waveform.rotation_isometry",
    "Verif.Waveform.rotation_projects",
    "Verif.Waveform.rotation_horizontal",
    "Verif.Waveform.rotation_away_from_event",
    "Verif.Waveform.transform_l2_output",
    "Verif.Waveform.transform_rt_output_partial",
    "Verif.Waveform.transforms_succeed",
    "Verif.Waveform.transform_rt_start_time_wrong",
    "Verif.Waveform.transform_l2_disjoint_ub",
    "Verif.Waveform.rotation_needs_orthogonal"
   ],
   "note": "isometry in full; the start time of rotated traces is wrong when the first horizontal trace does not start last (proved); the combined horizontal trace has the right one"
  },
  {
   "property": "C42",
   "status": "partial",
   "theorems": [
    "Verif.Grid.grid_file_roundtrip",
    "Verif.Grid.grid_offsets_disjoint",
    "Verif.Grid.grid_read_safe_partial",
    "Verif.Grid.grid_read_wraps",
    "Verif.Grid.grid_read_aliases",
    "Verif.Grid.grid_failed_load_reads_zeros"
   ],
   "note": "for every declared size below 2^64 bytes; beyond that the unvalidated header makes the bound test wrap around (witnesses of an out-of-file read and of aliased nodes); a failed load leaves the grid readable as zeros (witness)"
  },
  {
   "property": "C43",
   "status": "proved",
   "theorems": [
    "Verif.Grid.grid_interpolates_3d",
    "Verif.Grid.grid_exact_at_nodes",
    "Verif.Grid.grid_bounded_by_cell",
    "Verif.Grid.grid_continuous",
    "Verif.Grid.grid_outside_throws",
    "Verif.Grid.grid_interpolates_2d",
    "Verif.Grid.grid_single_layer_unusable",
    "Verif.Grid.grid_zero_cell_ub"
   ],
   "note": "in full over an ordered field for grids with at least two nodes per axis; axes with one node cannot be read and a zero cell size is undefined behaviour (proved)"
  },
  {
   "property": "C44",
   "status": "partial",
   "theorems": [
    "Verif.Geo.transform_arguments_checked",
    "Verif.Geo.global_round_trip_partial",
    "Verif.Geo.simple_round_trip_partial",
    "Verif.Geo.simple_round_trip_grid",
    "Verif.Geo.sdc_round_trip_partial",
    "Verif.Geo.rotation_isometry",
    "Verif.Geo.azimuthal_round_trip_partial",
    "Verif.Geo.azimuthal_distance",
    "Verif.Geo.azimuthal_antipode",
    "Verif.Geo.lambert_cone",
    "Verif.Geo.lambert_round_trip_partial",
    "Verif.Geo.lambert_round_trip_cone",
    "Verif.Geo.lambert_far_side",
    "Verif.Geo.lambert_opposite_parallels",
    "Verif.Geo.transverse_mercator_origin",
    "Verif.Geo.transverse_mercator_meridian_partial",
    "Verif.Geo.transverse_mercator_meridian_round_trip",
    "Verif.Geo.transverse_mercator_northing",
    "Verif.Geo.transverse_mercator_inexact"
   ],
   "note": "exact for GLOBAL, SIMPLE, SDC and AZIMUTHAL_EQUIDIST; for LAMBERT the longitude is exact and the latitude within 1e-8 degrees, up to 90 degrees of longitude from the origin; TRANS_MERC only on the central meridian, where the latitude is within 1e-7 degrees and the northing is the arc length to 2 mm per degree (the two series are not inverse of each other, no error bound is proved away from it)"
  },
  {
   "property": "C45",
   "status": "partial",
   "theorems": [
    "Verif.Geo.normalised_longitude",
    "Verif.Geo.normalised_azimuth",
    "Verif.Geo.origin_azimuth",
    "Verif.Geo.grid_angle_round_trip_partial",
    "Verif.Geo.grid_angle_full_turn"
   ],
   "note": "in full for longitudes and azimuths; the grid angle conversion returns values in the closed range [0,360], so 360 is possible (proved)"
  },
  {
   "property": "C46",
   "status": "partial",
   "theorems": [
    "Verif.NllGrid.open_grids_bounded_partial",
    "Verif.NllGrid.grid_open_when_read",
    "Verif.NllGrid.open_grids_unbounded_at_zero",
    "Verif.NllGrid.close_open_files_leaks",
    "Verif.NllGrid.failed_load_is_used_later"
   ],
   "note": "for every history without closeOpenFiles and a maximum of at least one; both exceptions are shown to be real"
  },
  {
   "property": "C47",
   "status": "partial",
   "theorems": [
    "Verif.Relocate.relocate_returns",
    "Verif.Relocate.relocate_returns_solved_partial",
    "Verif.Relocate.relocate_content",
    "Verif.Relocate.marked_event_returned"
   ],
   "note": "which events are returned is characterised in full for every run; the English claim holds for inputs without marks from an earlier relocation, and fails with them (witness)"
  },
  {
   "property": "C48",
   "status": "partial",
   "theorems": [
    "Verif.Relocate.parameter_interpolation_partial",
    "Verif.Relocate.relocation_parameters",
    "Verif.Relocate.relocation_iterations",
    "Verif.Relocate.single_iteration_uses_mean",
    "Verif.Relocate.reporting_iteration_overshoots"
   ],
   "note": "for two iterations or more; with one iteration the mean is used (proved), and the reporting iteration overshoots (proved)"
  },
  {
   "property": "C49",
   "status": "partial",
   "theorems": [
    "Verif.Relocate.event_restored_partial",
    "Verif.Relocate.neighbour_only_event_stays_outside"
   ],
   "note": "for events with pairs of their own; an event that is only a neighbour of others is not restored (witness)"
  },
  {
   "property": "C50",
   "status": "partial",
   "theorems": [
    "Verif.Relocate.single_event_only_target_partial",
    "Verif.Relocate.single_event_needs_neighbours",
    "Verif.SingleEvent.single_event_call_partial"
   ],
   "note": "the whole call, with the travel-time table, the correlations and the solver as parameters; background ids below 2^32-1 and, for what is returned, background events without marks from an earlier relocation"
  },
  {
   "property": "C51",
   "status": "partial",
   "theorems": [
    "Verif.Scheduler.scheduler_processes_due_partial",
    "Verif.Scheduler.scheduler_processes_spaced_partial",
    "Verif.Scheduler.scheduler_offline_exact",
    "Verif.Scheduler.scheduler_loses_job"
   ],
   "note": "false as stated: two objects due at the same wake-up lose the second (proved); holds when at most one object is due per wake-up, in particular when announcements are spaced, and for offline processing"
  },
  {
   "property": "C52",
   "status": "proved",
   "theorems": [
    "Verif.Scheduler.scheduler_one_job_per_wakeup",
    "Verif.Scheduler.scheduler_queue_nodup",
    "Verif.Scheduler.scheduler_starts_only_elapsed",
    "Verif.Scheduler.scheduler_start_count",
    "Verif.Scheduler.scheduler_interval",
    "Verif.Scheduler.scheduler_failed_forgotten"
   ],
   "note": ""
  },
  {
   "property": "C53",
   "status": "partial",
   "theorems": [
    "Verif.Region.rect_region_partial",
    "Verif.Region.other_regions",
    "Verif.Region.profile_selection",
    "Verif.Region.profile_needs_coordinates",
    "Verif.Region.profile_by_name",
    "Verif.Region.rect_region_misses_date_line"
   ],
   "note": "profile selection in full; the rectangular region test is wrong only for the meridian exactly one turn east of its western edge (proved)"
  },
  {
   "property": "C54",
   "status": "partial",
   "theorems": [
    "Verif.AzGap.azimuthal_gap_primary",
    "Verif.AzGap.azimuthal_gap_secondary_partial",
    "Verif.AzGap.azimuthal_gap_order",
    "Verif.AzGap.azimuthal_gap_secondary_counts_phases"
   ],
   "note": "the secondary gap is exact over arrivals; as the gap left when removing any one station it is false when a station has two phases (proved)"
  },
  {
   "property": "C55",
   "status": "proved",
   "theorems": [
    "Verif.Requests.requests_terminate",
    "Verif.Requests.requests_covered",
    "Verif.Requests.requests_one_stream_per_station",
    "Verif.Requests.requests_not_invented",
    "Verif.Requests.requests_cover_caller_windows"
   ],
   "note": ""
  },
  {
   "property": "C56",
   "status": "partial",
   "theorems": [
    "Verif.Stats.median_is_middle",
    "Verif.Stats.median_splits",
    "Verif.Stats.mad_correct",
    "Verif.Stats.mean_correct",
    "Verif.Stats.five_numbers_partial",
    "Verif.Stats.five_numbers_ordered",
    "Verif.Stats.five_numbers_ub"
   ],
   "note": "the five number summary needs at least four values; with one to three it is undefined behaviour (proved)"
  },
  {
   "property": "C57",
   "status": "proved",
   "theorems": [
    "Verif.LeastSquares.vector_norm_is_euclidean",
    "Verif.LeastSquares.pair_norm_is_euclidean",
    "Verif.LeastSquares.vector_norm_scaled"
   ],
   "note": "over exact reals"
  },
  {
   "property": "C58",
   "status": "proved",
   "theorems": [
    "Verif.LeastSquares.lsqr_ends",
    "Verif.LeastSquares.lsmr_ends",
    "Verif.LeastSquares.solver_limit",
    "Verif.LeastSquares.bidiagonalization",
    "Verif.LeastSquares.solvers_vectors",
    "Verif.LeastSquares.lsqr_result",
    "Verif.LeastSquares.lsmr_result",
    "Verif.LeastSquares.gradient_bounds_error"
   ],
   "note": "the bound on the iterations for numbers with arbitrary operations (rounding, NaN); the rest over exact reals; with a limit of zero one iteration is made"
  },
  {
   "property": "C59",
   "status": "partial",
   "theorems": [
    "Verif.PairFile.pair_file_round_trip_partial",
    "Verif.PairFile.lonely_event_lost",
    "Verif.PairFile.no_events_no_file",
    "Verif.PairFile.Example.unknown_station_ub",
    "Verif.PairFile.Example.comma_cut"
   ],
   "note": "the whole structure is restored when all stations are known, texts contain no separator and every event occurs in some pair; an event in no pair is lost, an unknown station is undefined behaviour, a comma in a phase name is not quoted (all proved)"
  },
  {
   "property": "C60",
   "status": "proved",
   "theorems": [
    "Verif.Relocate.xcorr_computed_once",
    "Verif.Relocate.xcorr_cache_exact",
    "Verif.Relocate.xcorr_cache_origin",
    "Verif.Relocate.xcorr_build_succeeds",
    "Verif.Relocate.multi_event_correlations"
   ],
   "note": "for every cluster in which no event is its own neighbour; the correlation of two picks is an arbitrary parameter that may answer differently each time; also over all clusters of a multi-event relocation"
  },
  {
   "property": "C61",
   "status": "proved",
   "theorems": [
    "Verif.Relocate.observations_correct",
    "Verif.Relocate.observation_weight",
    "Verif.Relocate.observations_complete",
    "Verif.Relocate.observations_have_parameters"
   ],
   "note": "over an ordered field; times as integer microseconds, the cross-correlation cache as modelled for C03"
  },
  {
   "property": "C62",
   "status": "proved",
   "theorems": [
    "Verif.Geo.distance_is_great_circle",
    "Verif.Geo.distance_close_to_great_circle",
    "Verif.Geo.distance_3d",
    "Verif.Geo.event_station_distance",
    "Verif.Geo.station_above_event"
   ],
   "note": ""
  },
  {
   "property": "C63",
   "status": "proved",
   "theorems": [
    "Verif.Geo.destination_at_distance",
    "Verif.Geo.destination_round_trip"
   ],
   "note": "the return trip is stated for distances above 4e-9 rad, below which the code may treat the points as identical"
  },
  {
   "property": "C64",
   "status": "partial",
   "theorems": [
    "Verif.Selection.catalog_selection_greatest",
    "Verif.Selection.catalog_selection_largest_partial"
   ],
   "note": "In every mode the result is the largest set of events with enough neighbours among themselves, where the neighbours are those the selection finds when the set is all there is (positive minimum number of phases). In terms of eligibility: search without ellipsoids, axis distances that are lower bounds (see C27) and no phase picked twice; otherwise the selection itself misses eligible events (C29)."
  },
  {
   "property": "C65",
   "status": "partial",
   "theorems": [
    "Verif.XCorr.correlation_windows",
    "Verif.XCorr.pair_antisymmetric_partial",
    "Verif.XCorr.Example.tie_not_antisymmetric",
    "Verif.XCorr.empty_window_ub"
   ],
   "note": "windows in full; the opposite order gives the opposite lag unless both directions are tried and tie, in which case it is false (proved)"
  },
  {
   "property": "C66",
   "status": "partial",
   "theorems": [
    "Verif.Waveform.resample_time_base",
    "Verif.Waveform.resample_homogeneous",
    "Verif.Waveform.resample_window_partial",
    "Verif.Waveform.process_defined",
    "Verif.Waveform.resample_first_sample_twice",
    "Verif.Waveform.resample_beyond_end"
   ],
   "note": "time base, number of samples, linearity and absence of undefined behaviour in full; the first input sample is used twice near the start and the result can extend beyond the data (proved)"
  },
  {
   "property": "C67",
   "status": "partial",
   "theorems": [
    "Verif.TravelTime.azimuth_within_arc_partial",
    "Verif.TravelTime.azimuth_exact_at_nodes",
    "Verif.TravelTime.azimuth_constant",
    "Verif.TravelTime.dip_and_quality",
    "Verif.TravelTime.angles_roundtrip",
    "Verif.TravelTime.azimuth_opposite_is_north"
   ],
   "note": "for corner azimuths within less than 90 degrees of a direction; opposite azimuths cancel to north (witness)"
  },
  {
   "property": "C68",
   "status": "proved",
   "theorems": [
    "Verif.TravelTime.homogeneous_times_agree",
    "Verif.TravelTime.homogeneous_derivatives"
   ],
   "note": "over exact reals; the two times agree up to the time for 0.1 mm because of the shortcut for equal depths"
  },
  {
   "property": "C69",
   "status": "proved",
   "theorems": [
    "Verif.TravelTime.velocity_units",
    "Verif.TravelTime.grid_derivatives",
    "Verif.TravelTime.grid_derivatives_agree"
   ],
   "note": "over exact reals, for positive velocities"
  },
  {
   "property": "C70",
   "status": "partial",
   "theorems": [
    "Verif.Relocate.parameters_correct",
    "Verif.Relocate.horizontal_derivative",
    "Verif.Relocate.iteration_parameters_partial",
    "Verif.Relocate.restored_event_stale_residual"
   ],
   "note": "over an ordered field; the geometry of the horizontal derivatives over exact reals; for each call and for whole iterations, except that parameters of a restored event may describe the place it was restored from (witness)"
  },
  {
   "property": "C71",
   "status": "proved",
   "theorems": [
    "Verif.Relocate.solution_applied",
    "Verif.Relocate.relocation_endpoints"
   ],
   "note": "the conversion of km to degrees is a parameter (its properties are C63)"
  },
  {
   "property": "C72",
   "status": "partial",
   "theorems": [
    "Verif.Relocate.multi_event_result",
    "Verif.Relocate.multi_event_solved_partial",
    "Verif.Relocate.multi_event_all_move",
    "Verif.Relocate.marked_event_relocation_lost"
   ],
   "note": "what is combined is characterised in full for every run; the English claim holds for disjoint clusters and inputs without marks from an earlier relocation, and fails with marks (witness)"
  },
  {
   "property": "C73",
   "status": "proved",
   "theorems": [
    "Verif.LeastSquares.solve_lsqr",
    "Verif.LeastSquares.solve_lsmr"
   ],
   "note": "over exact reals, for systems whose used columns are not zero when normalising"
  },
  {
   "property": "C74",
   "status": "proved",
   "theorems": [
    "Verif.XCorrFile.xcorr_file_round_trip",
    "Verif.XCorrFile.six_decimals_exact",
    "Verif.XCorrFile.xcorr_file_meaning",
    "Verif.XCorrFile.Example.threshold_crossed",
    "Verif.XCorrFile.Example.unknown_station"
   ],
   "note": "rounding to doubles is an arbitrary odd function; numbers are finite and at most 10^308"
  },
  {
   "property": "C75",
   "status": "proved",
   "theorems": [
    "Verif.CatalogFile.catalog_file_round_trip",
    "Verif.CatalogFile.Example.phase_information_lost",
    "Verif.CatalogFile.Example.unknown_station_unreadable",
    "Verif.CatalogFile.Example.comma_shifts_columns",
    "Verif.CatalogFile.Example.tiny_residual_unreadable"
   ],
   "note": "rounding to doubles is an arbitrary function; numbers are in the range of doubles of full precision, a tiny residual is written but cannot be read (proved)"
  },
  {
   "property": "C76",
   "status": "proved",
   "theorems": [
    "Verif.SeisComP.add_origins",
    "Verif.SeisComP.add_origins_succeeds",
    "Verif.SeisComP.add_origin_ids",
    "Verif.SeisComP.add_origin_file",
    "Verif.SeisComP.Example.short_constructors_ub",
    "Verif.SeisComP.Example.magnitude_not_found",
    "Verif.SeisComP.Example.unused_arrival_kept",
    "Verif.SeisComP.Example.origin_without_depth_throws"
   ],
   "note": "the SeisComP data model is external: attributes, lookups and the inventory are arbitrary functions"
  },
  {
   "property": "C77",
   "status": "proved",
   "theorems": [
    "Verif.SeisComP.origin_from_event",
    "Verif.SeisComP.relocation_reuses_picks",
    "Verif.SeisComP.no_used_phase_ub",
    "Verif.SeisComP.Example.shared_pick_loses_arrival"
   ],
   "note": "SeisComP refuses a second arrival with the same pick; generated public ids are new; distances and azimuths are those of an arbitrary function"
  },
  {
   "property": "C78",
   "status": "proved",
   "theorems": [
    "Verif.Catalog.Catalog.catalog_of_lists",
    "Verif.Catalog.Catalog.catalog_of_rows",
    "Verif.Catalog.Catalog.add_phase",
    "Verif.Catalog.Catalog.remove_phase",
    "Verif.Catalog.Catalog.add_station",
    "Verif.Catalog.Catalog.update_station",
    "Verif.Catalog.Catalog.update_event",
    "Verif.Catalog.Catalog.search_phase",
    "Verif.Catalog.Catalog.search_station",
    "Verif.Catalog.Catalog.EditExample.dotted_codes_confused"
   ],
   "note": "search by codes for network and station codes without dots"
  },
  {
   "property": "C79",
   "status": "proved",
   "theorems": [
    "Verif.Neighbours.neighbours_remember"
   ],
   "note": ""
  },
  {
   "property": "C80",
   "status": "partial",
   "theorems": [
    "Verif.Daemon.job_result",
    "Verif.Daemon.nothing_to_do",
    "Verif.Daemon.job_succeeds",
    "Verif.Daemon.run_history",
    "Verif.Daemon.test_mode_sends_nothing",
    "Verif.Daemon.run_scheduler",
    "Verif.Daemon.run_never_stops_partial",
    "Verif.Daemon.Example.no_evaluation_mode_stops",
    "Verif.Daemon.Example.no_depth_stops",
    "Verif.Daemon.Example.no_arrivals_ub",
    "Verif.Daemon.Example.no_database_ub",
    "Verif.Daemon.Example.old_preferred_origin"
   ],
   "note": "Proved for all histories: which origins are relocated, with which profile, what is published, and that the application goes on if the jobs succeed. Jobs that should be rejected with a message stop the application instead (findings), and an event that arrives again keeps its old preferred origin. Message objects are values; clock readings are whole seconds."
  },
  {
   "property": "C81",
   "status": "proved",
   "theorems": [
    "Verif.Daemon.profile_moment",
    "Verif.Daemon.profile_reload",
    "Verif.Daemon.profile_fresh",
    "Verif.Daemon.profile_kept",
    "Verif.Daemon.profile_freed",
    "Verif.Daemon.Example.all_profiles_loaded"
   ],
   "note": "For all histories. What loading a profile gives is a parameter that may change at every moment. Clock readings are whole seconds."
  },
  {
   "property": "C82",
   "status": "proved",
   "theorems": [
    "Verif.Daemon.two_steps",
    "Verif.Daemon.two_steps_result",
    "Verif.Daemon.Example.start_rms_lost",
    "Verif.Daemon.Example.first_step_lost"
   ],
   "note": "The content of a moved-from catalog is arbitrary in two_steps and empty in two_steps_result."
  },
  {
   "property": "C83",
   "status": "partial",
   "theorems": [
    "Verif.Relocate.residuals_reported",
    "Verif.Relocate.start_values_kept",
    "Verif.Relocate.returned_residuals",
    "Verif.Relocate.others_untouched",
    "Verif.Relocate.pick_marks_partial",
    "Verif.Relocate.restored_event_stale_residual",
    "Verif.Relocate.old_pick_mark_returned"
   ],
   "note": "The residuals reported are those given to the solver, which describe the hypocentre (C70) except for restored events (witness); marks of picks for inputs without marks, with them they fail (witness)."
  },
  {
   "property": "C84",
   "status": "partial",
   "theorems": [
    "Verif.NllGrid.missing_grid_not_searched_again",
    "Verif.NllGrid.failed_grid_given_up",
    "Verif.NllGrid.no_descriptor_kept",
    "Verif.NllGrid.failed_map_keeps_descriptor"
   ],
   "note": "a station without a grid in full; a grid that failed to load is given up only once it has left the list of grids in use (failed_load_is_used_later shows the retry); descriptors as long as no call of the operating system fails (witness otherwise)"
  },
  {
   "property": "C85",
   "status": "partial",
   "theorems": [
    "Verif.GridHeader.header_accepted_iff",
    "Verif.GridHeader.accepted_header_has_transform",
    "Verif.GridHeader.transform_line_iff",
    "Verif.GridHeader.accepted_transform_constructed",
    "Verif.GridHeader.header_defined",
    "Verif.GridHeader.transform_lines_only",
    "Verif.GridHeader.station_line_missing",
    "Verif.GridHeader.nan_origin_accepted"
   ],
   "note": "which headers are accepted and what is read from them, in full for velocity grids and for time and angle grids whose station is read; transform lines are counted like the others, so that two or three of them pass for a missing line (witnesses), and not-a-number passes the range checks (witness)"
  },
  {
   "property": "C86",
   "status": "partial",
   "theorems": [
    "Verif.GridHeader.time_grids_found",
    "Verif.GridHeader.angle_grids_found",
    "Verif.GridHeader.velocity_grid_found",
    "Verif.GridHeader.search_order",
    "Verif.GridHeader.search_completes_partial",
    "Verif.GridHeader.access_method_checked",
    "Verif.GridHeader.search_undefined"
   ],
   "note": "which grids are found, in full; that the search ends, for headers with at most one transform line each (witness of undefined behaviour with two)"
  },
  {
   "property": "C87",
   "status": "partial",
   "theorems": [
    "Verif.CatalogFile.number_text",
    "Verif.CatalogFile.id_text",
    "Verif.CatalogFile.header_row_iff",
    "Verif.CatalogFile.catalog_files_accepted_iff",
    "Verif.CatalogFile.catalog_files_meaning",
    "Verif.CatalogFile.catalog_files_defined_partial",
    "Verif.CatalogFile.Example.blank_line_rejected",
    "Verif.CatalogFile.Example.negative_id_accepted",
    "Verif.CatalogFile.Example.long_id_collides",
    "Verif.CatalogFile.Example.empty_file_undefined"
   ],
   "note": "acceptance and meaning are proved for every content of the files; the rejection by an exception is false for an empty file and for a time whose fraction does not fit an int (undefined behaviour), so it is proved for the other files"
  },
  {
   "property": "C88",
   "status": "partial",
   "theorems": [
    "Verif.Access.preload_requests",
    "Verif.Access.preload_transparent",
    "Verif.Access.preload_succeeds_partial",
    "Verif.Access.unclassified_pick_fails",
    "Verif.Access.unclassified_pick_not_relocated"
   ],
   "note": "What is asked for and that the result does not change are proved whenever the requests can be collected; they can when every pick is a P or S pick. With a pick of another phase the call throws (witness). The memory cache around the processors is left out (C37)."
  },
  {
   "property": "C89",
   "status": "proved",
   "theorems": [
    "Verif.Daemon.session_history",
    "Verif.Daemon.session_results",
    "Verif.Daemon.reload_replies"
   ],
   "note": "The history given by the messages is one of those of C80 and C81. Message objects are values; whether the reply reaches the sender is left to the messaging system."
  },
  {
   "property": "C90",
   "status": "proved",
   "theorems": [
    "Verif.CommandLine.tokens_commaSeparated",
    "Verif.CommandLine.given_origins_relocated",
    "Verif.CommandLine.origin_ids_relocated",
    "Verif.CommandLine.xml_origins_relocated",
    "Verif.CommandLine.given_origins_succeed"
   ],
   "note": "The order, number and results of the relocations are stated for all lists of origins whose ids mean one origin each; the command ends normally under the conditions listed in Can."
  },
  {
   "property": "C91",
   "status": "proved",
   "theorems": [
    "Verif.CommandLine.merge_keeping_ids",
    "Verif.CommandLine.merge_with_new_ids",
    "Verif.CommandLine.merge_needs_triplets",
    "Verif.CommandLine.merge_missing_file",
    "Verif.CommandLine.merged_files_read_back"
   ],
   "note": "For all files that are accepted; with new ids the total number of events must be below 2^32. Phases whose event is not in the event file are left out."
  },
  {
   "property": "C92",
   "status": "partial",
   "theorems": [
    "Verif.CommandLine.relocated_catalog_xml",
    "Verif.CommandLine.relocate_catalog_fails",
    "Verif.CommandLine.catalog_of_ids",
    "Verif.CommandLine.catalog_of_files",
    "Verif.CommandLine.unused_event_ub"
   ],
   "note": "Proved for relocated catalogs in which every event has a used phase and no two phases with the same time and channel; false otherwise: unused_event_ub proves that an event without used phases makes the program read from an empty list."
  },
  {
   "property": "C93",
   "status": "partial",
   "theorems": [
    "Verif.CommandLine.mode_first",
    "Verif.CommandLine.sends_iff",
    "Verif.CommandLine.offline_iff",
    "Verif.CommandLine.reload_request",
    "Verif.CommandLine.reload_request_offline_ub"
   ],
   "note": "All of it holds except that a reload request combined with an option that switches messaging off uses a missing connection (reload_request_offline_ub)."
  },
  {
   "property": "C94",
   "status": "proved",
   "theorems": [
    "Verif.Access.pair_correlation",
    "Verif.Access.pair_entry",
    "Verif.Access.pair_bounds",
    "Verif.Access.pair_safe"
   ],
   "note": "Traces are lists of reals and sampling rates rationals; the waveform processors are parameters."
  },
  {
   "property": "C95",
   "status": "proved",
   "theorems": [
    "Verif.Preload.preload_downloads",
    "Verif.Preload.preload_keeps",
    "Verif.Preload.preload_cached",
    "Verif.Preload.preload_then_correlate",
    "Verif.Preload.preload_again",
    "Verif.Preload.preload_finishes"
   ],
   "note": "File names tell waveforms apart: codes without dots and years 1970-9999 (C38). What was written before an exception is not followed up."
  },
  {
   "property": "C96",
   "status": "proved",
   "theorems": [
    "Verif.Tables.native_grid_table",
    "Verif.Tables.homogeneous_table",
    "Verif.Tables.plugin_table",
    "Verif.Tables.other_table",
    "Verif.Tables.native_and_plugin_agree",
    "Verif.Tables.native_grid_phases",
    "Verif.Tables.refused_with_exception",
    "Verif.Tables.max_open_files_wraps",
    "Verif.Tables.empty_part_lost"
   ],
   "note": "Separators in a row count as one and the number of open files has 32 bits (empty_part_lost, max_open_files_wraps). What grids answer is a parameter; SeisComP API 16 or later; the path of a model does not end with a slash."
  },
  {
   "property": "C97",
   "status": "partial",
   "theorems": [
    "Verif.Tables.phase_times",
    "Verif.Tables.failed_model_is_empty",
    "Verif.Tables.all_phases",
    "Verif.Tables.first_arrival",
    "Verif.Tables.first_arrival_misses_p",
    "Verif.Tables.outside_p_grid_hides_s"
   ],
   "note": "All of it holds except that the list and the first arrival have only the phases named P and S (first_arrival_misses_p) and fail when the event is outside one of the two grids (outside_p_grid_hides_s)."
  },
  {
   "property": "C98",
   "status": "partial",
   "theorems": [
    "Verif.SingleEvent.number_irrelevant_partial",
    "Verif.SingleEvent.one_event_form",
    "Verif.SingleEvent.number_matters",
    "Verif.Daemon.origin_has_number_one"
   ],
   "note": "Holds among the numbers that no background event has; false otherwise (number_matters), and the application always passes number 1 (origin_has_number_one)."
  },
  {
   "property": "C99",
   "status": "partial",
   "theorems": [
    "Verif.ClusterFiles.dumped_clusters_read_back_partial",
    "Verif.ClusterFiles.relocation_from_files_partial",
    "Verif.ClusterFiles.relocation_of_some_clusters_partial",
    "Verif.ClusterFiles.lonely_cluster_not_read_back",
    "Verif.ClusterFiles.missing_cluster_file_undefined"
   ],
   "note": "Proved if at least one neighbour is required and codes have no commas, quotes or line ends; an event without neighbours is lost otherwise (lonely_cluster_not_read_back). Containers with the same events are visited in the same order in both runs."
  },
  {
   "property": "C100",
   "status": "proved",
   "theorems": [
    "Verif.Relocate.saved_results_reused",
    "Verif.Relocate.result_writable"
   ],
   "note": "The first run starts without results; codes have no commas, quotes or line ends; coefficients and lags are at most 10^308."
  },
  {
   "property": "C101",
   "status": "proved",
   "theorems": [
    "Verif.Relocate.catalog_relocation_completes",
    "Verif.Relocate.clusters_relocation_completes",
    "Verif.Relocate.single_relocation_completes",
    "Verif.Relocate.pairs_fit",
    "Verif.Relocate.pair_without_pick_undefined",
    "Verif.Relocate.pair_unclassified_throws"
   ],
   "note": "Real arithmetic; a configured minimum of more than 34 neighbours is excluded for single events (see C50), phase names contain no @, both wave types have a threshold. Pair files that name picks the catalog does not have are outside (pair_without_pick_undefined)."
  },
  {
   "property": "C102",
   "status": "proved",
   "theorems": [
    "Verif.Iteration.iteration_minimises",
    "Verif.Iteration.relocation_minimises"
   ],
   "note": "Real arithmetic. Regular excludes the values for which the program computes with NaN (deviation zero with residual weights, a scaled column that is zero: C18, C20). The tolerance depends on the stopping reason, as stated in Guarantee; the limit of iterations (a reason of its own) promises only what holds for LSQR, no worse than no change."
  },
  {
   "property": "C103",
   "status": "proved",
   "theorems": [
    "Verif.LeastSquares.lsqr_accepts",
    "Verif.LeastSquares.lsmr_accepts",
    "Verif.Iteration.iteration_solved",
    "Verif.Iteration.usual_damping",
    "Verif.Iteration.relocation_all_iterations"
   ],
   "note": "Real arithmetic; same regularity as C102."
  },
  {
   "property": "C104",
   "status": "partial",
   "theorems": [
    "Verif.WfAccess.waveforms_unchanged_partial",
    "Verif.WfAccess.constructed_off",
    "Verif.WfAccess.enable_failed",
    "Verif.WfAccess.preload_failed",
    "Verif.WfAccess.Example.preload_not_repaired"
   ],
   "note": "False after failed calls (witnesses). Proved from any state on, once the cache is switched on or off without failure. Uses of a waveform with different filters or positions (C37) and traces cut short on disk (C38) are excluded; a data centre whose longer waveform, cut, differs from the shorter one is excluded by KeepsLonger."
  },
  {
   "property": "C105",
   "status": "partial",
   "theorems": [
    "Verif.Configuration.starts_iff",
    "Verif.Configuration.profiles_configured_partial",
    "Verif.Configuration.parameter_owner",
    "Verif.Configuration.profiles_independent",
    "Verif.Configuration.selected_by_region",
    "Verif.Configuration.selected_by_name",
    "Verif.Configuration.database_kept",
    "Verif.Configuration.Example.negative_wraps",
    "Verif.Configuration.Example.unknown_type_is_circle",
    "Verif.Configuration.Example.mistyped_is_default",
    "Verif.Configuration.Example.two_files_are_origin_ids"
   ],
   "note": "False of negative whole numbers (witness); proved for the others. The getters of SeisComP are parameters: a value of another type is a missing one."
  },
  {
   "property": "C106",
   "status": "partial",
   "theorems": [
    "Verif.Dump.waveforms_dumped_partial",
    "Verif.Dump.file_names",
    "Verif.Dump.no_clash",
    "Verif.Dump.Example.two_picks_one_file"
   ],
   "note": "False if an event has two picks of the same type at a station (witness); proved if no two different waveforms have the same file, which follows if codes have no dots and picks are unique."
  },
  {
   "property": "C107",
   "status": "partial",
   "theorems": [
    "Verif.Relocate.solution_order",
    "Verif.Relocate.relocation_solver_order",
    "Verif.Relocate.relocation_order_partial",
    "Verif.Relocate.nothing_restored",
    "Verif.Relocate.restored_event_order_matters",
    "Verif.Relocate.contradicting_calls_order_matters"
   ],
   "note": "Over real numbers (rounding errors do depend on the order). The orders inside the solver never matter. The order of the cluster matters if an event has to be restored (witness); proved if none is, e.g. if there are travel times from everywhere. Relocations with fixed neighbours have one event; for them see C99. The selection of pairs is not part of this claim."
  },
  {
   "property": "C108",
   "status": "partial",
   "theorems": [
    "Verif.DDFile.file_written",
    "Verif.DDFile.iteration_file",
    "Verif.DDFile.relocation_files",
    "Verif.DDFile.no_final_file"
   ],
   "note": "The final file is complete if all systems could be solved; otherwise it is empty (theorem no_final_file, with an example that returns a relocated event). Numbers are printed by a parameter; weights that are not numbers (C20) are outside."
  },
  {
   "property": "C109",
   "status": "partial",
   "theorems": [
    "Verif.DistanceReport.report_correct",
    "Verif.DistanceReport.report_exact",
    "Verif.DistanceReport.report_printed_iff",
    "Verif.DistanceReport.report_ub",
    "Verif.DistanceReport.report_printed_partial"
   ],
   "note": "The summary is right whenever it is printed, which is exactly when every group has at least four observations, of which none or at least four have a coefficient; otherwise, e.g. with 1 to 59 observations, it has undefined behaviour (report_exact, report_ub). Distances are numbers (no NaN); formatting of the numbers is left out."
  },
  {
   "property": "C110",
   "status": "proved",
   "theorems": [
    "Verif.XCorrReport.xcorr_summary",
    "Verif.XCorrReport.attempted_wanted",
    "Verif.XCorrReport.nothing_attempted"
   ],
   "note": "With the exact condition for the undefined behaviour of the five-number summary. The counters are natural numbers; the format of the numbers is left out."
  },
  {
   "property": "C111",
   "status": "partial",
   "theorems": [
    "Verif.Selection.catalog_selection_visit_order",
    "Verif.Selection.selection_order_partial",
    "Verif.Selection.catalog_selection_order_partial",
    "Verif.Selection.Example.equal_distance_order_decides",
    "Verif.Selection.Example.equal_station_order_decides"
   ],
   "note": "The visiting order never matters (for a positive minimum number of phases). The order of the data and the index do not matter when no tie is cut by a maximum; the witnesses show that ties are decided by the order. Admissible axis distances as in C27."
  },
  {
   "property": "C112",
   "status": "partial",
   "theorems": [
    "Verif.Preload.report_same_run",
    "Verif.Preload.report_downloads",
    "Verif.Preload.report_cached_partial",
    "Verif.Preload.report_cached_twice",
    "Verif.Preload.report_event",
    "Verif.Preload.Example.reported"
   ],
   "note": "Downloaded and not available are exact. The third number is false of the code: it is exactly twice the number of cached waveforms when no file is needed twice, and at least that otherwise."
  },
  {
   "property": "C113",
   "status": "partial",
   "theorems": [
    "Verif.Log.file_message",
    "Verif.Log.file_kept",
    "Verif.Log.shown_message",
    "Verif.Log.format_not_written",
    "Verif.Log.single_finished",
    "Verif.Log.singles_apart_partial",
    "Verif.Log.single_leaves_open",
    "Verif.Log.leaks_into_next",
    "Verif.Log.single_unsaved",
    "Verif.Log.single_cannot_open",
    "Verif.Log.multi_cannot_open",
    "Verif.Log.multi_finished",
    "Verif.Log.multi_leaves_open"
   ],
   "note": "Which file and which logger get a message is exact for every history of calls. Relocations that end normally are kept apart; the claim is false for one that finds too few neighbours or throws (single_leaves_open, leaks_into_next). The global level is at most info; times in the lines, write errors and threads are left out."
  },
  {
   "property": "C114",
   "status": "partial",
   "theorems": [
    "Verif.WorkingDir.name_is_the_second",
    "Verif.WorkingDir.search_first",
    "Verif.WorkingDir.search_goes_on",
    "Verif.WorkingDir.search_ends",
    "Verif.WorkingDir.relocation_new",
    "Verif.WorkingDir.relocations_apart",
    "Verif.WorkingDir.used_is_new",
    "Verif.WorkingDir.shared_same_second_partial",
    "Verif.WorkingDir.run_defined",
    "Verif.WorkingDir.Example.shared"
   ],
   "note": "Relocations one after the other: in full. The search ends after at most as many seconds as there are directories. Several processes: false, they can share a directory (shared), but only one chosen in the same second. From 1970 to 2106."
  },
  {
   "property": "C115",
   "status": "partial",
   "theorems": [
    "Verif.GridTable.same_answer",
    "Verif.GridTable.failures_do_not_alter_partial",
    "Verif.GridTable.no_grid_refused",
    "Verif.GridTable.ray_has_the_time",
    "Verif.GridTable.time_interpolated",
    "Verif.GridTable.time_interpolated_2d",
    "Verif.GridTable.alike_stations_share",
    "Verif.GridTable.failed_load_gives_zero"
   ],
   "note": "Independence of history, limit and access method: in full for files that fit in 63 bits and stations that print apart (else false: alike_stations_share). Failures: proved for mapped and kept-open grids, false for grids loaded into memory (failed_load_gives_zero)."
  },
  {
   "property": "C116",
   "status": "proved",
   "theorems": [
    "Verif.ProfileLife.usable_iff_loaded",
    "Verif.ProfileLife.refused_iff_not_loaded",
    "Verif.ProfileLife.never_without_object",
    "Verif.ProfileLife.loaded_again_ignored",
    "Verif.ProfileLife.caches_apart",
    "Verif.ProfileLife.command_with_catalog",
    "Verif.ProfileLife.preload_own_catalog",
    "Verif.ProfileLife.refines_daemon"
   ],
   "note": "In full. What the tasks do with the loaded object is stated in C80, C99, C106 and C112. Undefined behaviour while reading catalog files (C10, C87) or grid headers (C86) is the only one. Profile names without slashes; symbolic links are left out."
  },
  {
   "property": "C117",
   "status": "proved",
   "theorems": [
    "Verif.TimeShift.selection_ignores_times",
    "Verif.TimeShift.relocation_ignores_times",
    "Verif.TimeShift.multi_ignores_times",
    "Verif.TimeShift.single_event_ignores_times"
   ],
   "note": "In full for the model, where times are integers of microseconds without range limits. Travel times, distances and correlations are parameters that do not look at the time of the event. Single-event relocation: background numbers below 2^32-1, as in C50."
  },
  {
   "property": "C118",
   "status": "partial",
   "theorems": [
    "Verif.FittedData.no_residual_no_change",
    "Verif.FittedData.no_residual_solved",
    "Verif.FittedData.fitted_catalog_stays_partial",
    "Verif.FittedData.fitted_data_weights_undefined",
    "Verif.FloatSolve.fitted_catalog_stays"
   ],
   "note": "Proved as long as the weights and the scaling factors are numbers; with residual weights, which are on by default, the solver gives up and no event is returned (proved); the events that are returned are never moved, with any options (fitted_catalog_stays). Reals for doubles."
  },
  {
   "property": "C119",
   "status": "proved",
   "theorems": [
    "Verif.FloatSolve.nan_spoils_all",
    "Verif.FloatSolve.bad_derivative_spoils_all",
    "Verif.FloatSolve.nan_refused",
    "Verif.FloatSolve.infinite_scaling",
    "Verif.FloatSolve.infinite_scaling_moves_nothing",
    "Verif.FloatSolve.unknown_weights_refused",
    "Verif.FloatSolve.fitted_catalog_not_relocated",
    "Verif.FloatSolve.no_deviation_no_solution",
    "Verif.FloatSolve.irregular_moves_nothing",
    "Verif.FloatSolve.relocation_minimises_or_stays"
   ],
   "note": "The spread of NaN through the solvers is proved for any arithmetic, with rounding; the statements about relocations are for reals with infinities and NaN."
  },
  {
   "property": "C120",
   "status": "proved",
   "theorems": [
    "Verif.FloatSolve.real_model_exact",
    "Verif.FloatSolve.solved_is_float"
   ],
   "note": "Reals with infinities and NaN for doubles, so without rounding and overflow."
  },
  {
   "property": "C121",
   "status": "proved",
   "theorems": [
    "Verif.FloatTime.seconds_keep_microseconds",
    "Verif.FloatTime.seconds_lose_microseconds",
    "Verif.FloatTime.seconds_in_order",
    "Verif.FloatTime.seiscomp_times_kept",
    "Verif.FloatTime.seiscomp_truncation",
    "Verif.FloatTime.seconds_to_microseconds",
    "Verif.Double.round64_doubles",
    "Verif.Double.round64_nearest"
   ],
   "note": "What SeisComP does with the seconds it is given and returns is a hypothesis of seiscomp_times_kept."
  },
  {
   "property": "C122",
   "status": "partial",
   "theorems": [
    "Verif.FloatTime.float_slice_sound",
    "Verif.FloatTime.float_slice_keeps_extra",
    "Verif.FloatTime.float_slice_ends_early",
    "Verif.FloatTime.float_slice_complete_partial",
    "Verif.FloatTime.float_slice_refuses_last_sample"
   ],
   "note": "False of the code at sample times: a contained window that ends on the last sample can be refused, the end can be a microsecond early and one more sample can be kept (witnesses); float_slice_sound and float_slice_complete_partial bound the deviations."
  },
  {
   "property": "C123",
   "status": "partial",
   "theorems": [
    "Verif.LagSpec.lag_is_shift_and_bias",
    "Verif.LagSpec.lag_is_shift_partial",
    "Verif.LagSpec.lag_is_shift_to_a_sample_partial",
    "Verif.LagSpec.default_s_lag_biased",
    "Verif.LagSpec.processed_is_cut",
    "Verif.LagSpec.combined_is_cut",
    "Verif.LagSpec.combined_loses_last_sample"
   ],
   "note": "False of the code for windows that are scaled and not symmetric about the pick, as by default for S phases (default_s_lag_biased); lag_is_shift_and_bias gives the bias exactly, lag_is_shift_partial the claim for all other settings. That waveforms are cut to the window is proved for single components and their L2 combination (processed_is_cut, combined_is_cut); the times of radial and transversal components are wrong anyway (C41)."
  },
  {
   "property": "C124",
   "status": "partial",
   "theorems": [
    "Verif.LagSpec.correlated_time_is_measured_partial",
    "Verif.LagSpec.relocation_uses_measured_times_partial",
    "Verif.LagSpec.answer_measured"
   ],
   "note": "proved for every observation whose correlation was made in the run, up to one and a half samples and the bias of the settings (zero for symmetric windows, as the default for P phases); results known beforehand are what the earlier run computed, which is not restated"
  },
  {
   "property": "C125",
   "status": "proved",
   "theorems": [
    "Verif.RepeaterSpec.perfect_iff_same_signal",
    "Verif.RepeaterSpec.gain_and_offset_irrelevant",
    "Verif.RepeaterSpec.repeater_recognised",
    "Verif.RepeaterSpec.perfect_lag_is_true_shift",
    "Verif.RepeaterSpec.RepeaterExample.identical_waveforms_lag"
   ],
   "note": "over the reals; the rounding of the sums is not modelled"
  },
  {
   "property": "C126",
   "status": "partial",
   "theorems": [
    "Verif.FloatXCorrSpec.float_correlation_accurate_partial",
    "Verif.FloatXCorrSpec.float_delay_correct_partial",
    "Verif.FloatXCorrSpec.sqrt64_roots",
    "Verif.FloatXCorrSpec.float_polarity",
    "Verif.FloatXCorrSpec.DeadSegment.dead_segment_forgets_match",
    "Verif.FloatXCorrSpec.DeadSegment.dead_signal_no_coefficient"
   ],
   "note": "the last sentence is false of the code: a dead segment makes a perfect match before it be forgotten"
  },
  {
   "property": "C127",
   "status": "partial",
   "theorems": [
    "Verif.DateLine.turning_changes_nothing",
    "Verif.DateLine.turning_moves_along",
    "Verif.DateLine.turned_search_partial",
    "Verif.DateLine.Fiji.date_line_hides_events",
    "Verif.DateLine.Fiji.date_line_hides_neighbours"
   ],
   "note": "the last part is false of the code when longitudes are on both sides of the date line: the searches miss events on the other side; proved otherwise, except for events whose distance is near the radius"
  },
  {
   "property": "C128",
   "status": "partial",
   "theorems": [
    "Verif.ListOrgSpec.lists_what_was_asked_for_partial",
    "Verif.ListOrgSpec.answer_is_unique",
    "Verif.ListOrgSpec.listing_ends_partial",
    "Verif.ListOrgSpec.lists_are_read",
    "Verif.ListOrgSpec.options_are_read",
    "Verif.ListOrgSpec.Alps.missing_depth_ends_listing",
    "Verif.ListOrgSpec.Alps.missing_creation_time_ends_listing",
    "Verif.ListOrgSpec.Alps.bad_area_ignored",
    "Verif.ListOrgSpec.Alps.misspelt_kind_accepted",
    "Verif.ListOrgSpec.Alps.date_line_origin_not_listed"
   ],
   "note": "the last sentence is false of the code, as is the area on the date line; proved when the depths and times of creation that are compared are there, and for longitudes less than a turn apart"
  },
  {
   "property": "C129",
   "status": "partial",
   "theorems": [
    "Verif.ListOrgSpec.columns_are_named",
    "Verif.ListOrgSpec.list_is_read_back_partial",
    "Verif.ListOrgSpec.simple_list_not_read"
   ],
   "note": "false of the code for the simple list; proved for the full one"
  },
  {
   "property": "C130",
   "status": "partial",
   "theorems": [
    "Verif.Selection.trimmed_background_partial",
    "Verif.Selection.separate_catalogs_partial",
    "Verif.Selection.Example.useless_event_decides"
   ],
   "note": "false of the code for equally distant events when the number of neighbours is limited; proved otherwise, when the axis distances of the index are lower bounds (see C27), at least one phase is required and no phase is picked twice"
  },
  {
   "property": "C131",
   "status": "partial",
   "theorems": [
    "Verif.Relocate.same_data_same_relocation",
    "Verif.Relocate.single_event_by_neighbours",
    "Verif.Relocate.correlation_order_blind",
    "Verif.SingleEvent.single_event_trim_partial",
    "Verif.SingleEvent.single_event_storage_partial"
   ],
   "note": "proved, restored events and failures included, up to the selection of the neighbours, which has the limits of C111 and C130 (no equally distant events if the number of neighbours is limited); event numbers below 2^32-1 as in C11; correlating the same waveforms again must give the same"
  },
  {
   "property": "C132",
   "status": "proved",
   "theorems": [
    "Verif.Relocate.cluster_alone",
    "Verif.Relocate.part_alone",
    "Verif.Relocate.found_clusters_split"
   ],
   "note": "correlating the same waveforms again must give the same, and the solver must not depend on earlier clusters"
  },
  {
   "property": "C133",
   "status": "partial",
   "theorems": [
    "Verif.AppConfig.application_starts_iff",
    "Verif.AppConfig.application_settings",
    "Verif.AppConfig.settings_complete",
    "Verif.AppConfig.defaults_partial",
    "Verif.AppConfig.documented_time_alive_wrong",
    "Verif.AppConfig.allowed_origins",
    "Verif.AppConfig.profiles_stay"
   ],
   "note": "false of the default of performance.profileTimeAlive (witness); all of the rest is proved. The conversion of texts to values by SeisComP is a parameter"
  },
  {
   "property": "C134",
   "status": "proved",
   "theorems": [
    "Verif.Turn.relocation_elsewhere",
    "Verif.Turn.multi_elsewhere",
    "Verif.Turn.single_event_elsewhere",
    "Verif.Turn.solver_ignores_places",
    "Verif.Turn.round_earth_looks_the_same",
    "Verif.Turn.relocation_round_the_globe",
    "Verif.Turn.constant_velocity_is_round"
   ],
   "note": "with the same neighbours selected; that the search for them depends on the longitude is C127. Travel times are those of a round earth; the table for a constant velocity is one except for events within 6 mm of the place of a station"
  },
  {
   "property": "C135",
   "status": "proved",
   "theorems": [
    "Verif.Renumber.relocation_renumbered",
    "Verif.Renumber.multi_renumbered",
    "Verif.Renumber.solver_ignores_numbers",
    "Verif.Renumber.catalog_renumbered",
    "Verif.Renumber.same_order_same_relocation",
    "Verif.Renumber.selection_renumbered",
    "Verif.Renumber.clusters_renumbered",
    "Verif.Renumber.run_renumbered",
    "Verif.Renumber.exists_orders",
    "Verif.Renumber.single_event_renumbered"
   ],
   "note": "numberings with a different order are C107 (the same result up to the restored events)"
  },
  {
   "property": "C136",
   "status": "proved",
   "theorems": [
    "Verif.Weights.system_factor",
    "Verif.Weights.solver_ignores_factor",
    "Verif.Weights.relocation_factor",
    "Verif.Weights.catalog_factor",
    "Verif.Weights.uniform_uncertainties",
    "Verif.Weights.single_factor",
    "Verif.Weights.neighbours_ignore_weights",
    "Verif.Weights.event_factor"
   ],
   "note": "for LSMR with normalisation, the defaults, over real numbers"
  },
  {
   "property": "C137",
   "status": "proved",
   "theorems": [
    "Verif.LeastSquares.corrections_proportional",
    "Verif.LeastSquares.corrections_odd",
    "Verif.LeastSquares.corrections_homogeneous"
   ],
   "note": "factors for LSMR, the sign for both solvers, over real numbers"
  }
 ]
}