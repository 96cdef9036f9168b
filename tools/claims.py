#!/usr/bin/env python3
"""Generates MANIFEST.json from the table below (run from anywhere)."""
import json, os
ROOT = os.path.dirname(os.path.dirname(os.path.abspath(__file__)))
C = {}
def claim(pid, status, theorems, note=""):
    C[pid] = dict(property=pid, status=status, theorems=theorems, note=note)

claim("C01", "proved", ["Verif.Lru.lru_most_recent"])
claim("C02", "proved", ["Verif.Lru.lru_put_callback", "Verif.Lru.lru_callback_once"],
      "clear() drops entries without callback; stated for histories without clear")
claim("C03", "proved", ["Verif.XCorr.xcorr_antisymmetric"])
claim("C04", "proved", ["Verif.XCorr.xcorr_last_write", "Verif.XCorr.xcorr_self_pair_lost"],
      "requires distinct events; for an event paired with itself the write is lost (proved)")

claim("C05", "proved", ["Verif.TimeWindow.timewindow_never_negative", "Verif.TimeWindow.timewindow_setters",
      "Verif.TimeWindow.timewindow_contains", "Verif.TimeWindow.timewindow_overlap", "Verif.TimeWindow.timewindow_merge",
      "Verif.TimeWindow.timewindow_extend", "Verif.TimeWindow.timewindow_contiguous"])
claim("C06", "partial", ["Verif.Trace.trace_slice_sound", "Verif.Trace.trace_slice_complete_partial",
      "Verif.Trace.trace_slice_complete_exact_partial", "Verif.Trace.trace_slice_fails_inside", "Verif.Trace.trace_setEndTime"],
      "soundness proved in full; 'fails only when tw is not contained' is false of the code (trace_slice_fails_inside: end time rounded up to the clock), proved when the window does not end after the last sample")
claim("C07", "partial", ["Verif.Utc.utc_text_round_trip_partial", "Verif.Utc.utc_text_meaning", "Verif.Utc.utc_text_injective_partial",
      "Verif.Utc.utc_text_lost_before_epoch", "Verif.Utc.utc_text_not_a_time_before_epoch",
      "Verif.Utc.utc_text_accepts_31_february", "Verif.Utc.utc_text_long_fraction_ub", "Verif.Utc.long_fraction"],
      "proved for all times from 1970 to year 9999; false before 1970 (proved)")
claim("C08", "proved", ["Verif.Utc.utc_fields_in_range", "Verif.Utc.utc_calendar_correct", "Verif.Utc.utc_date_round_trip",
      "Verif.Utc.utc_date_injective", "Verif.Utc.utc_date_throws_before_epoch"],
      "also before 1970, except the second [-2 s, -1 s) where the code throws (proved)")
claim("C09", "proved", ["Verif.Csv.csv_row_round_trip", "Verif.Csv.csv_field_count", "Verif.Csv.csv_table_round_trip",
      "Verif.Csv.csv_char_after_quote_dropped"])
claim("C10", "partial", ["Verif.Csv.csv_header_mapping", "Verif.Csv.csv_header_repeated", "Verif.Csv.csv_read_with_header_partial",
      "Verif.Csv.csv_empty_file_ub"],
      "mapping proved in full; 'an empty file is handled' is false: undefined behaviour (csv_empty_file_ub)")
K = "Verif.Catalog.Catalog."
claim("C11", "partial", [K+"catalog_integrity", K+"catalog_addEvent_keep", K+"catalog_addEvent_new_partial", K+"catalog_addEvent_wraps"],
      "integrity for every history and id keeping proved in full; fresh ids are proved unless 2^32-1 is already an event id, where the code overwrites event 0 (proved)")
claim("C12", "proved", [K+"catalog_removeEvent", K+"catalog_extractEvent", K+"catalog_extract_readd"])
claim("C13", "proved", [K+"catalog_merge_new_ids", K+"catalog_merge_keep_ids", K+"catalog_merge_adopts_orphan_phase"],
      "the result is again well formed, so chains of merges follow; with orphan phases (kept by the file reader) it is false (proved)")
claim("C14", "partial", [K+"phase_classification", K+"fillProcessingInfo_phases", K+"pick_weight_range", K+"pick_weight_antitone_partial", K+"pick_weight_best_pick_lowest"],
      "monotonicity needs a first class limit of at most 0; otherwise an uncertainty below it gets the lowest weight (proved)")
I = "Verif.IdToIndex."
claim("C15", "proved", [I+"index_in_order_of_first_use", I+"index_stable", I+"index_bijection"])
S = "Verif.Scheduler."
claim("C51", "partial", [S+"scheduler_processes_due_partial", S+"scheduler_processes_spaced_partial", S+"scheduler_offline_exact", S+"scheduler_loses_job"],
      "false as stated: two objects due at the same wake-up lose the second (proved); holds when at most one object is due per wake-up, in particular when announcements are spaced, and for offline processing")
claim("C52", "proved", [S+"scheduler_one_job_per_wakeup", S+"scheduler_queue_nodup", S+"scheduler_starts_only_elapsed", S+"scheduler_start_count", S+"scheduler_interval", S+"scheduler_failed_forgotten"])
R = "Verif.Region."
claim("C53", "partial", [R+"rect_region_partial", R+"other_regions", R+"profile_selection", R+"profile_needs_coordinates", R+"profile_by_name", R+"rect_region_misses_date_line"],
      "profile selection in full; the rectangular region test is wrong only for the meridian exactly one turn east of its western edge (proved)")
G = "Verif.AzGap."
claim("C54", "partial", [G+"azimuthal_gap_primary", G+"azimuthal_gap_secondary_partial", G+"azimuthal_gap_order", G+"azimuthal_gap_secondary_counts_phases"],
      "the secondary gap is exact over arrivals; as the gap left when removing any one station it is false when a station has two phases (proved)")
Q = "Verif.Requests."
claim("C55", "proved", [Q+"requests_terminate", Q+"requests_covered", Q+"requests_one_stream_per_station", Q+"requests_not_invented", Q+"requests_cover_caller_windows"])
D = "Verif.DDSystem."
claim("C16", "proved", [D+"aprod_adjoint", D+"aprod_sizes"])
claim("C17", "proved", [D+"aprod1_is_design_matrix", D+"aprod2_is_transpose", D+"adapter_weighted_misfit"])
claim("C18", "partial", [D+"normalisation_positive", D+"normalisation_same_solutions_partial", D+"normalisation_unit_columns", D+"normalisation_nan"],
      "needs every used column to be non-zero; a used event with a zero column makes the system NaN (proved)")
T = "Verif.Stats."
claim("C56", "partial", [T+"median_is_middle", T+"median_splits", T+"mad_correct", T+"mean_correct", T+"five_numbers_partial", T+"five_numbers_ordered", T+"five_numbers_ub"],
      "the five number summary needs at least four values; with one to three it is undefined behaviour (proved)")
V = "Verif.Solver."
claim("C19", "partial", [V+"first_observation_wins_partial", V+"first_of_each", V+"rows_are_distinct_observations_partial", V+"observation_lost"],
      "in full for phase names without the separator '@'; with it two observations collide (proved)")
claim("C20", "proved", [V+"system_prepared", V+"system_prepared_unweighted", V+"prepared_in_range", V+"preparation_needs_params"],
      "a NaN residual weight (MAD zero) is reported as a separate outcome, not followed further")
claim("C21", "partial", [V+"residual_weights_partial", V+"residual_weight_nan", V+"residual_weights_nan"],
      "false with zero MAD: zero residuals get weight NaN (proved)")
claim("C22", "proved", [V+"event_changes", V+"event_phase_used"])
N = "Verif.KdTree."
E = "Verif.Geo."
EM = "Verif.Geo.Missed."
claim("C23", "proved", [N+"tree_holds_points", N+"tree_lookup"])
claim("C24", "proved", [N+"radius_search_exact", E+"radius_search_real_partial", EM+"radius_search_false"],
      "under the stated condition; with the code's own distances, for which the condition fails, points are missed (radius_search_false) and a weaker completeness is proved")
claim("C25", "partial", [N+"nearest_neighbour_exact", N+"k_nearest_exact_partial", N+"k_nearest_zero_ub", EM+"nearest_neighbour_false"],
      "k = 0 on a non-empty tree is undefined behaviour (proved); with the code's own distances the result can be wrong (proved)")
claim("C26", "proved", [N+"best_first_in_order", EM+"best_first_false"],
      "under the stated condition; with the code's own distances the order can be wrong (best_first_false)")
claim("C27", "partial", [E+"axis_bound_partial", E+"latitude_bound_partial", E+"latitude_bound_surface_partial", E+"longitude_bound_partial", E+"depth_bound_partial", E+"latitude_bound_false", E+"depth_bound_false", EM+"longitude_bound_false"],
      "false on every axis (proved with concrete points); the partial theorems bound the excess")
claim("C44", "partial", [E+"transform_arguments_checked", E+"global_round_trip_partial", E+"simple_round_trip_partial", E+"simple_round_trip_grid", E+"sdc_round_trip_partial", E+"rotation_isometry",
      E+"azimuthal_round_trip_partial", E+"azimuthal_distance", E+"azimuthal_antipode", E+"lambert_cone", E+"lambert_round_trip_partial",
      E+"lambert_round_trip_cone", E+"lambert_far_side", E+"lambert_opposite_parallels", E+"transverse_mercator_origin",
      E+"transverse_mercator_meridian_partial", E+"transverse_mercator_meridian_round_trip", E+"transverse_mercator_northing", E+"transverse_mercator_inexact"],
      "exact for GLOBAL, SIMPLE, SDC and AZIMUTHAL_EQUIDIST; for LAMBERT the longitude is exact and the latitude within 1e-8 degrees, up to 90 degrees of longitude from the origin; TRANS_MERC only on the central meridian, where the latitude is within 1e-7 degrees and the northing is the arc length to 2 mm per degree (the two series are not inverse of each other, no error bound is proved away from it)")
claim("C45", "partial", [E+"normalised_longitude", E+"normalised_azimuth", E+"origin_azimuth", E+"grid_angle_round_trip_partial", E+"grid_angle_full_turn"],
      "in full for longitudes and azimuths; the grid angle conversion returns values in the closed range [0,360], so 360 is possible (proved)")
claim("C62", "proved", [E+"distance_is_great_circle", E+"distance_close_to_great_circle", E+"distance_3d", E+"event_station_distance",
      E+"station_above_event"])
claim("C63", "proved", [E+"destination_at_distance", E+"destination_round_trip"],
      "the return trip is stated for distances above 4e-9 rad, below which the code may treat the points as identical")
L = "Verif.Selection."
LX = "Verif.Selection.Example."
claim("C28", "partial", [L+"createEventTree_wf", L+"neighbours_meet_constraints_partial", L+"selection_returns", L+"selection_fails_cleanly", LX+"too_few_phases"],
      "constraints on the event-station distances hold for the neighbour but not for the reference event (see C30); the minimum number of phases counts picks, so two picks of the same phase count twice (proved)")
claim("C29", "partial", [L+"nearest_selection_maximal_partial", L+"ellipsoid_selection_maximal_partial", L+"ellipsoid_selection_complete_partial", L+"unmatched_not_selected", LX+"no_limit_differs", E+"eligible_event_lost"],
      "proved when the axis distances are admissible (nearest mode) and when the layers are searched at the right distances (ellipsoid mode); false in general: an eligible event is lost in the code's own geometry (proved)")
claim("C30", "partial", [L+"reference_limits_ineffective", LX+"reference_station_too_far"],
      "false: the two limits are joined by OR, so they never reject a station of the reference event (both theorems prove the negation)")
claim("C34", "partial", [L+"exactly_one_layer", L+"round_robin_not_stuck", E+"isInside_iff", E+"some_quadrant", E+"exactly_one_real_layer", E+"layered_partial", E+"layer_ranges_miss", E+"eligible_event_lost"],
      "one layer and at least one quadrant: in full; never stuck: true for events at the depth of the centre, above it or well below it, false for events slightly below it (proved)")
claim("C31", "proved", [L+"catalog_selection_closed", L+"catalog_selection_fails_cleanly"], "in full, for any iteration order of the containers, including termination; also for catalogs with unknown stations, for which the only other end is an exception")
claim("C64", "partial", [L+"catalog_selection_greatest", L+"catalog_selection_largest_partial"], "In every mode the result is the largest set of events with enough neighbours among themselves, where the neighbours are those the selection finds when the set is all there is (positive minimum number of phases). In terms of eligibility: search without ellipsoids, axis distances that are lower bounds (see C27) and no phase picked twice; otherwise the selection itself misses eligible events (C29).")
claim("C32", "proved", ["Verif.Clusters.clusters_are_components", "Verif.Clusters.selected_wf"], "in full, for any choice of the next event; the hypotheses hold for the result of the catalog-wide selection (selected_wf)")
claim("C33", "proved", ["Verif.Clusters.pairs_used_once"], "in full; when the two directions of a pair list different phases those of the dropped direction are not kept (see Kept)")
claim("C59", "partial", ["Verif.PairFile.pair_file_round_trip_partial", "Verif.PairFile.lonely_event_lost", "Verif.PairFile.no_events_no_file", "Verif.PairFile.Example.unknown_station_ub", "Verif.PairFile.Example.comma_cut"],
      "the whole structure is restored when all stations are known, texts contain no separator and every event occurs in some pair; an event in no pair is lost, an unknown station is undefined behaviour, a comma in a phase name is not quoted (all proved)")
X = "Verif.XCorr."
claim("C35", "proved", [X+"correlation_exact", X+"abs_pearson_le_one"], "in full over exact reals; when no coefficient is defined NaN and the last delay are returned")
claim("C36", "proved", [X+"crosscorr_antisymmetric", X+"xcorr_bounded", X+"negative_delay_ub", X+"huge_delay_ub", X+"empty_trace_ub"], "in full for non-empty traces and a maximum delay that is not negative and fits in an int; outside of that undefined behaviour is shown")
claim("C65", "partial", [X+"correlation_windows", X+"pair_antisymmetric_partial", X+"Example.tie_not_antisymmetric", X+"empty_window_ub"], "windows in full; the opposite order gives the opposite lag unless both directions are tried and tie, in which case it is false (proved)")
W = "Verif.Waveform."
claim("C37", "partial", [W+"memcache_first_answer", W+"memcache_transparent_partial", W+"request_id_injective", W+"Example.memcache_ignores_filter", W+"Example.memcache_ignores_event", W+"Example.memcache_key_collision"],
      "every history: an id is passed on once and all requests with it get the first answer, also an unavailable one; transparent when requests with the same window, stream and transformation agree in filter, sampling frequency and (rotated) event position; false otherwise (proved)")
claim("C38", "partial", [W+"disk_cache_transparent_partial", W+"disk_cache_failed_load", W+"disk_cache_hit_forever", W+"disk_cache_store", W+"waveform_id_injective", W+"disk_cache_poisoned"],
      "in full except for writes interrupted half way, which poison the cache for ever (proved)")
claim("C39", "partial", [W+"Batch.batch_requests_once", W+"Batch.batch_available", W+"Batch.batch_available_iff_partial", W+"Batch.batch_nothing_before_load", W+"Batch.Example.batch_delivered_but_unavailable", W+"Batch.Example.batch_order_matters"],
      "each distinct waveform is requested exactly once: in full; available iff delivered: for traces whose duration is a whole number of microseconds, false otherwise (proved)")
claim("C40", "partial", [W+"load_window_contains", W+"load_window_aligned_partial", W+"extra_len_covers", W+"load_window_not_aligned_before_1970"],
      "containment for all times; alignment to full seconds from 1970 on, false before (proved)")
claim("C41", "partial", [W+"rotation_isometry", W+"rotation_projects", W+"rotation_horizontal", W+"rotation_away_from_event", W+"transform_l2_output", W+"transform_rt_output_partial", W+"transforms_succeed", W+"transform_rt_start_time_wrong", W+"transform_l2_disjoint_ub", W+"rotation_needs_orthogonal"],
      "isometry in full; the start time of rotated traces is wrong when the first horizontal trace does not start last (proved); the combined horizontal trace has the right one")
claim("C66", "partial", [W+"resample_time_base", W+"resample_homogeneous", W+"resample_window_partial", W+"process_defined", W+"resample_first_sample_twice", W+"resample_beyond_end"],
      "time base, number of samples, linearity and absence of undefined behaviour in full; the first input sample is used twice near the start and the result can extend beyond the data (proved)")
GR = "Verif.Grid."
claim("C42", "partial", [GR+"grid_file_roundtrip", GR+"grid_offsets_disjoint", GR+"grid_read_safe_partial", GR+"grid_read_wraps", GR+"grid_read_aliases", GR+"grid_failed_load_reads_zeros"],
      "for every declared size below 2^64 bytes; beyond that the unvalidated header makes the bound test wrap around (witnesses of an out-of-file read and of aliased nodes); a failed load leaves the grid readable as zeros (witness)")
claim("C43", "proved", [GR+"grid_interpolates_3d", GR+"grid_exact_at_nodes", GR+"grid_bounded_by_cell", GR+"grid_continuous", GR+"grid_outside_throws", GR+"grid_interpolates_2d", GR+"grid_single_layer_unusable", GR+"grid_zero_cell_ub"],
      "in full over an ordered field for grids with at least two nodes per axis; axes with one node cannot be read and a zero cell size is undefined behaviour (proved)")
NG = "Verif.NllGrid."
claim("C46", "partial", [NG+"open_grids_bounded_partial", NG+"grid_open_when_read", NG+"open_grids_unbounded_at_zero", NG+"close_open_files_leaks", NG+"failed_load_is_used_later"],
      "for every history without closeOpenFiles and a maximum of at least one; both exceptions are shown to be real")
claim("C84", "partial", [NG+"missing_grid_not_searched_again", NG+"failed_grid_given_up", NG+"no_descriptor_kept", NG+"failed_map_keeps_descriptor"],
      "a station without a grid in full; a grid that failed to load is given up only once it has left the list of grids in use (failed_load_is_used_later shows the retry); descriptors as long as no call of the operating system fails (witness otherwise)")
GH = "Verif.GridHeader."
claim("C85", "partial", [GH+"header_accepted_iff", GH+"accepted_header_has_transform", GH+"transform_line_iff", GH+"accepted_transform_constructed", GH+"header_defined", GH+"transform_lines_only", GH+"station_line_missing", GH+"nan_origin_accepted"],
      "which headers are accepted and what is read from them, in full for velocity grids and for time and angle grids whose station is read; transform lines are counted like the others, so that two or three of them pass for a missing line (witnesses), and not-a-number passes the range checks (witness)")
claim("C86", "partial", [GH+"time_grids_found", GH+"angle_grids_found", GH+"velocity_grid_found", GH+"search_order", GH+"search_completes_partial", GH+"access_method_checked", GH+"search_undefined"],
      "which grids are found, in full; that the search ends, for headers with at most one transform line each (witness of undefined behaviour with two)")
TT = "Verif.TravelTime."
claim("C67", "partial", [TT+"azimuth_within_arc_partial", TT+"azimuth_exact_at_nodes", TT+"azimuth_constant", TT+"dip_and_quality", TT+"angles_roundtrip", TT+"azimuth_opposite_is_north"],
      "for corner azimuths within less than 90 degrees of a direction; opposite azimuths cancel to north (witness)")
claim("C68", "proved", [TT+"homogeneous_times_agree", TT+"homogeneous_derivatives"], "over exact reals; the two times agree up to the time for 0.1 mm because of the shortcut for equal depths")
claim("C69", "proved", [TT+"velocity_units", TT+"grid_derivatives", TT+"grid_derivatives_agree"], "over exact reals, for positive velocities")
RL = "Verif.Relocate."
claim("C61", "proved", [RL+"observations_correct", RL+"observation_weight", RL+"observations_complete", RL+"observations_have_parameters"], "over an ordered field; times as integer microseconds, the cross-correlation cache as modelled for C03")
claim("C70", "partial", [RL+"parameters_correct", RL+"horizontal_derivative", RL+"iteration_parameters_partial", RL+"restored_event_stale_residual"], "over an ordered field; the geometry of the horizontal derivatives over exact reals; for each call and for whole iterations, except that parameters of a restored event may describe the place it was restored from (witness)")
claim("C47", "partial", [RL+"relocate_returns", RL+"relocate_returns_solved_partial", RL+"relocate_content", RL+"marked_event_returned"],
      "which events are returned is characterised in full for every run; the English claim holds for inputs without marks from an earlier relocation, and fails with them (witness)")
claim("C48", "partial", [RL+"parameter_interpolation_partial", RL+"relocation_parameters", RL+"relocation_iterations", RL+"single_iteration_uses_mean", RL+"reporting_iteration_overshoots"],
      "for two iterations or more; with one iteration the mean is used (proved), and the reporting iteration overshoots (proved)")
claim("C49", "partial", [RL+"event_restored_partial", RL+"neighbour_only_event_stays_outside"],
      "for events with pairs of their own; an event that is only a neighbour of others is not restored (witness)")
claim("C50", "partial", [RL+"single_event_only_target_partial", RL+"single_event_needs_neighbours",
  "Verif.SingleEvent.single_event_call_partial"],
      "the whole call, with the travel-time table, the correlations and the solver as parameters; background ids below 2^32-1 and, for what is returned, background events without marks from an earlier relocation")
claim("C71", "proved", [RL+"solution_applied", RL+"relocation_endpoints"], "the conversion of km to degrees is a parameter (its properties are C63)")
claim("C60", "proved", [RL+"xcorr_computed_once", RL+"xcorr_cache_exact", RL+"xcorr_cache_origin", RL+"xcorr_build_succeeds", RL+"multi_event_correlations"],
      "for every cluster in which no event is its own neighbour; the correlation of two picks is an arbitrary parameter that may answer differently each time; also over all clusters of a multi-event relocation")
claim("C72", "partial", [RL+"multi_event_result", RL+"multi_event_solved_partial", RL+"multi_event_all_move", RL+"marked_event_relocation_lost"],
      "what is combined is characterised in full for every run; the English claim holds for disjoint clusters and inputs without marks from an earlier relocation, and fails with marks (witness)")
LS = "Verif.LeastSquares."
claim("C57", "proved", [LS+"vector_norm_is_euclidean", LS+"pair_norm_is_euclidean", LS+"vector_norm_scaled"], "over exact reals")
claim("C58", "proved", [LS+"lsqr_ends", LS+"lsmr_ends", LS+"solver_limit", LS+"bidiagonalization", LS+"solvers_vectors", LS+"lsqr_result", LS+"lsmr_result", LS+"gradient_bounds_error"],
      "the bound on the iterations for numbers with arbitrary operations (rounding, NaN); the rest over exact reals; with a limit of zero one iteration is made")
claim("C73", "proved", [LS+"solve_lsqr", LS+"solve_lsmr"], "over exact reals, for systems whose used columns are not zero when normalising")
XF = "Verif.XCorrFile."
claim("C74", "proved", [XF+"xcorr_file_round_trip", XF+"six_decimals_exact", XF+"xcorr_file_meaning", XF+"Example.threshold_crossed", XF+"Example.unknown_station"],
      "rounding to doubles is an arbitrary odd function; numbers are finite and at most 10^308")
CF = "Verif.CatalogFile."
claim("C75", "proved", [CF+"catalog_file_round_trip", CF+"Example.phase_information_lost", CF+"Example.unknown_station_unreadable",
      CF+"Example.comma_shifts_columns", CF+"Example.tiny_residual_unreadable"],
      "rounding to doubles is an arbitrary function; numbers are in the range of doubles of full precision, a tiny residual is written but cannot be read (proved)")
SC = "Verif.SeisComP."
claim("C87", "partial", [CF+"number_text", CF+"id_text", CF+"header_row_iff", CF+"catalog_files_accepted_iff", CF+"catalog_files_meaning", CF+"catalog_files_defined_partial",
    CF+"Example.blank_line_rejected", CF+"Example.negative_id_accepted", CF+"Example.long_id_collides", CF+"Example.empty_file_undefined"],
    "acceptance and meaning are proved for every content of the files; the rejection by an exception is false for an empty file and for a time whose fraction does not fit an int (undefined behaviour), so it is proved for the other files")
claim("C76", "proved", [SC+"add_origins", SC+"add_origins_succeeds", SC+"add_origin_ids", SC+"add_origin_file", SC+"Example.short_constructors_ub", SC+"Example.magnitude_not_found",
      SC+"Example.unused_arrival_kept", SC+"Example.origin_without_depth_throws"],
      "the SeisComP data model is external: attributes, lookups and the inventory are arbitrary functions")
claim("C77", "proved", [SC+"origin_from_event", SC+"relocation_reuses_picks", SC+"no_used_phase_ub", SC+"Example.shared_pick_loses_arrival"],
      "SeisComP refuses a second arrival with the same pick; generated public ids are new; distances and azimuths are those of an arbitrary function")
claim("C78", "proved", [K+"catalog_of_lists", K+"catalog_of_rows", K+"add_phase", K+"remove_phase", K+"add_station", K+"update_station", K+"update_event", K+"search_phase", K+"search_station",
      K+"EditExample.dotted_codes_confused"], "search by codes for network and station codes without dots")
claim("C79", "proved", ["Verif.Neighbours.neighbours_remember"])
DM = "Verif.Daemon."
claim("C80", "partial", [DM+"job_result", DM+"nothing_to_do", DM+"job_succeeds", DM+"run_history", DM+"test_mode_sends_nothing", DM+"run_scheduler", DM+"run_never_stops_partial",
      DM+"Example.no_evaluation_mode_stops", DM+"Example.no_depth_stops", DM+"Example.no_arrivals_ub", DM+"Example.no_database_ub", DM+"Example.old_preferred_origin"],
      "Proved for all histories: which origins are relocated, with which profile, what is published, and that the application goes on if the jobs succeed. Jobs that should be rejected with a message stop the application instead (findings), and an event that arrives again keeps its old preferred origin. Message objects are values; clock readings are whole seconds.")
claim("C81", "proved", [DM+"profile_moment", DM+"profile_reload", DM+"profile_fresh", DM+"profile_kept", DM+"profile_freed", DM+"Example.all_profiles_loaded"],
      "For all histories. What loading a profile gives is a parameter that may change at every moment. Clock readings are whole seconds.")
claim("C82", "proved", [DM+"two_steps", DM+"two_steps_result", DM+"Example.start_rms_lost", DM+"Example.first_step_lost"],
      "The content of a moved-from catalog is arbitrary in two_steps and empty in two_steps_result.")
claim("C83", "partial", [RL+"residuals_reported", RL+"start_values_kept", RL+"returned_residuals", RL+"others_untouched", RL+"pick_marks_partial", RL+"restored_event_stale_residual", RL+"old_pick_mark_returned"],
      "The residuals reported are those given to the solver, which describe the hypocentre (C70) except for restored events (witness); marks of picks for inputs without marks, with them they fail (witness).")
AC = "Verif.Access."
claim("C88", "partial", [AC+"preload_requests", AC+"preload_transparent", AC+"preload_succeeds_partial", AC+"unclassified_pick_fails", AC+"unclassified_pick_not_relocated"],
      "What is asked for and that the result does not change are proved whenever the requests can be collected; they can when every pick is a P or S pick. With a pick of another phase the call throws (witness). The memory cache around the processors is left out (C37).")
claim("C89", "proved", [DM+"session_history", DM+"session_results", DM+"reload_replies"],
      "The history given by the messages is one of those of C80 and C81. Message objects are values; whether the reply reaches the sender is left to the messaging system.")

CL = "Verif.CommandLine."
claim("C90", "proved", [CL+"tokens_commaSeparated", CL+"given_origins_relocated", CL+"origin_ids_relocated", CL+"xml_origins_relocated",
  CL+"given_origins_succeed"],
  "The order, number and results of the relocations are stated for all lists of origins whose ids mean one origin each; the "
  "command ends normally under the conditions listed in Can.")
claim("C91", "proved", [CL+"merge_keeping_ids", CL+"merge_with_new_ids", CL+"merge_needs_triplets", CL+"merge_missing_file", CL+"merged_files_read_back"],
  "For all files that are accepted; with new ids the total number of events must be below 2^32. Phases whose event is not in the "
  "event file are left out.")
claim("C92", "partial", [CL+"relocated_catalog_xml", CL+"relocate_catalog_fails", CL+"catalog_of_ids", CL+"catalog_of_files", CL+"unused_event_ub"],
  "Proved for relocated catalogs in which every event has a used phase and no two phases with the same time and channel; "
  "false otherwise: unused_event_ub proves that an event without used phases makes the program read from an empty list.")
claim("C93", "partial", [CL+"mode_first", CL+"sends_iff", CL+"offline_iff", CL+"reload_request", CL+"reload_request_offline_ub"],
  "All of it holds except that a reload request combined with an option that switches messaging off uses a missing connection "
  "(reload_request_offline_ub).")
claim("C94", "proved", [AC+"pair_correlation", AC+"pair_entry", AC+"pair_bounds", AC+"pair_safe"],
  "Traces are lists of reals and sampling rates rationals; the waveform processors are parameters.")
PR = "Verif.Preload."
claim("C95", "proved", [PR+"preload_downloads", PR+"preload_keeps", PR+"preload_cached", PR+"preload_then_correlate", PR+"preload_again",
  PR+"preload_finishes"],
  "File names tell waveforms apart: codes without dots and years 1970-9999 (C38). What was written before an exception is not followed up.")
TB = "Verif.Tables."
claim("C96", "proved", [TB+"native_grid_table", TB+"homogeneous_table", TB+"plugin_table", TB+"other_table", TB+"native_and_plugin_agree",
  TB+"native_grid_phases", TB+"refused_with_exception",
  TB+"max_open_files_wraps", TB+"empty_part_lost"],
  "Separators in a row count as one and the number of open files has 32 bits (empty_part_lost, max_open_files_wraps). What grids answer is a "
  "parameter; SeisComP API 16 or later; the path of a model does not end with a slash.")
claim("C97", "partial", [TB+"phase_times", TB+"failed_model_is_empty", TB+"all_phases", TB+"first_arrival", TB+"first_arrival_misses_p",
  TB+"outside_p_grid_hides_s"],
  "All of it holds except that the list and the first arrival have only the phases named P and S (first_arrival_misses_p) and fail when the event is "
  "outside one of the two grids (outside_p_grid_hides_s).")
SE = "Verif.SingleEvent."
claim("C98", "partial", [SE+"number_irrelevant_partial", SE+"one_event_form", SE+"number_matters", "Verif.Daemon.origin_has_number_one"],
  "Holds among the numbers that no background event has; false otherwise (number_matters), and the application always passes number 1 "
  "(origin_has_number_one).")
CFS = "Verif.ClusterFiles."
claim("C99", "partial", [CFS+"dumped_clusters_read_back_partial", CFS+"relocation_from_files_partial", CFS+"relocation_of_some_clusters_partial",
  CFS+"lonely_cluster_not_read_back", CFS+"missing_cluster_file_undefined"],
  "Proved if at least one neighbour is required and codes have no commas, quotes or line ends; an event without neighbours is lost otherwise "
  "(lonely_cluster_not_read_back). Containers with the same events are visited in the same order in both runs.")
claim("C100", "proved", [RL+"saved_results_reused", RL+"result_writable"],
  "The first run starts without results; codes have no commas, quotes or line ends; coefficients and lags are at most 10^308.")
claim("C101", "proved", [RL+"catalog_relocation_completes", RL+"clusters_relocation_completes", RL+"single_relocation_completes",
  RL+"pairs_fit", RL+"pair_without_pick_undefined", RL+"pair_unclassified_throws"],
  "Real arithmetic; a configured minimum of more than 34 neighbours is excluded for single events (see C50), phase names contain no @, both wave "
  "types have a threshold. Pair files that name picks the catalog does not have are outside (pair_without_pick_undefined).")
IT = "Verif.Iteration."
claim("C102", "proved", [IT+"iteration_minimises", IT+"relocation_minimises"],
  "Real arithmetic. Regular excludes the values for which the program computes with NaN (deviation zero with residual weights, a scaled column that is zero: C18, C20). "
  "The tolerance depends on the stopping reason, as stated in Guarantee; the limit of iterations (a reason of its own) promises only what holds for LSQR, no worse than no change.")
claim("C103", "proved", ["Verif.LeastSquares.lsqr_accepts", "Verif.LeastSquares.lsmr_accepts", IT+"iteration_solved", IT+"usual_damping", IT+"relocation_all_iterations"],
  "Real arithmetic; same regularity as C102.")
WA = "Verif.WfAccess."
claim("C104", "partial", [WA+"waveforms_unchanged_partial", WA+"constructed_off", WA+"enable_failed", WA+"preload_failed", WA+"Example.preload_not_repaired"],
  "False after failed calls (witnesses). Proved from any state on, once the cache is switched on or off without failure. Uses of a waveform with different filters or positions "
  "(C37) and traces cut short on disk (C38) are excluded; a data centre whose longer waveform, cut, differs from the shorter one is excluded by KeepsLonger.")
CG = "Verif.Configuration."
claim("C105", "partial", [CG+"starts_iff", CG+"profiles_configured_partial", CG+"parameter_owner", CG+"profiles_independent", CG+"selected_by_region", CG+"selected_by_name", CG+"database_kept", CG+"Example.negative_wraps", CG+"Example.unknown_type_is_circle", CG+"Example.mistyped_is_default", CG+"Example.two_files_are_origin_ids"],
  "False of negative whole numbers (witness); proved for the others. The getters of SeisComP are parameters: a value of another type is a missing one.")
DW = "Verif.Dump."
claim("C106", "partial", [DW+"waveforms_dumped_partial", DW+"file_names", DW+"no_clash", DW+"Example.two_picks_one_file"],
  "False if an event has two picks of the same type at a station (witness); proved if no two different waveforms have the same file, which follows if codes have no dots and picks are unique.")
claim("C107", "partial", ["Verif.Relocate."+"solution_order", "Verif.Relocate."+"relocation_solver_order", "Verif.Relocate."+"relocation_order_partial", "Verif.Relocate."+"nothing_restored", "Verif.Relocate."+"restored_event_order_matters", "Verif.Relocate."+"contradicting_calls_order_matters"],
  "Over real numbers (rounding errors do depend on the order). The orders inside the solver never matter. The order of the cluster matters if an event has to be restored (witness); proved if none is, e.g. if there are travel times from everywhere. Relocations with fixed neighbours have one event; for them see C99. The selection of pairs is not part of this claim.")
DF = "Verif.DDFile."
claim("C108", "partial", [DF+"file_written", DF+"iteration_file", DF+"relocation_files", DF+"no_final_file"],
  "The final file is complete if all systems could be solved; otherwise it is empty (theorem no_final_file, with an example that returns a relocated event). Numbers are printed by a parameter; weights that are not numbers (C20) are outside.")
DR = "Verif.DistanceReport."
claim("C109", "partial", [DR+"report_correct", DR+"report_exact", DR+"report_printed_iff", DR+"report_ub", DR+"report_printed_partial"],
      "The summary is right whenever it is printed, which is exactly when every group has at least four observations, of which none or at least four have a coefficient; otherwise, e.g. with 1 to 59 observations, it has undefined behaviour (report_exact, report_ub). Distances are numbers (no NaN); formatting of the numbers is left out.")
XR = "Verif.XCorrReport."
claim("C110", "proved", [XR+"xcorr_summary", XR+"attempted_wanted", XR+"nothing_attempted"],
  "With the exact condition for the undefined behaviour of the five-number summary. The counters are natural numbers; the format of the numbers is left out.")
claim("C111", "partial", [L+"catalog_selection_visit_order", L+"selection_order_partial", L+"catalog_selection_order_partial",
  LX+"equal_distance_order_decides", LX+"equal_station_order_decides"],
  "The visiting order never matters (for a positive minimum number of phases). The order of the data and the index do not matter when no tie is cut by a maximum; the witnesses show that ties are decided by the order. Admissible axis distances as in C27.")
claim("C112", "partial", [PR+"report_same_run", PR+"report_downloads", PR+"report_cached_partial", PR+"report_cached_twice", PR+"report_event", PR+"Example.reported"],
  "Downloaded and not available are exact. The third number is false of the code: it is exactly twice the number of cached waveforms when no file is needed twice, and at least that otherwise.")
LO = "Verif.Log."
claim("C113", "partial", [LO+"file_message", LO+"file_kept", LO+"shown_message", LO+"format_not_written", LO+"single_finished",
  LO+"singles_apart_partial", LO+"single_leaves_open", LO+"leaks_into_next", LO+"single_unsaved", LO+"single_cannot_open", LO+"multi_cannot_open", LO+"multi_finished", LO+"multi_leaves_open"],
  "Which file and which logger get a message is exact for every history of calls. Relocations that end normally are kept apart; the claim is false for one that finds too few neighbours or throws (single_leaves_open, leaks_into_next). The global level is at most info; times in the lines, write errors and threads are left out.")
WD = "Verif.WorkingDir."
claim("C114", "partial", [WD+"name_is_the_second", WD+"search_first", WD+"search_goes_on", WD+"search_ends", WD+"relocation_new",
  WD+"relocations_apart", WD+"used_is_new", WD+"shared_same_second_partial", WD+"run_defined", WD+"Example.shared"],
  "Relocations one after the other: in full. The search ends after at most as many seconds as there are directories. Several processes: false, they can share a directory (shared), but only one chosen in the same second. From 1970 to 2106.")
GT = "Verif.GridTable."
claim("C115", "partial", [GT+"same_answer", GT+"failures_do_not_alter_partial", GT+"no_grid_refused", GT+"ray_has_the_time", GT+"time_interpolated",
  GT+"time_interpolated_2d", GT+"alike_stations_share", GT+"failed_load_gives_zero"],
  "Independence of history, limit and access method: in full for files that fit in 63 bits and stations that print apart (else false: alike_stations_share). Failures: proved for mapped and kept-open grids, false for grids loaded into memory (failed_load_gives_zero).")
PL = "Verif.ProfileLife."
claim("C116", "proved", [PL+"usable_iff_loaded", PL+"refused_iff_not_loaded", PL+"never_without_object", PL+"loaded_again_ignored", PL+"caches_apart",
  PL+"command_with_catalog", PL+"preload_own_catalog", PL+"refines_daemon"],
  "In full. What the tasks do with the loaded object is stated in C80, C99, C106 and C112. Undefined behaviour while reading catalog files (C10, C87) or grid headers (C86) is the only one. Profile names without slashes; symbolic links are left out.")
TS = "Verif.TimeShift."
claim("C117", "proved", [TS+"selection_ignores_times", TS+"relocation_ignores_times", TS+"multi_ignores_times", TS+"single_event_ignores_times"],
  "In full for the model, where times are integers of microseconds without range limits. Travel times, distances and correlations are parameters that do not look at the time of the event. Single-event relocation: background numbers below 2^32-1, as in C50.")
FD = "Verif.FittedData."
claim("C118", "partial", [FD+"no_residual_no_change", FD+"no_residual_solved", FD+"fitted_catalog_stays_partial", FD+"fitted_data_weights_undefined",
  "Verif.FloatSolve.fitted_catalog_stays"],
  "Proved as long as the weights and the scaling factors are numbers; with residual weights, which are on by default, the solver gives up and no event is returned (proved); the events that are returned are never moved, with any options (fitted_catalog_stays). Reals for doubles.")
FLS = "Verif.FloatSolve."
claim("C119", "proved", [FLS+"nan_spoils_all", FLS+"bad_derivative_spoils_all", FLS+"nan_refused", FLS+"infinite_scaling",
  FLS+"infinite_scaling_moves_nothing", FLS+"unknown_weights_refused", FLS+"fitted_catalog_not_relocated", FLS+"no_deviation_no_solution",
  FLS+"irregular_moves_nothing", FLS+"relocation_minimises_or_stays"],
  "The spread of NaN through the solvers is proved for any arithmetic, with rounding; the statements about relocations are for reals with infinities and NaN.")
claim("C120", "proved", [FLS+"real_model_exact", FLS+"solved_is_float"],
  "Reals with infinities and NaN for doubles, so without rounding and overflow.")
FLT = "Verif.FloatTime."
claim("C121", "proved", [FLT+"seconds_keep_microseconds", FLT+"seconds_lose_microseconds", FLT+"seconds_in_order", FLT+"seiscomp_times_kept",
  FLT+"seiscomp_truncation", FLT+"seconds_to_microseconds", "Verif.Double.round64_doubles", "Verif.Double.round64_nearest"],
  "What SeisComP does with the seconds it is given and returns is a hypothesis of seiscomp_times_kept.")
claim("C122", "partial", [FLT+"float_slice_sound", FLT+"float_slice_keeps_extra", FLT+"float_slice_ends_early", FLT+"float_slice_complete_partial",
  FLT+"float_slice_refuses_last_sample"],
  "False of the code at sample times: a contained window that ends on the last sample can be refused, the end can be a microsecond early and one more sample can be kept (witnesses); float_slice_sound and float_slice_complete_partial bound the deviations.")
LSH = "Verif.LagSpec."
claim("C123", "partial", [LSH+"lag_is_shift_and_bias", LSH+"lag_is_shift_partial", LSH+"lag_is_shift_to_a_sample_partial", LSH+"default_s_lag_biased",
  LSH+"processed_is_cut", LSH+"combined_is_cut", LSH+"combined_loses_last_sample"],
  "False of the code for windows that are scaled and not symmetric about the pick, as by default for S phases (default_s_lag_biased); lag_is_shift_and_bias gives the bias exactly, lag_is_shift_partial the claim for all other settings. That waveforms are cut to the window is proved for single components and their L2 combination (processed_is_cut, combined_is_cut); the times of radial and transversal components are wrong anyway (C41).")

LAG = "Verif.LagSpec."
claim("C124", "partial", [LAG+"correlated_time_is_measured_partial", LAG+"relocation_uses_measured_times_partial", LAG+"answer_measured"],
      "proved for every observation whose correlation was made in the run, up to one and a half samples and the bias of the settings (zero for symmetric windows, as the default for P phases); results known beforehand are what the earlier run computed, which is not restated")

REP = "Verif.RepeaterSpec."
claim("C125", "proved", [REP+"perfect_iff_same_signal", REP+"gain_and_offset_irrelevant", REP+"repeater_recognised", REP+"perfect_lag_is_true_shift", REP+"RepeaterExample.identical_waveforms_lag"],
      "over the reals; the rounding of the sums is not modelled")

FXC = "Verif.FloatXCorrSpec."
claim("C126", "partial", [FXC+"float_correlation_accurate_partial", FXC+"float_delay_correct_partial", FXC+"sqrt64_roots", FXC+"float_polarity", FXC+"DeadSegment.dead_segment_forgets_match", FXC+"DeadSegment.dead_signal_no_coefficient"],
      "the last sentence is false of the code: a dead segment makes a perfect match before it be forgotten")

DL = "Verif.DateLine."
claim("C127", "partial", [DL+"turning_changes_nothing", DL+"turning_moves_along", DL+"turned_search_partial", DL+"Fiji.date_line_hides_events", DL+"Fiji.date_line_hides_neighbours"],
      "the last part is false of the code when longitudes are on both sides of the date line: the searches miss events on the other side; proved otherwise, except for events whose distance is near the radius")

LO = "Verif.ListOrgSpec."
claim("C128", "partial", [LO+"lists_what_was_asked_for_partial", LO+"answer_is_unique", LO+"listing_ends_partial", LO+"lists_are_read", LO+"options_are_read",
      LO+"Alps.missing_depth_ends_listing", LO+"Alps.missing_creation_time_ends_listing", LO+"Alps.bad_area_ignored", LO+"Alps.misspelt_kind_accepted",
      LO+"Alps.date_line_origin_not_listed"],
      "the last sentence is false of the code, as is the area on the date line; proved when the depths and times of creation that are compared are there, and for longitudes less than a turn apart")
claim("C129", "partial", [LO+"columns_are_named", LO+"list_is_read_back_partial", LO+"simple_list_not_read"], "false of the code for the simple list; proved for the full one")

TR = "Verif.Selection."
claim("C130", "partial", [TR+"trimmed_background_partial", TR+"separate_catalogs_partial", TR+"Example.useless_event_decides"],
      "false of the code for equally distant events when the number of neighbours is limited; proved otherwise, when the axis distances of the index are lower bounds (see C27), at least one phase is required and no phase is picked twice")

SO = "Verif.Relocate."
SE = "Verif.SingleEvent."
claim("C131", "partial", [SO+"same_data_same_relocation", SO+"single_event_by_neighbours", SO+"correlation_order_blind", SE+"single_event_trim_partial", SE+"single_event_storage_partial"],
      "proved, restored events and failures included, up to the selection of the neighbours, which has the limits of C111 and C130 (no equally distant events if the number of neighbours is limited); event numbers below 2^32-1 as in C11; correlating the same waveforms again must give the same")

claim("C132", "proved", [SO+"cluster_alone", SO+"part_alone", SO+"found_clusters_split"],
      "correlating the same waveforms again must give the same, and the solver must not depend on earlier clusters")

AC = "Verif.AppConfig."
claim("C133", "partial", [AC+"application_starts_iff", AC+"application_settings", AC+"settings_complete", AC+"defaults_partial", AC+"documented_time_alive_wrong", AC+"allowed_origins", AC+"profiles_stay"],
      "false of the default of performance.profileTimeAlive (witness); all of the rest is proved. The conversion of texts to values by SeisComP is a parameter")

TU = "Verif.Turn."
claim("C134", "proved", [TU+"relocation_elsewhere", TU+"multi_elsewhere", TU+"single_event_elsewhere", TU+"solver_ignores_places", TU+"round_earth_looks_the_same", TU+"relocation_round_the_globe", TU+"constant_velocity_is_round"],
      "with the same neighbours selected; that the search for them depends on the longitude is C127. Travel times are those of a round earth; the table for a constant velocity is one except for events within 6 mm of the place of a station")

RN = "Verif.Renumber."
claim("C135", "proved", [RN+"relocation_renumbered", RN+"multi_renumbered", RN+"solver_ignores_numbers", RN+"catalog_renumbered", RN+"same_order_same_relocation",
      RN+"selection_renumbered", RN+"clusters_renumbered", RN+"run_renumbered", RN+"exists_orders", RN+"single_event_renumbered"],
      "numberings with a different order are C107 (the same result up to the restored events)")

WF = "Verif.Weights."
claim("C136", "proved", [WF+"system_factor", WF+"solver_ignores_factor", WF+"relocation_factor", WF+"catalog_factor", WF+"uniform_uncertainties", WF+"single_factor", WF+"neighbours_ignore_weights", WF+"event_factor"],
      "for LSMR with normalisation, the defaults, over real numbers")

LS137 = "Verif.LeastSquares."
claim("C137", "proved", [LS137+"corrections_proportional", LS137+"corrections_odd", LS137+"corrections_homogeneous"],
      "factors for LSMR, the sign for both solvers, over real numbers")
props = [json.loads(l)["id"] for l in open(os.path.join(ROOT, "properties.jsonl"))]
out = []
for p in props:
    if p in C:
        out.append(C[p])
    else:
        out.append(dict(property=p, status="partial", theorems=[], note="not yet proved"))
json.dump({"claims": out}, open(os.path.join(ROOT, "MANIFEST.json"), "w"), indent=1)
# axiom report
with open(os.path.join(ROOT, "lean/Verif/Axioms.lean"), "w") as f:
    f.write("import Verif.Props\n\n/-! Axioms used by every property theorem (printed in the build log; generated by tools/claims.py). -/\n\n")
    for c in out:
        for t in c["theorems"]:
            f.write("#print axioms %s\n" % t)
print(len([c for c in out if c["theorems"]]), "of", len(out))
# list of property modules
mods = sorted(f[:-5] for f in os.listdir(os.path.join(ROOT, "lean/Verif/Props")) if f.endswith(".lean"))
with open(os.path.join(ROOT, "lean/Verif/Props.lean"), "w") as f:
    for m in mods:
        f.write("import Verif.Props.%s\n" % m)
