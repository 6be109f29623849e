{
 "claims": [
  {
   "property": "C01",
   "status": "proved",
   "theorems": [
    "Wam.C01_advection_conserves_closed",
    "Wam.C01_advection_conserves_periodic",
    "Wam.C01_advection_conserves"
   ],
   "note": ""
  },
  {
   "property": "C02",
   "status": "proved",
   "theorems": [
    "Wam.C02_donor_cell_closed",
    "Wam.C02_donor_cell_periodic",
    "Wam.C02_donor_cell"
   ],
   "note": ""
  },
  {
   "property": "C03",
   "status": "proved",
   "theorems": [
    "Wam.C03_constant_field"
   ],
   "note": ""
  },
  {
   "property": "C04",
   "status": "proved",
   "theorems": [
    "Wam.C04_advect_rotation",
    "Wam.C04_forwardtrack_rotation",
    "Wam.C04_backtrack_rotation",
    "Wam.C04_stabilize_rotation",
    "Wam.C04_fz_rotation_interior",
    "Wam.C04_fz_seam_error",
    "Wam.C04_fz_has_seam"
   ],
   "note": ""
  },
  {
   "property": "C05",
   "status": "proved",
   "theorems": [
    "Wam.C05_vertical_upwind",
    "Wam.C05_dispersion",
    "Wam.C05_vertical_conserves_forward",
    "Wam.C05_vertical_conserves_backward"
   ],
   "note": ""
  },
  {
   "property": "C06",
   "status": "proved",
   "theorems": [
    "Wam.C06_half_cell_bound"
   ],
   "note": ""
  },
  {
   "property": "C07",
   "status": "proved",
   "theorems": [
    "Wam.C07_gentle_correction",
    "Wam.C07_no_amplification"
   ],
   "note": ""
  },
  {
   "property": "C08",
   "status": "proved",
   "theorems": [
    "Wam.C08_idempotent"
   ],
   "note": ""
  },
  {
   "property": "C09",
   "status": "proved",
   "theorems": [
    "Wam.C09_zero_flux_becomes_nan",
    "Wam.C09_nan_stays_forward",
    "Wam.C09_nan_stays_backward",
    "Wam.C09_nan_spreads_forward",
    "Wam.C09_nan_spreads_backward",
    "Wam.C09_flush_keeps_nan_forward",
    "Wam.C09_flush_keeps_nan_backward",
    "Wam.C09_no_nan_stabilize",
    "Wam.C09_no_nan_fz",
    "Wam.C09_no_nan_forward",
    "Wam.C09_no_nan_backward",
    "Wam.C09_run_forward",
    "Wam.C09_run_backward",
    "Wam.C09_run_zero_flux_forward",
    "Wam.C09_run_zero_flux_backward"
   ],
   "note": ""
  },
  {
   "property": "C10",
   "status": "proved",
   "theorems": [
    "Wam.C10_outflow_bound_layer",
    "Wam.C10_outflow_bound",
    "Wam.C10_no_overdraft_uniform"
   ],
   "note": ""
  },
  {
   "property": "C11",
   "status": "proved",
   "theorems": [
    "Wam.C11_vertical_flux_bound",
    "Wam.C11_vertical_exchange_bound"
   ],
   "note": ""
  },
  {
   "property": "C12",
   "status": "proved",
   "theorems": [
    "Wam.C12_closure"
   ],
   "note": ""
  },
  {
   "property": "C13",
   "status": "proved",
   "theorems": [
    "Wam.C13_tracked_within_storage_forward",
    "Wam.C13_tracked_within_storage_backward"
   ],
   "note": ""
  },
  {
   "property": "C14",
   "status": "proved",
   "theorems": [
    "Wam.C14_boundary_forward",
    "Wam.C14_boundary_backward"
   ],
   "note": ""
  },
  {
   "property": "C15",
   "status": "proved",
   "theorems": [
    "Wam.C15_cell_budget_forward",
    "Wam.C15_cell_budget_backward"
   ],
   "note": ""
  },
  {
   "property": "C16",
   "status": "proved",
   "theorems": [
    "Wam.C16_global_budget_forward",
    "Wam.C16_global_budget_backward"
   ],
   "note": ""
  },
  {
   "property": "C17",
   "status": "proved",
   "theorems": [
    "Wam.C17_increments_forward",
    "Wam.C17_increments_backward",
    "Wam.C17_tracked_precipitation_bounded",
    "Wam.C17_tracked_evaporation_bounded"
   ],
   "note": ""
  },
  {
   "property": "C18",
   "status": "proved",
   "theorems": [
    "Wam.C18_losses_gains_forward",
    "Wam.C18_losses_gains_backward"
   ],
   "note": ""
  },
  {
   "property": "C19",
   "status": "proved",
   "theorems": [
    "Wam.C19_run_forward",
    "Wam.C19_run_backward",
    "Wam.C19_nothing_from_nothing_forward",
    "Wam.C19_nothing_from_nothing_backward"
   ],
   "note": ""
  },
  {
   "property": "C20",
   "status": "proved",
   "theorems": [
    "Wam.C20_forward_transport",
    "Wam.C20_backward_transport",
    "Wam.C20_backtrack_is_reversed_forward"
   ],
   "note": ""
  },
  {
   "property": "C21",
   "status": "proved",
   "theorems": [
    "Wam.C21_split_forward",
    "Wam.C21_split_backward"
   ],
   "note": ""
  },
  {
   "property": "C22",
   "status": "proved",
   "theorems": [
    "Wam.C22_no_gains_forward",
    "Wam.C22_no_gains_backward"
   ],
   "note": ""
  },
  {
   "property": "C23",
   "status": "proved",
   "theorems": [
    "Wam.C23_step_count_forward",
    "Wam.C23_step_count_backward"
   ],
   "note": ""
  },
  {
   "property": "C24",
   "status": "proved",
   "theorems": [
    "Wam.C24_rest_is_not_looked_at",
    "Wam.C24_accepted",
    "Wam.C24_assigned",
    "Wam.C24_never_finishes_forward",
    "Wam.C24_never_finishes_backward",
    "Wam.C24_runs_out_of_data_forward",
    "Wam.C24_runs_out_of_data_backward",
    "Wam.C24_command",
    "Wam.C24_zero_timestep_forward",
    "Wam.C24_zero_timestep_backward",
    "Wam.C24_nonpositive_timestep_forward",
    "Wam.C24_nonpositive_timestep_backward"
   ],
   "note": ""
  },
  {
   "property": "C25",
   "status": "proved",
   "theorems": [
    "Wam.C25_output_times_forward",
    "Wam.C25_output_times_backward",
    "Wam.C25_output_order_forward",
    "Wam.C25_output_order_backward"
   ],
   "note": ""
  },
  {
   "property": "C26",
   "status": "proved",
   "theorems": [
    "Wam.C26_files_are_sound_forward",
    "Wam.C26_files_are_sound_backward"
   ],
   "note": ""
  },
  {
   "property": "C27",
   "status": "proved",
   "theorems": [
    "Wam.C27_run_budget_forward",
    "Wam.C27_run_budget_backward",
    "Wam.C27_final_storage_forward",
    "Wam.C27_final_storage_backward"
   ],
   "note": ""
  },
  {
   "property": "C28",
   "status": "proved",
   "theorems": [
    "Wam.C28_output_frequency_forward",
    "Wam.C28_output_frequency_backward"
   ],
   "note": ""
  },
  {
   "property": "C29",
   "status": "proved",
   "theorems": [
    "Wam.C29_restart_forward",
    "Wam.C29_restart_backward"
   ],
   "note": ""
  },
  {
   "property": "C30",
   "status": "proved",
   "theorems": [
    "Wam.C30_crash_forward",
    "Wam.C30_crash_backward"
   ],
   "note": ""
  },
  {
   "property": "C31",
   "status": "proved",
   "theorems": [
    "Wam.C31_outside_window_forward",
    "Wam.C31_outside_window_backward",
    "Wam.C31_tagged_steps_forward",
    "Wam.C31_tagged_steps_backward"
   ],
   "note": ""
  },
  {
   "property": "C32",
   "status": "proved",
   "theorems": [
    "Wam.C32_tagged_total_forward",
    "Wam.C32_tagged_total_backward"
   ],
   "note": ""
  },
  {
   "property": "C33",
   "status": "proved",
   "theorems": [
    "Wam.C33_accumulation_forward",
    "Wam.C33_accumulation_first_forward",
    "Wam.C33_time_bounds_forward",
    "Wam.C33_accumulation_backward",
    "Wam.C33_accumulation_first_backward",
    "Wam.C33_time_bounds_backward"
   ],
   "note": ""
  },
  {
   "property": "C34",
   "status": "proved",
   "theorems": [
    "Wam.C34_report_totals_forward",
    "Wam.C34_report_totals_backward"
   ],
   "note": ""
  },
  {
   "property": "C35",
   "status": "proved",
   "theorems": [
    "Wam.C35_closure_forward",
    "Wam.C35_closure_backward"
   ],
   "note": ""
  },
  {
   "property": "C36",
   "status": "proved",
   "theorems": [
    "Wam.C36_warning_iff",
    "Wam.C36_cut_is_applied",
    "Wam.C36_thresholds_never_relax",
    "Wam.C36_warnings_bounded",
    "Wam.C36_blind_to_zonal_cuts"
   ],
   "note": ""
  },
  {
   "property": "C37",
   "status": "proved",
   "theorems": [
    "Wam.C37_only_enclosing_slices",
    "Wam.C37_interpolation",
    "Wam.C37_between",
    "Wam.C37_linear_data",
    "Wam.C37_subdomain",
    "Wam.C37_runs_from_archive"
   ],
   "note": ""
  },
  {
   "property": "C38",
   "status": "proved",
   "theorems": [
    "Wam.C38_cache_invisible",
    "Wam.C38_repeatable",
    "Wam.C38_stale_if_files_change"
   ],
   "note": ""
  },
  {
   "property": "C39",
   "status": "proved",
   "theorems": [
    "Wam.C39_first_answer",
    "Wam.C39_gives_up",
    "Wam.C39_bounds"
   ],
   "note": ""
  },
  {
   "property": "C40",
   "status": "proved",
   "theorems": [
    "Wam.C40_plain_box",
    "Wam.C40_box_across_date_line",
    "Wam.C40_eastward"
   ],
   "note": ""
  },
  {
   "property": "C41",
   "status": "proved",
   "theorems": [
    "Wam.C41_tagging_box",
    "Wam.C41_shape"
   ],
   "note": ""
  },
  {
   "property": "C42",
   "status": "proved",
   "theorems": [
    "Wam.C42_input_path",
    "Wam.C42_output_path",
    "Wam.C42_run_forward",
    "Wam.C42_run_backward",
    "Wam.C42_sub_minute_collision"
   ],
   "note": ""
  },
  {
   "property": "C43",
   "status": "proved",
   "theorems": [
    "Wam.C43_nearest_region",
    "Wam.C43_exact_time",
    "Wam.C43_load_tagging_region"
   ],
   "note": ""
  },
  {
   "property": "C44",
   "status": "proved",
   "theorems": [
    "Wam.C44_accepted_iff"
   ],
   "note": ""
  },
  {
   "property": "C45",
   "status": "proved",
   "theorems": [
    "Wam.C45_calendar_names",
    "Wam.C45_accepted_is_ordered",
    "Wam.C45_assignment",
    "Wam.C45_disorder_is_reported",
    "Wam.C45_history",
    "Wam.C45_stays_ordered",
    "Wam.C45_rejected_assignment_sticks"
   ],
   "note": ""
  },
  {
   "property": "C46",
   "status": "proved",
   "theorems": [
    "Wam.C46_date_round_trip",
    "Wam.C46_exact_iff_whole_minute",
    "Wam.C46_reads_what_is_written",
    "Wam.C46_only_existing_dates",
    "Wam.C46_rejects_missing_dates",
    "Wam.C46_timestamp",
    "Wam.C46_config_round_trip"
   ],
   "note": ""
  },
  {
   "property": "C47",
   "status": "proved",
   "theorems": [
    "Wam.C47_modernised",
    "Wam.C47_others_unchanged",
    "Wam.C47_meaning_kept",
    "Wam.C47_idempotent",
    "Wam.C47_meaning_unique"
   ],
   "note": ""
  },
  {
   "property": "C48",
   "status": "proved",
   "theorems": [
    "Wam.C48_floor_ceil",
    "Wam.C48_floor_ceil_optimal",
    "Wam.C48_multiple",
    "Wam.C48_nearest"
   ],
   "note": ""
  },
  {
   "property": "C49",
   "status": "proved",
   "theorems": [
    "Wam.C49_piecewise_linear",
    "Wam.C49_errors",
    "Wam.C49_exact_at_samples",
    "Wam.C49_between_neighbours",
    "Wam.C49_linear_data",
    "Wam.C49_descending"
   ],
   "note": ""
  },
  {
   "property": "C50",
   "status": "proved",
   "theorems": [
    "Wam.C50_era5_nonneg",
    "Wam.C50_era5_net",
    "Wam.C50_era5_parts",
    "Wam.C50_cmip_evap",
    "Wam.C50_cmip_precip",
    "Wam.C50_cmip_precip_negative_iff"
   ],
   "note": ""
  },
  {
   "property": "C51",
   "status": "proved",
   "theorems": [
    "Wam.C51_partition_pressure_levels",
    "Wam.C51_storages_nonneg",
    "Wam.C51_dry_column_loses_tcw",
    "Wam.C51_storages_nonneg_model_levels",
    "Wam.C51_partition_model_levels"
   ],
   "note": ""
  },
  {
   "property": "C52",
   "status": "proved",
   "theorems": [
    "Wam.C52_layer_integrals",
    "Wam.C52_thickness",
    "Wam.C52_linear_humidity_exact",
    "Wam.C52_boundary_outside",
    "Wam.C52_default_boundary"
   ],
   "note": ""
  },
  {
   "property": "C53",
   "status": "proved",
   "theorems": [
    "Wam.C53_level_order",
    "Wam.C53_below_ground_ignored",
    "Wam.C53_tie_at_the_surface"
   ],
   "note": ""
  },
  {
   "property": "C54",
   "status": "proved",
   "theorems": [
    "Wam.C54_edges",
    "Wam.C54_layer_integrals",
    "Wam.C54_thicknesses_add_up",
    "Wam.C54_era5_surface_pressure",
    "Wam.C54_nonneg",
    "Wam.C54_era5_nonneg",
    "Wam.C54_level_out_of_table",
    "Wam.C54_level_zero_is_137",
    "Wam.C54_all_levels_not_exact"
   ],
   "note": ""
  },
  {
   "property": "C55",
   "status": "proved",
   "theorems": [
    "Wam.C55_unchanged",
    "Wam.C55_range_and_order",
    "Wam.C55_columns",
    "Wam.C55_strict_iff",
    "Wam.C55_idempotent",
    "Wam.C55_global_grid"
   ],
   "note": ""
  },
  {
   "property": "C56",
   "status": "proved",
   "theorems": [
    "Wam.C56_dates",
    "Wam.C56_dates_whole_minutes",
    "Wam.C56_nothing_lost",
    "Wam.C56_groups_are_days",
    "Wam.C56_groups_are_files"
   ],
   "note": ""
  },
  {
   "property": "C57",
   "status": "proved",
   "theorems": [
    "Wam.C57_files",
    "Wam.C57_same_grid",
    "Wam.C57_succeeds",
    "Wam.C57_fails"
   ],
   "note": ""
  },
  {
   "property": "C58",
   "status": "proved",
   "theorems": [
    "Wam.C58_old_files_do_not_matter",
    "Wam.C58_rerun",
    "Wam.C58_split_day_is_lost",
    "Wam.C58_after_crash",
    "Wam.C58_after_failure"
   ],
   "note": ""
  },
  {
   "property": "C59",
   "status": "proved",
   "theorems": [
    "Wam.C59_parallel_eq_sequential",
    "Wam.C59_no_failure",
    "Wam.C59_days_are_independent",
    "Wam.C59_every_fair_schedule"
   ],
   "note": ""
  },
  {
   "property": "C60",
   "status": "proved",
   "theorems": [
    "Wam.C60_accepts_iff",
    "Wam.C60_error_is_real",
    "Wam.C60_nans_last",
    "Wam.C60_extra_variable"
   ],
   "note": ""
  },
  {
   "property": "C61",
   "status": "proved",
   "theorems": [
    "Wam.C61_uniform",
    "Wam.C61_shared_edges_iff",
    "Wam.C61_majority",
    "Wam.C61_orientation",
    "Wam.C61_beyond_the_pole",
    "Wam.C61_tiling",
    "Wam.C61_single_value"
   ],
   "note": ""
  },
  {
   "property": "C62",
   "status": "proved",
   "theorems": [
    "Wam.C62_area",
    "Wam.C62_area_pos",
    "Wam.C62_global_with_poles",
    "Wam.C62_global_between_poles",
    "Wam.C62_area_right_iff",
    "Wam.C62_dx",
    "Wam.C62_dx_pos",
    "Wam.C62_dx_pole",
    "Wam.C62_dy",
    "Wam.C62_date_line"
   ],
   "note": ""
  },
  {
   "property": "C63",
   "status": "proved",
   "theorems": [
    "Wam.C63_range_warns_iff",
    "Wam.C63_range_wrong_iff",
    "Wam.C63_magnitude_warns_iff",
    "Wam.C63_sign_warns_iff",
    "Wam.C63_monotonic_warns_iff",
    "Wam.C63_uniform_iff",
    "Wam.C63_check_input_completes",
    "Wam.C63_check_input_silent_iff",
    "Wam.C63_upper_limit_has_no_effect"
   ],
   "note": ""
  },
  {
   "property": "C64",
   "status": "proved",
   "theorems": [
    "Wam.C64_value",
    "Wam.C64_range",
    "Wam.C64_single",
    "Wam.C64_disjoint",
    "Wam.C64_bad_numbers",
    "Wam.C64_no_region",
    "Wam.C64_shapes_default"
   ],
   "note": ""
  },
  {
   "property": "C65",
   "status": "proved",
   "theorems": [
    "Wam.C65_square",
    "Wam.C65_square_is_box",
    "Wam.C65_no_wrapping",
    "Wam.C65_track",
    "Wam.C65_track_in_use"
   ],
   "note": ""
  },
  {
   "property": "C66",
   "status": "proved",
   "theorems": [
    "Wam.C66_fraction",
    "Wam.C66_range",
    "Wam.C66_succeeds_iff"
   ],
   "note": ""
  },
  {
   "property": "C67",
   "status": "proved",
   "theorems": [
    "Wam.C67_parse_doi",
    "Wam.C67_rejects",
    "Wam.C67_4tu_id",
    "Wam.C67_dot_not_escaped"
   ],
   "note": ""
  },
  {
   "property": "C68",
   "status": "proved",
   "theorems": [
    "Wam.C68_target_directory",
    "Wam.C68_download_keeps_existing",
    "Wam.C68_existing_target_stops",
    "Wam.C68_untrusted_names",
    "Wam.C68_complete_download",
    "Wam.C68_other_repositories"
   ],
   "note": ""
  },
  {
   "property": "C69",
   "status": "proved",
   "theorems": [
    "Wam.C69_track",
    "Wam.C69_preprocess",
    "Wam.C69_nothing_else"
   ],
   "note": ""
  },
  {
   "property": "C70",
   "status": "proved",
   "theorems": [
    "Wam.C70_resample_ok_iff",
    "Wam.C70_resample_values",
    "Wam.C70_labels",
    "Wam.C70_flux_at",
    "Wam.C70_common_levels"
   ],
   "note": ""
  },
  {
   "property": "C71",
   "status": "proved",
   "theorems": [
    "Wam.C71_divergence_matches_advection",
    "Wam.C71_saturated_advection"
   ],
   "note": ""
  },
  {
   "property": "C72",
   "status": "proved",
   "theorems": [
    "Wam.C72_missing_input_forward",
    "Wam.C72_missing_input_backward"
   ],
   "note": ""
  },
  {
   "property": "C73",
   "status": "proved",
   "theorems": [
    "Wam.C73_vapour_pressure",
    "Wam.C73_is_specific_humidity",
    "Wam.C73_between_zero_and_one",
    "Wam.C73_monotone"
   ],
   "note": ""
  },
  {
   "property": "C74",
   "status": "proved",
   "theorems": [
    "Wam.C74_archive"
   ],
   "note": ""
  },
  {
   "property": "C75",
   "status": "proved",
   "theorems": [
    "Wam.C75_cells",
    "Wam.C75_succeeds_iff",
    "Wam.C75_pressure_level_storage"
   ],
   "note": ""
  },
  {
   "property": "C76",
   "status": "proved",
   "theorems": [
    "Wam.C76_aligned",
    "Wam.C76_no_domain",
    "Wam.C76_moving"
   ],
   "note": ""
  },
  {
   "property": "C77",
   "status": "proved",
   "theorems": [
    "Wam.C77_step_forward",
    "Wam.C77_step_backward",
    "Wam.C77_run_forward",
    "Wam.C77_run_backward"
   ],
   "note": ""
  },
  {
   "property": "C78",
   "status": "proved",
   "theorems": [
    "Wam.C78_step_forward",
    "Wam.C78_step_backward",
    "Wam.C78_superposition_forward",
    "Wam.C78_scaling_forward",
    "Wam.C78_superposition_backward",
    "Wam.C78_scaling_backward"
   ],
   "note": ""
  },
  {
   "property": "C79",
   "status": "proved",
   "theorems": [
    "Wam.C79_every_number_from_its_place",
    "Wam.C79_no_missing_values",
    "Wam.C79_total_column_water",
    "Wam.C79_labels_determine_number",
    "Wam.C79_succeeds"
   ],
   "note": ""
  },
  {
   "property": "C80",
   "status": "proved",
   "theorems": [
    "Wam.C80_text",
    "Wam.C80_variable",
    "Wam.C80_braces",
    "Wam.C80_unknown_field",
    "Wam.C80_dates",
    "Wam.C80_different_variables",
    "Wam.C80_different_times",
    "Wam.C80_daily_files"
   ],
   "note": ""
  },
  {
   "property": "C81",
   "status": "proved",
   "theorems": [
    "Wam.C81_succeeds",
    "Wam.C81_resamples_each_cell",
    "Wam.C81_every_number_from_its_place",
    "Wam.C81_file_order"
   ],
   "note": ""
  },
  {
   "property": "C82",
   "status": "proved",
   "theorems": [
    "Wam.C82_succeeds",
    "Wam.C82_every_number_from_its_place"
   ],
   "note": ""
  },
  {
   "property": "C83",
   "status": "proved",
   "theorems": [
    "Wam.C83_era5_pressure_levels",
    "Wam.C83_era5_model_levels",
    "Wam.C83_arco",
    "Wam.C83_cmip",
    "Wam.C83_era5_total_column_water"
   ],
   "note": ""
  },
  {
   "property": "C84",
   "status": "proved",
   "theorems": [
    "Wam.C84_era5_file_layout",
    "Wam.C84_cmip_file_order"
   ],
   "note": ""
  },
  {
   "property": "C85",
   "status": "proved",
   "theorems": [
    "Wam.C85_tracked_within_storage_forward",
    "Wam.C85_tracked_within_storage_backward",
    "Wam.C85_boundary_forward",
    "Wam.C85_boundary_backward",
    "Wam.C85_increments_forward",
    "Wam.C85_increments_backward",
    "Wam.C85_nothing_from_nothing_forward",
    "Wam.C85_nothing_from_nothing_backward",
    "Wam.C85_files_are_sound_forward",
    "Wam.C85_files_are_sound_backward",
    "Wam.C85_no_tagging_forward",
    "Wam.C85_no_tagging_backward",
    "Wam.C85_output_frequency_forward",
    "Wam.C85_output_frequency_backward",
    "Wam.C85_restart_forward",
    "Wam.C85_restart_backward",
    "Wam.C85_conversion"
   ],
   "note": ""
  },
  {
   "property": "C86",
   "status": "proved",
   "theorems": [
    "Wam.C86_plot_forward",
    "Wam.C86_last_file_is_missing_forward",
    "Wam.C86_unaligned_start_forward",
    "Wam.C86_plot_backward",
    "Wam.C86_first_file_is_missing_backward",
    "Wam.C86_unaligned_start_backward"
   ],
   "note": ""
  },
  {
   "property": "C87",
   "status": "proved",
   "theorems": [
    "Wam.C87_no_warning_means_same_calendar",
    "Wam.C87_usual_name_no_warning",
    "Wam.C87_mismatch_is_reported",
    "Wam.C87_synonyms_always_warn",
    "Wam.C87_first_file_only"
   ],
   "note": ""
  },
  {
   "property": "C88",
   "status": "proved",
   "theorems": [
    "Wam.C88_era5_forward",
    "Wam.C88_era5_backward",
    "Wam.C88_era5_model_levels",
    "Wam.C88_arco",
    "Wam.C88_cmip"
   ],
   "note": ""
  },
  {
   "property": "C89",
   "status": "proved",
   "theorems": [
    "Wam.C89_read_from_the_files",
    "Wam.C89_complete_forward",
    "Wam.C89_complete_backward",
    "Wam.C89_forward_run_from_files",
    "Wam.C89_backward_run_from_files"
   ],
   "note": ""
  },
  {
   "property": "C90",
   "status": "proved",
   "theorems": [
    "Wam.C90_step_forward",
    "Wam.C90_step_backward",
    "Wam.C90_run_forward",
    "Wam.C90_run_backward"
   ],
   "note": ""
  },
  {
   "property": "C91",
   "status": "proved",
   "theorems": [
    "Wam.C91_balance_forward",
    "Wam.C91_balance_backward"
   ],
   "note": ""
  },
  {
   "property": "C92",
   "status": "proved",
   "theorems": [
    "Wam.C92_step_forward",
    "Wam.C92_step_backward",
    "Wam.C92_run_budget_forward",
    "Wam.C92_run_budget_backward"
   ],
   "note": ""
  },
  {
   "property": "C93",
   "status": "proved",
   "theorems": [
    "Wam.C93_run_error_forward",
    "Wam.C93_run_error_backward"
   ],
   "note": ""
  },
  {
   "property": "C94",
   "status": "proved",
   "theorems": [
    "Wam.C94_completes_forward",
    "Wam.C94_fails_forward",
    "Wam.C94_iff_forward",
    "Wam.C94_restart_forward",
    "Wam.C94_folder_forward",
    "Wam.C94_completes_backward",
    "Wam.C94_fails_backward",
    "Wam.C94_iff_backward",
    "Wam.C94_restart_backward",
    "Wam.C94_folder_backward"
   ],
   "note": ""
  },
  {
   "property": "C95",
   "status": "proved",
   "theorems": [
    "Wam.C95_restart_forward",
    "Wam.C95_restart_backward",
    "Wam.C95_file_forward",
    "Wam.C95_file_backward"
   ],
   "note": ""
  },
  {
   "property": "C96",
   "status": "proved",
   "theorems": [
    "Wam.C96_other_grid_forward",
    "Wam.C96_other_grid_backward",
    "Wam.C96_unused_forward",
    "Wam.C96_unused_backward"
   ],
   "note": ""
  },
  {
   "property": "C97",
   "status": "proved",
   "theorems": [
    "Wam.C97_any_history_forward",
    "Wam.C97_any_history_backward"
   ],
   "note": ""
  },
  {
   "property": "C98",
   "status": "proved",
   "theorems": [
    "Wam.C98_part_of_the_grid_forward",
    "Wam.C98_part_of_the_grid_backward"
   ],
   "note": ""
  },
  {
   "property": "C99",
   "status": "proved",
   "theorems": [
    "Wam.C99_no_boundary_losses_forward",
    "Wam.C99_no_boundary_losses_backward"
   ],
   "note": ""
  },
  {
   "property": "C100",
   "status": "proved",
   "theorems": [
    "Wam.C100_domain_is_a_part",
    "Wam.C100_same_inside_forward",
    "Wam.C100_large_enough_forward",
    "Wam.C100_same_inside_backward",
    "Wam.C100_large_enough_backward"
   ],
   "note": ""
  },
  {
   "property": "C101",
   "status": "proved",
   "theorems": [
    "Wam.C101_mirror_forward",
    "Wam.C101_mirror_backward",
    "Wam.C101_report_forward",
    "Wam.C101_report_backward",
    "Wam.C101_grid"
   ],
   "note": ""
  },
  {
   "property": "C102",
   "status": "proved",
   "theorems": [
    "Wam.C102_units_forward",
    "Wam.C102_units_backward",
    "Wam.C102_rounded_forward",
    "Wam.C102_rounded_backward",
    "Wam.C102_percentages",
    "Wam.C102_report_forward",
    "Wam.C102_report_backward"
   ],
   "note": ""
  },
  {
   "property": "C103",
   "status": "proved",
   "theorems": [
    "Wam.C103_shift_forward",
    "Wam.C103_shift_backward",
    "Wam.C103_archive_forward",
    "Wam.C103_archive_backward"
   ],
   "note": ""
  },
  {
   "property": "C104",
   "status": "proved",
   "theorems": [
    "Wam.C104_period_forward",
    "Wam.C104_causal_forward",
    "Wam.C104_period_backward",
    "Wam.C104_causal_backward",
    "Wam.C104_archive"
   ],
   "note": ""
  },
  {
   "property": "C105",
   "status": "proved",
   "theorems": [
    "Wam.C105_domain_across_the_date_line",
    "Wam.C105_one_column_west_of_the_date_line",
    "Wam.C105_same_inside_forward",
    "Wam.C105_large_enough_forward",
    "Wam.C105_same_inside_backward",
    "Wam.C105_large_enough_backward"
   ],
   "note": ""
  },
  {
   "property": "C106",
   "status": "proved",
   "theorems": [
    "Wam.C106_loading",
    "Wam.C106_unreadable",
    "Wam.C106_track",
    "Wam.C106_input_untouched",
    "Wam.C106_other_files_kept",
    "Wam.C106_configuration_kept",
    "Wam.C106_preprocess",
    "Wam.C106_visualize",
    "Wam.C106_loading_again",
    "Wam.C106_rejected_makes_folders",
    "Wam.C106_tilde",
    "Wam.C106_file_as_folder",
    "Wam.C106_all_written"
   ],
   "note": ""
  },
  {
   "property": "C107",
   "status": "proved",
   "theorems": [
    "Wam.C107_advection_transposed",
    "Wam.C107_vertical_transposed",
    "Wam.C107_reciprocity",
    "Wam.C107_step",
    "Wam.C107_reciprocity_exact"
   ],
   "note": ""
  },
  {
   "property": "C108",
   "status": "proved",
   "theorems": [
    "Wam.C108_run_again",
    "Wam.C108_track_again",
    "Wam.C108_preprocess_again",
    "Wam.C108_tracking_again"
   ],
   "note": ""
  },
  {
   "property": "C109",
   "status": "proved",
   "theorems": [
    "Wam.C109_reads",
    "Wam.C109_settings",
    "Wam.C109_tagging",
    "Wam.C109_forward",
    "Wam.C109_backward",
    "Wam.C109_whole_run_forward",
    "Wam.C109_whole_run_backward",
    "Wam.C109_grid",
    "Wam.C109_forward_files",
    "Wam.C109_backward_files"
   ],
   "note": ""
  },
  {
   "property": "C110",
   "status": "proved",
   "theorems": [
    "Wam.C110_forward",
    "Wam.C110_backward",
    "Wam.C110_forward_tolerance",
    "Wam.C110_backward_tolerance"
   ],
   "note": ""
  },
  {
   "property": "C111",
   "status": "proved",
   "theorems": [
    "Wam.C111_preprocess",
    "Wam.C111_forward",
    "Wam.C111_backward",
    "Wam.C111_era5_forward",
    "Wam.C111_era5_backward"
   ],
   "note": ""
  },
  {
   "property": "C112",
   "status": "proved",
   "theorems": [
    "Wam.C112_ends",
    "Wam.C112_tracking_ends",
    "Wam.C112_preprocessing_ends",
    "Wam.C112_forward",
    "Wam.C112_backward",
    "Wam.C112_preprocess",
    "Wam.C112_pipeline_forward",
    "Wam.C112_pipeline_backward",
    "Wam.C112_era5_forward",
    "Wam.C112_era5_backward"
   ],
   "note": ""
  },
  {
   "property": "C113",
   "status": "proved",
   "theorems": [
    "Wam.C113_as_if_alone",
    "Wam.C113_any_time",
    "Wam.C113_rest_unchanged",
    "Wam.C113_progress",
    "Wam.C113_as_if_in_turn",
    "Wam.C113_folder_race"
   ],
   "note": ""
  },
  {
   "property": "C114",
   "status": "proved",
   "theorems": [
    "Wam.C114_pressure_levels",
    "Wam.C114_model_levels",
    "Wam.C114_between_input_times",
    "Wam.C114_no_correction",
    "Wam.C114_era5"
   ],
   "note": ""
  },
  {
   "property": "C115",
   "status": "proved",
   "theorems": [
    "Wam.C115_same_output_forward",
    "Wam.C115_forward",
    "Wam.C115_same_output_backward",
    "Wam.C115_backward"
   ],
   "note": ""
  },
  {
   "property": "C116",
   "status": "proved",
   "theorems": [
    "Wam.C116_last",
    "Wam.C116_parts",
    "Wam.C116_cut",
    "Wam.C116_two_commands",
    "Wam.C116_cut_day_is_lost"
   ],
   "note": ""
  },
  {
   "property": "C117",
   "status": "proved",
   "theorems": [
    "Wam.C117_forward",
    "Wam.C117_backward"
   ],
   "note": ""
  },
  {
   "property": "C118",
   "status": "proved",
   "theorems": [
    "Wam.C118_forward",
    "Wam.C118_backward"
   ],
   "note": ""
  },
  {
   "property": "C119",
   "status": "proved",
   "theorems": [
    "Wam.C119_moments",
    "Wam.C119_target_there",
    "Wam.C119_not_resumed",
    "Wam.C119_complete",
    "Wam.C119_status_ignored",
    "Wam.C119_no_link",
    "Wam.C119_cases",
    "Wam.C119_names_not_checked"
   ],
   "note": ""
  },
  {
   "property": "C120",
   "status": "proved",
   "theorems": [
    "Wam.C120_loads_again",
    "Wam.C120_attributes",
    "Wam.C120_history",
    "Wam.C120_same_output",
    "Wam.C120_run_repeated"
   ],
   "note": ""
  },
  {
   "property": "C121",
   "status": "proved",
   "theorems": [
    "Wam.C121_old_kept",
    "Wam.C121_new_read",
    "Wam.C121_succeeds",
    "Wam.C121_new_file",
    "Wam.C121_append",
    "Wam.C121_day",
    "Wam.C121_preprocess_day"
   ],
   "note": ""
  },
  {
   "property": "C122",
   "status": "proved",
   "theorems": [
    "Wam.C122_layers",
    "Wam.C122_total_column_water",
    "Wam.C122_layers_add_up",
    "Wam.C122_storages_nonneg",
    "Wam.C122_thickness",
    "Wam.C122_era5",
    "Wam.C122_era5_total"
   ],
   "note": ""
  },
  {
   "property": "C123",
   "status": "proved",
   "theorems": [
    "Wam.C123_made",
    "Wam.C123_single_number",
    "Wam.C123_errors",
    "Wam.C123_before_the_dot",
    "Wam.C123_published"
   ],
   "note": ""
  },
  {
   "property": "C124",
   "status": "proved",
   "theorems": [
    "Wam.C124_forward",
    "Wam.C124_backward",
    "Wam.C124_bounded",
    "Wam.C124_calm",
    "Wam.C124_first",
    "Wam.C124_file"
   ],
   "note": ""
  },
  {
   "property": "C125",
   "status": "proved",
   "theorems": [
    "Wam.C125_interpolate_old",
    "Wam.C125_interpolate_old_descending",
    "Wam.C125_join_levels",
    "Wam.C125_repeat_upper_level",
    "Wam.C125_target_levels",
    "Wam.C125_target_levels_fall",
    "Wam.C125_boundary_below_surface"
   ],
   "note": ""
  },
  {
   "property": "C126",
   "status": "proved",
   "theorems": [
    "Wam.C126_layers",
    "Wam.C126_era5",
    "Wam.C126_total_column_water",
    "Wam.C126_layers_add_up",
    "Wam.C126_storages_nonneg",
    "Wam.C126_same_precision"
   ],
   "note": ""
  },
  {
   "property": "C127",
   "status": "proved",
   "theorems": [
    "Wam.C127_layers",
    "Wam.C127_binary64",
    "Wam.C127_boundary",
    "Wam.C127_stored"
   ],
   "note": ""
  },
  {
   "property": "C128",
   "status": "proved",
   "theorems": [
    "Wam.C128_forward",
    "Wam.C128_backward"
   ],
   "note": ""
  },
  {
   "property": "C129",
   "status": "proved",
   "theorems": [
    "Wam.C129_forward",
    "Wam.C129_periods_forward",
    "Wam.C129_backward",
    "Wam.C129_periods_backward"
   ],
   "note": ""
  },
  {
   "property": "C130",
   "status": "proved",
   "theorems": [
    "Wam.C130_influence_forward",
    "Wam.C130_influence_backward"
   ],
   "note": ""
  },
  {
   "property": "C131",
   "status": "proved",
   "theorems": [
    "Wam.C131_stays_full_forward",
    "Wam.C131_totals_forward",
    "Wam.C131_stays_full_backward",
    "Wam.C131_totals_backward"
   ],
   "note": ""
  }
 ]
}