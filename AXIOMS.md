# Axioms used by each theorem of MANIFEST.json

Output of `#print axioms`.

| theorem | axioms |
|---|---|
| `Openscm.C01_any_view` | propext, Classical.choice, Quot.sound |
| `Openscm.C01_own_view` | propext, Classical.choice, Quot.sound |
| `Openscm.C02_generic` | propext, Classical.choice, Quot.sound |
| `Openscm.C02_scalar` | propext, Classical.choice, Quot.sound |
| `Openscm.C03_other_type_refused` | propext, Classical.choice, Quot.sound |
| `Openscm.C03_type_fixed` | propext, Classical.choice, Quot.sound |
| `Openscm.C04_first_view` | propext, Classical.choice, Quot.sound |
| `Openscm.C04_length` | propext, Classical.choice, Quot.sound |
| `Openscm.C04_points_fixed` | propext, Classical.choice, Quot.sound |
| `Openscm.C04_unit_fixed` | propext, Classical.choice, Quot.sound |
| `Openscm.C05_assigned` | propext, Classical.choice, Quot.sound |
| `Openscm.C05_child_refused` | propext, Classical.choice, Quot.sound |
| `Openscm.C05_no_children` | propext, Classical.choice, Quot.sound |
| `Openscm.C06_child_refused` | propext, Classical.choice, Quot.sound |
| `Openscm.C06_children_frozen` | propext, Classical.choice, Quot.sound |
| `Openscm.C07_generic` | propext, Classical.choice, Quot.sound |
| `Openscm.C07_scalar` | propext, Classical.choice, Quot.sound |
| `Openscm.C07_timeseries` | propext, Classical.choice, Quot.sound |
| `Openscm.C08_element_assignment_accepted` | propext, Classical.choice, Quot.sound |
| `Openscm.C08_partial` | propext, Classical.choice, Quot.sound |
| `Openscm.C09_fresh_sum` | propext, Classical.choice, Quot.sound |
| `Openscm.C100_carbon` | propext, Classical.choice, Quot.sound |
| `Openscm.C100_emissions` | propext, Classical.choice, Quot.sound |
| `Openscm.C100_interpolated` | propext, Classical.choice, Quot.sound |
| `Openscm.C101_carbon` | propext, Classical.choice, Quot.sound |
| `Openscm.C101_columns` | propext, Classical.choice, Quot.sound |
| `Openscm.C101_frame` | propext, Classical.choice, Quot.sound |
| `Openscm.C101_own` | propext, Classical.choice, Quot.sound |
| `Openscm.C101_rows` | propext, Classical.choice, Quot.sound |
| `Openscm.C102_means` | propext, Classical.choice, Quot.sound |
| `Openscm.C102_median` | propext, Classical.choice, Quot.sound |
| `Openscm.C103_commute_partial` | propext, Classical.choice, Quot.sound |
| `Openscm.C103_untyped` | propext, Classical.choice, Quot.sound |
| `Openscm.C104_loaded` | propext, Classical.choice, Quot.sound |
| `Openscm.C104_sulfur` | propext, Classical.choice, Quot.sound |
| `Openscm.C104_units_partial` | propext, Classical.choice, Quot.sound |
| `Openscm.C105_needs_partial` | propext, Classical.choice, Quot.sound |
| `Openscm.C105_replaced` | propext, Classical.choice, Quot.sound |
| `Openscm.C105_total` | propext, Classical.choice, Quot.sound |
| `Openscm.C106_iff` | propext, Classical.choice, Quot.sound |
| `Openscm.C106_loads` | propext, Classical.choice, Quot.sound |
| `Openscm.C106_round` | propext, Classical.choice, Quot.sound |
| `Openscm.C107_iff` | propext, Classical.choice, Quot.sound |
| `Openscm.C107_loads` | propext, Classical.choice, Quot.sound |
| `Openscm.C107_round` | propext, Classical.choice, Quot.sound |
| `Openscm.C107_twice` | propext, Classical.choice, Quot.sound |
| `Openscm.C108_back` | propext, Classical.choice, Quot.sound |
| `Openscm.C108_none` | propext, Classical.choice, Quot.sound |
| `Openscm.C108_order` | propext, Classical.choice, Quot.sound |
| `Openscm.C109_back` | propext, Classical.choice, Quot.sound |
| `Openscm.C109_select` | propext, Classical.choice, Quot.sound |
| `Openscm.C10_old_view_misses_new_leaf` | propext, Classical.choice, Quot.sound |
| `Openscm.C10_original_leaves` | propext, Classical.choice, Quot.sound |
| `Openscm.C10_partial` | propext, Classical.choice, Quot.sound |
| `Openscm.C10_view_calls_keep_leaves` | propext, Classical.choice, Quot.sound |
| `Openscm.C110_before` | propext, Classical.choice, Quot.sound |
| `Openscm.C110_context` | propext, Classical.choice, Quot.sound |
| `Openscm.C110_views` | propext, Classical.choice, Quot.sound |
| `Openscm.C111_alone` | propext, Classical.choice, Quot.sound |
| `Openscm.C111_order` | propext, Classical.choice, Quot.sound |
| `Openscm.C111_selected` | propext, Classical.choice, Quot.sound |
| `Openscm.C112_names` | propext, Classical.choice, Quot.sound |
| `Openscm.C112_renamed` | propext, Classical.choice, Quot.sound |
| `Openscm.C113_alone` | propext, Classical.choice, Quot.sound |
| `Openscm.C113_converted` | propext, Classical.choice, Quot.sound |
| `Openscm.C114_bounds` | propext, Classical.choice, Quot.sound |
| `Openscm.C114_run` | propext, Classical.choice, Quot.sound |
| `Openscm.C114_scalar` | propext, Classical.choice, Quot.sound |
| `Openscm.C114_start` | propext, Classical.choice, Quot.sound |
| `Openscm.C115_alone` | propext, Classical.choice, Quot.sound |
| `Openscm.C115_converted` | propext, Classical.choice, Quot.sound |
| `Openscm.C115_emissions` | propext, Classical.choice, Quot.sound |
| `Openscm.C11_first_read_partial` | propext, Classical.choice, Quot.sound |
| `Openscm.C11_frozen` | propext, Classical.choice, Quot.sound |
| `Openscm.C11_stale_after_child_write` | propext, Classical.choice, Quot.sound |
| `Openscm.C12_current_partial` | propext, Classical.choice, Quot.sound |
| `Openscm.C12_exchange` | propext, Classical.choice, Quot.sound |
| `Openscm.C12_integer_cache` | propext, Classical.choice, Quot.sound |
| `Openscm.C12_others_seen_partial` | propext, Classical.choice, Quot.sound |
| `Openscm.C12_refused_write_visible` | propext, Classical.choice, Quot.sound |
| `Openscm.C13_all_writes` | propext, Classical.choice, Quot.sound |
| `Openscm.C13_locked_discarded` | propext, Classical.choice, Quot.sound |
| `Openscm.C13_locked_partial` | propext, Classical.choice, Quot.sound |
| `Openscm.C13_locked_unreadable` | propext, Classical.choice, Quot.sound |
| `Openscm.C13_read_back_partial` | propext, Classical.choice, Quot.sound |
| `Openscm.C13_wrong_length` | propext, Classical.choice, Quot.sound |
| `Openscm.C14_monotone` | propext, Classical.choice, Quot.sound |
| `Openscm.C14_one_step` | propext, Classical.choice, Quot.sound |
| `Openscm.C14_same_version` | propext, Classical.choice, Quot.sound |
| `Openscm.C14_version_counts_writes` | propext, Classical.choice, Quot.sound |
| `Openscm.C14_written_exists` | propext, Classical.choice, Quot.sound |
| `Openscm.C15_generic_value` | propext, Classical.choice, Quot.sound |
| `Openscm.C15_info` | propext, Classical.choice, Quot.sound |
| `Openscm.C15_regions` | propext, Classical.choice, Quot.sound |
| `Openscm.C15_requested` | propext, Classical.choice, Quot.sound |
| `Openscm.C15_requested_info` | propext, Classical.choice, Quot.sound |
| `Openscm.C15_requested_values` | propext, Classical.choice, Quot.sound |
| `Openscm.C15_scalar_value` | propext, Classical.choice, Quot.sound |
| `Openscm.C15_timeseries_values` | propext, Classical.choice, Quot.sound |
| `Openscm.C16_found_iff_requested` | propext, Classical.choice, Quot.sound |
| `Openscm.C16_info_changes_nothing` | propext, Classical.choice, Quot.sound |
| `Openscm.C16_persists` | propext, Classical.choice, Quot.sound |
| `Openscm.C16_reports_key` | propext, Classical.choice, Quot.sound |
| `Openscm.C17_empty_name` | propext, Classical.choice, Quot.sound |
| `Openscm.C17_info_partial` | propext, Classical.choice, Quot.sound |
| `Openscm.C17_join_split` | propext, Classical.choice, Quot.sound |
| `Openscm.C17_levels` | propext, Classical.choice, Quot.sound |
| `Openscm.C17_requests` | propext, Classical.choice, Quot.sound |
| `Openscm.C17_separator_in_part` | propext, Classical.choice, Quot.sound |
| `Openscm.C17_split_injective` | propext, Classical.choice, Quot.sound |
| `Openscm.C17_split_join` | propext, Classical.choice, Quot.sound |
| `Openscm.C17_str_eq_seq` | propext, Classical.choice, Quot.sound |
| `Openscm.C18_generic` | propext, Classical.choice, Quot.sound |
| `Openscm.C18_readonly` | propext, Classical.choice, Quot.sound |
| `Openscm.C18_refused_marks_written` | propext, Classical.choice, Quot.sound |
| `Openscm.C18_refused_stays_visible` | propext, Classical.choice, Quot.sound |
| `Openscm.C18_scalar` | propext, Classical.choice, Quot.sound |
| `Openscm.C18_timeseries_partial` | propext, Classical.choice, Quot.sound |
| `Openscm.C19_first_write_shows_nan` | propext, Classical.choice, Quot.sound |
| `Openscm.C19_invisible_partial` | propext, Classical.choice, Quot.sound |
| `Openscm.C19_no_version_change` | propext, Classical.choice, Quot.sound |
| `Openscm.C19_unlock_stores` | propext, Classical.choice, Quot.sound |
| `Openscm.C20_granted_after` | propext, Classical.choice, Quot.sound |
| `Openscm.C20_partial` | propext, Classical.choice, Quot.sound |
| `Openscm.C20_second_request_accepted` | propext, Classical.choice, Quot.sound |
| `Openscm.C21_element_assignment_does_not_count` | propext, Classical.choice, Quot.sound |
| `Openscm.C21_ensure` | propext, Classical.choice, Quot.sound |
| `Openscm.C21_read_empty` | propext, Classical.choice, Quot.sound |
| `Openscm.C21_read_empty_timeseries` | propext, Classical.choice, Quot.sound |
| `Openscm.C21_refused_assignment_counts` | propext, Classical.choice, Quot.sound |
| `Openscm.C21_scalar_generic` | propext, Classical.choice, Quot.sound |
| `Openscm.C21_timeseries_assigned` | propext, Classical.choice, Quot.sound |
| `Openscm.C21_timeseries_partial` | propext, Classical.choice, Quot.sound |
| `Openscm.C22_average_identity` | propext, Classical.choice, Quot.sound |
| `Openscm.C22_converter_identity` | propext, Classical.choice, Quot.sound |
| `Openscm.C22_point_identity` | propext, Classical.choice, Quot.sound |
| `Openscm.C23_period_mean` | propext, Classical.choice, Quot.sound |
| `Openscm.C23_total_preserved` | propext, Classical.choice, Quot.sound |
| `Openscm.C24_between` | propext, Classical.choice, Quot.sound |
| `Openscm.C24_knot` | propext, Classical.choice, Quot.sound |
| `Openscm.C24_segment` | propext, Classical.choice, Quot.sound |
| `Openscm.C25_average_constant` | propext, Classical.choice, Quot.sound |
| `Openscm.C25_average_line_nonuniform_fails` | propext, Classical.choice, Quot.sound |
| `Openscm.C25_average_line_uniform` | propext, Classical.choice, Quot.sound |
| `Openscm.C25_point_line` | propext, Classical.choice, Quot.sound |
| `Openscm.C26_constant` | propext, Classical.choice, Quot.sound |
| `Openscm.C26_extrapolation_never_fails` | propext, Classical.choice, Quot.sound |
| `Openscm.C26_linear` | propext, Classical.choice, Quot.sound |
| `Openscm.C26_none_error_iff` | propext, Classical.choice, Quot.sound |
| `Openscm.C27_converter_length` | propext, Classical.choice, Quot.sound |
| `Openscm.C27_create` | propext, Classical.choice, Quot.sound |
| `Openscm.C27_length` | propext, Classical.choice, Quot.sound |
| `Openscm.C27_misfit` | propext, Quot.sound |
| `Openscm.C27_point_no_nan` | propext, Quot.sound |
| `Openscm.C27_short` | propext, Quot.sound |
| `Openscm.C28_linear` | propext, Classical.choice, Quot.sound |
| `Openscm.C29_close` | propext, Classical.choice, Quot.sound |
| `Openscm.C29_length` | propext, Classical.choice, Quot.sound |
| `Openscm.C29_points` | propext, Classical.choice, Quot.sound |
| `Openscm.C29_succeeds` | propext, Classical.choice, Quot.sound |
| `Openscm.C30_accepted` | propext, Classical.choice, Quot.sound |
| `Openscm.C30_inside` | propext, Classical.choice, Quot.sound |
| `Openscm.C30_monotone` | propext, Classical.choice, Quot.sound |
| `Openscm.C30_position` | propext, Classical.choice, Quot.sound |
| `Openscm.C30_refused` | propext, Classical.choice, Quot.sound |
| `Openscm.C30_whole` | propext, Classical.choice, Quot.sound |
| `Openscm.C31_accepted` | propext, Classical.choice, Quot.sound |
| `Openscm.C31_inverse` | propext, Classical.choice, Quot.sound |
| `Openscm.C31_no_name` | propext |
| `Openscm.C31_refused` | propext, Classical.choice, Quot.sound |
| `Openscm.C32_from_to` | propext, Classical.choice, Quot.sound |
| `Openscm.C32_same_unit` | propext, Classical.choice, Quot.sound |
| `Openscm.C32_to_from` | propext, Classical.choice, Quot.sound |
| `Openscm.C33_additive` | propext, Classical.choice, Quot.sound |
| `Openscm.C33_affine` | propext, Quot.sound |
| `Openscm.C33_compose` | propext, Classical.choice, Quot.sound |
| `Openscm.C33_convertFrom_is_pint` | propext, Classical.choice, Quot.sound |
| `Openscm.C33_reverse` | propext, Classical.choice, Quot.sound |
| `Openscm.C34_dimensionality_iff` | propext, Quot.sound |
| `Openscm.C34_exists_iff` | propext, Classical.choice, Quot.sound |
| `Openscm.C34_granted` | propext, Classical.choice, Quot.sound |
| `Openscm.C34_scalar_request` | propext, Classical.choice, Quot.sound |
| `Openscm.C34_timeseries_request` | propext, Classical.choice, Quot.sound |
| `Openscm.C34_undefined_iff` | propext, Quot.sound |
| `Openscm.C35_example` | propext, Classical.choice, Quot.sound |
| `Openscm.C35_from_co2` | propext, Classical.choice, Quot.sound |
| `Openscm.C35_ratio` | propext, Classical.choice, Quot.sound |
| `Openscm.C35_refused` | propext, Classical.choice, Quot.sound |
| `Openscm.C35_same_dimension` | propext, Classical.choice, Quot.sound |
| `Openscm.C35_to_co2` | propext, Classical.choice, Quot.sound |
| `Openscm.C36_joint_partial` | propext, Classical.choice, Quot.sound |
| `Openscm.C36_spellings_partial` | propext, Classical.choice, Quot.sound |
| `Openscm.C36_sulfur_refused` | propext, Classical.choice, Quot.sound |
| `Openscm.C36_sulfur_undefined` | propext, Classical.choice, Quot.sound |
| `Openscm.C37_failed` | propext |
| `Openscm.C37_known` | propext, Quot.sound |
| `Openscm.C37_same_class` | propext, Classical.choice, Quot.sound |
| `Openscm.C37_unknown` | propext |
| `Openscm.C38_before_run` | propext, Classical.choice, Quot.sound |
| `Openscm.C38_defaults` | propext, Classical.choice, Quot.sound |
| `Openscm.C38_initialised_once` | propext, Classical.choice, Quot.sound |
| `Openscm.C38_values_kept` | propext, Classical.choice, Quot.sound |
| `Openscm.C39_lower` | propext, Classical.choice, Quot.sound |
| `Openscm.C39_upper` | propext, Classical.choice, Quot.sound |
| `Openscm.C40_step` | propext, Classical.choice, Quot.sound |
| `Openscm.C40_total` | propext, Classical.choice, Quot.sound |
| `Openscm.C41_equilibrium` | propext, Classical.choice, Quot.sound |
| `Openscm.C41_run` | propext, Classical.choice, Quot.sound |
| `Openscm.C42_same` | propext, Classical.choice, Quot.sound |
| `Openscm.C42_succeeds` | propext, Classical.choice, Quot.sound |
| `Openscm.C43_again` | propext, Classical.choice, Quot.sound |
| `Openscm.C43_same` | propext, Classical.choice, Quot.sound |
| `Openscm.C43_succeeds` | propext, Classical.choice, Quot.sound |
| `Openscm.C44_end` | propext, Classical.choice, Quot.sound |
| `Openscm.C44_step` | propext, Classical.choice, Quot.sound |
| `Openscm.C44_time` | propext, Classical.choice, Quot.sound |
| `Openscm.C45_between` | propext, Classical.choice, Quot.sound |
| `Openscm.C45_exact_partial` | propext, Classical.choice, Quot.sound |
| `Openscm.C45_linear_partial` | propext, Classical.choice, Quot.sound |
| `Openscm.C45_monotone` | propext, Classical.choice, Quot.sound |
| `Openscm.C45_not_linear` | propext, Classical.choice, Quot.sound |
| `Openscm.C45_saturated` | propext, Classical.choice, Quot.sound |
| `Openscm.C45_start` | propext, Classical.choice, Quot.sound |
| `Openscm.C46_cells` | propext, Classical.choice, Quot.sound |
| `Openscm.C46_partition` | propext, Classical.choice, Quot.sound |
| `Openscm.C46_works` | propext, Classical.choice, Quot.sound |
| `Openscm.C47_both_partial` | propext, Classical.choice, Quot.sound |
| `Openscm.C47_commute_partial` | propext, Classical.choice, Quot.sound |
| `Openscm.C47_empty` | propext, Classical.choice, Quot.sound |
| `Openscm.C47_empty_refused` | propext, Classical.choice, Quot.sound |
| `Openscm.C47_idempotent_partial` | propext, Classical.choice, Quot.sound |
| `Openscm.C47_level` | propext, Classical.choice, Quot.sound |
| `Openscm.C48_backslash` | propext, Classical.choice, Quot.sound |
| `Openscm.C48_caret` | propext, Classical.choice, Quot.sound |
| `Openscm.C48_exact` | propext, Classical.choice, Quot.sound |
| `Openscm.C48_newline` | propext, Classical.choice, Quot.sound |
| `Openscm.C48_partial` | propext, Classical.choice, Quot.sound |
| `Openscm.C48_question` | propext, Classical.choice, Quot.sound |
| `Openscm.C49_below` | propext, Classical.choice, Quot.sound |
| `Openscm.C49_level` | propext, Classical.choice, Quot.sound |
| `Openscm.C49_partition` | propext, Classical.choice, Quot.sound |
| `Openscm.C49_refused` | propext, Classical.choice, Quot.sound |
| `Openscm.C50_again` | propext, Classical.choice, Quot.sound |
| `Openscm.C50_argument_changed` | propext, Classical.choice, Quot.sound |
| `Openscm.C50_day_partial` | propext, Classical.choice, Quot.sound |
| `Openscm.C50_documented` | propext, Classical.choice, Quot.sound |
| `Openscm.C50_month_partial` | propext, Classical.choice, Quot.sound |
| `Openscm.C50_month_single` | propext, Classical.choice, Quot.sound |
| `Openscm.C50_third_name` | propext, Classical.choice, Quot.sound |
| `Openscm.C50_two_ranges_day` | propext, Classical.choice, Quot.sound |
| `Openscm.C50_two_ranges_month` | propext, Classical.choice, Quot.sound |
| `Openscm.C51_clash` | propext, Classical.choice, Quot.sound |
| `Openscm.C51_inplace` | propext, Classical.choice, Quot.sound |
| `Openscm.C51_renamed` | propext, Classical.choice, Quot.sound |
| `Openscm.C51_unchanged` | propext, Quot.sound |
| `Openscm.C51_unknown` | propext, Classical.choice, Quot.sound |
| `Openscm.C51_works` | propext, Classical.choice, Quot.sound |
| `Openscm.C52_average_partial` | propext, Classical.choice, Quot.sound |
| `Openscm.C52_exact_messages_partial` | propext, Classical.choice, Quot.sound |
| `Openscm.C52_exact_order_partial` | propext, Classical.choice, Quot.sound |
| `Openscm.C52_exact_partial` | propext, Classical.choice, Quot.sound |
| `Openscm.C52_messages_partial` | propext, Classical.choice, Quot.sound |
| `Openscm.C52_no_overlap_partial` | propext, Classical.choice, Quot.sound |
| `Openscm.C52_no_sentinel` | propext, Classical.choice, Quot.sound |
| `Openscm.C52_order_partial` | propext, Classical.choice, Quot.sound |
| `Openscm.C52_sentinel` | propext, Classical.choice, Quot.sound |
| `Openscm.C52_works` | propext, Classical.choice, Quot.sound |
| `Openscm.C53_back` | propext, Classical.choice, Quot.sound |
| `Openscm.C53_converted` | propext, Classical.choice, Quot.sound |
| `Openscm.C53_inplace` | propext, Classical.choice, Quot.sound |
| `Openscm.C53_no_values` | propext, Classical.choice, Quot.sound |
| `Openscm.C53_unchanged` | propext, Classical.choice, Quot.sound |
| `Openscm.C53_works` | propext, Classical.choice, Quot.sound |
| `Openscm.C54_name` | propext, Classical.choice, Quot.sound |
| `Openscm.C54_relative` | propext, Classical.choice, Quot.sound |
| `Openscm.C54_works` | propext, Classical.choice, Quot.sound |
| `Openscm.C55_clock` | none |
| `Openscm.C55_covers_partial` | propext, Classical.choice, Quot.sound |
| `Openscm.C55_exact_partial` | propext, Classical.choice, Quot.sound |
| `Openscm.C55_exact_tick_partial` | propext, Classical.choice, Quot.sound |
| `Openscm.C55_multiple` | none |
| `Openscm.C55_no_gap` | propext, Classical.choice, Quot.sound |
| `Openscm.C55_tick` | none |
| `Openscm.C55_tick_partial` | propext, Classical.choice, Quot.sound |
| `Openscm.C55_times` | propext, Classical.choice, Quot.sound |
| `Openscm.C55_works` | propext, Classical.choice, Quot.sound |
| `Openscm.C56_mixed` | propext, Classical.choice, Quot.sound |
| `Openscm.C56_own` | propext, Classical.choice, Quot.sound |
| `Openscm.C56_placed_partial` | propext, Classical.choice, Quot.sound |
| `Openscm.C56_refused` | propext, Classical.choice, Quot.sound |
| `Openscm.C56_same_times` | propext, Classical.choice, Quot.sound |
| `Openscm.C56_works` | propext, Classical.choice, Quot.sound |
| `Openscm.C57_deep` | propext, Classical.choice, Quot.sound |
| `Openscm.C57_exact_partial` | propext, Classical.choice, Quot.sound |
| `Openscm.C57_exact_type_partial` | propext, Classical.choice, Quot.sound |
| `Openscm.C57_round_trip_partial` | propext, Classical.choice, Quot.sound |
| `Openscm.C57_single` | propext, Classical.choice, Quot.sound |
| `Openscm.C57_type_partial` | propext, Classical.choice, Quot.sound |
| `Openscm.C58_name` | propext, Classical.choice, Quot.sound |
| `Openscm.C58_unit` | propext, Classical.choice, Quot.sound |
| `Openscm.C59_array` | propext, Classical.choice, Quot.sound |
| `Openscm.C59_columns` | propext, Classical.choice, Quot.sound |
| `Openscm.C59_frame` | propext, Classical.choice, Quot.sound |
| `Openscm.C59_works` | propext, Classical.choice, Quot.sound |
| `Openscm.C60_joint_partial` | propext, Classical.choice, Quot.sound |
| `Openscm.C60_same_gas_partial` | propext, Classical.choice, Quot.sound |
| `Openscm.C61_methane` | propext, Classical.choice, Quot.sound |
| `Openscm.C61_no_context` | propext, Classical.choice, Quot.sound |
| `Openscm.C61_nothing_else` | propext, Classical.choice, Quot.sound |
| `Openscm.C61_nox` | propext, Classical.choice, Quot.sound |
| `Openscm.C62_between` | propext, Classical.choice, Quot.sound |
| `Openscm.C62_columns` | propext, Quot.sound |
| `Openscm.C62_covered_exact_partial` | propext, Classical.choice, Quot.sound |
| `Openscm.C62_covered_partial` | propext, Classical.choice, Quot.sound |
| `Openscm.C62_distinct` | propext, Classical.choice, Quot.sound |
| `Openscm.C62_dropped` | propext, Classical.choice, Quot.sound |
| `Openscm.C62_half` | propext, Classical.choice, Quot.sound |
| `Openscm.C62_length` | propext, Classical.choice, Quot.sound |
| `Openscm.C62_mean` | propext, Classical.choice, Quot.sound |
| `Openscm.C62_median` | propext, Classical.choice, Quot.sound |
| `Openscm.C62_missing` | propext, Classical.choice, Quot.sound |
| `Openscm.C62_quantile` | propext, Classical.choice, Quot.sound |
| `Openscm.C62_refused` | propext, Quot.sound |
| `Openscm.C62_row` | propext, Classical.choice, Quot.sound |
| `Openscm.C62_works` | propext, Quot.sound |
| `Openscm.C63_again` | propext, Classical.choice, Quot.sound |
| `Openscm.C63_complete_partial` | propext, Classical.choice, Quot.sound |
| `Openscm.C63_exact_partial` | propext, Classical.choice, Quot.sound |
| `Openscm.C63_exact_tick_partial` | propext, Classical.choice, Quot.sound |
| `Openscm.C63_kept` | propext, Classical.choice, Quot.sound |
| `Openscm.C63_line` | propext, Classical.choice, Quot.sound |
| `Openscm.C63_mixed` | propext, Classical.choice, Quot.sound |
| `Openscm.C63_steps` | propext, Classical.choice, Quot.sound |
| `Openscm.C63_works` | propext, Classical.choice, Quot.sound |
| `Openscm.C64_accepted` | propext, Quot.sound |
| `Openscm.C64_column` | propext, Classical.choice, Quot.sound |
| `Openscm.C64_refused_time` | propext, Quot.sound |
| `Openscm.C64_several` | propext, Classical.choice, Quot.sound |
| `Openscm.C64_time_partial` | propext, Quot.sound |
| `Openscm.C64_values` | propext, Quot.sound |
| `Openscm.C64_year` | propext, Classical.choice, Quot.sound |
| `Openscm.C64_year_ignored` | propext, Quot.sound |
| `Openscm.C65_dropped` | propext, Classical.choice, Quot.sound |
| `Openscm.C65_order` | propext, Classical.choice, Quot.sound |
| `Openscm.C65_refused` | propext, Classical.choice, Quot.sound |
| `Openscm.C65_values` | propext, Classical.choice, Quot.sound |
| `Openscm.C65_works` | propext, Classical.choice, Quot.sound |
| `Openscm.C66_far` | propext, Classical.choice, Quot.sound |
| `Openscm.C66_looks` | propext, Classical.choice, Quot.sound |
| `Openscm.C66_refused` | propext, Classical.choice, Quot.sound |
| `Openscm.C66_round_trip_partial` | propext, Classical.choice, Quot.sound |
| `Openscm.C66_text` | propext, Classical.choice, Quot.sound |
| `Openscm.C66_unsorted` | propext, Classical.choice, Quot.sound |
| `Openscm.C66_value` | propext, Classical.choice, Quot.sound |
| `Openscm.C66_values` | propext, Classical.choice, Quot.sound |
| `Openscm.C66_works` | propext, Classical.choice, Quot.sound |
| `Openscm.C67_fits` | propext, Classical.choice, Quot.sound |
| `Openscm.C67_in_place` | propext, Classical.choice, Quot.sound |
| `Openscm.C67_isolated` | propext, Classical.choice, Quot.sound |
| `Openscm.C67_refused_time` | propext, Classical.choice, Quot.sound |
| `Openscm.C67_times` | propext, Classical.choice, Quot.sound |
| `Openscm.C67_times_partial` | propext, Classical.choice, Quot.sound |
| `Openscm.C68_convert` | propext, Classical.choice, Quot.sound |
| `Openscm.C68_distinct_partial` | propext, Classical.choice, Quot.sound |
| `Openscm.C68_interpolate` | propext, Classical.choice, Quot.sound |
| `Openscm.C68_rename` | propext, Classical.choice, Quot.sound |
| `Openscm.C68_timeseries` | propext, Classical.choice, Quot.sound |
| `Openscm.C68_works_partial` | propext, Classical.choice, Quot.sound |
| `Openscm.C69_exact` | propext, Classical.choice, Quot.sound |
| `Openscm.C69_existing` | propext, Classical.choice, Quot.sound |
| `Openscm.C69_more` | propext, Classical.choice, Quot.sound |
| `Openscm.C69_positions` | propext, Classical.choice, Quot.sound |
| `Openscm.C69_refused` | propext, Classical.choice, Quot.sound |
| `Openscm.C69_rows` | propext, Classical.choice, Quot.sound |
| `Openscm.C69_set_partial` | propext, Classical.choice, Quot.sound |
| `Openscm.C69_swapped` | propext, Classical.choice, Quot.sound |
| `Openscm.C70_get` | propext, Classical.choice, Quot.sound |
| `Openscm.C70_held_partial` | propext, Classical.choice, Quot.sound |
| `Openscm.C70_inplace_partial` | propext, Classical.choice, Quot.sound |
| `Openscm.C70_integers` | propext, Classical.choice, Quot.sound |
| `Openscm.C70_set_partial` | propext, Classical.choice, Quot.sound |
| `Openscm.C70_stored_partial` | propext, Classical.choice, Quot.sound |
| `Openscm.C71_new` | propext, Classical.choice, Quot.sound |
| `Openscm.C71_offset` | propext, Classical.choice, Quot.sound |
| `Openscm.C71_scalar` | propext, Classical.choice, Quot.sound |
| `Openscm.C71_scalar_sum` | propext, Classical.choice, Quot.sound |
| `Openscm.C71_scalar_sum_partial` | propext, Classical.choice, Quot.sound |
| `Openscm.C71_timeseries` | propext, Classical.choice, Quot.sound |
| `Openscm.C71_timeseries_sum_partial` | propext, Classical.choice, Quot.sound |
| `Openscm.C72_commute` | propext, Classical.choice, Quot.sound |
| `Openscm.C72_commute_partial` | propext, Classical.choice, Quot.sound |
| `Openscm.C72_missing` | propext, Classical.choice, Quot.sound |
| `Openscm.C72_works` | propext, Classical.choice, Quot.sound |
| `Openscm.C73_mixed` | propext, Classical.choice, Quot.sound |
| `Openscm.C73_scalar_granted` | propext, Classical.choice, Quot.sound |
| `Openscm.C73_scalar_partial` | propext, Classical.choice, Quot.sound |
| `Openscm.C73_scalar_refused` | propext, Classical.choice, Quot.sound |
| `Openscm.C73_timeseries` | propext, Classical.choice, Quot.sound |
| `Openscm.C74_contexts` | propext, Classical.choice, Quot.sound |
| `Openscm.C74_history` | propext, Classical.choice, Quot.sound |
| `Openscm.C74_metric_iff` | propext, Classical.choice, Quot.sound |
| `Openscm.C74_no_context` | propext, Classical.choice, Quot.sound |
| `Openscm.C74_none_active` | propext, Classical.choice, Quot.sound |
| `Openscm.C74_result` | propext, Classical.choice, Quot.sound |
| `Openscm.C75_average_partial` | propext, Classical.choice, Quot.sound |
| `Openscm.C75_linear` | propext, Classical.choice, Quot.sound |
| `Openscm.C75_negative` | propext, Classical.choice, Quot.sound |
| `Openscm.C75_point` | propext, Classical.choice, Quot.sound |
| `Openscm.C75_sharp` | propext, Classical.choice, Quot.sound |
| `Openscm.C76_average` | propext, Classical.choice, Quot.sound |
| `Openscm.C76_convert` | propext, Classical.choice, Quot.sound |
| `Openscm.C76_point` | propext, Classical.choice, Quot.sound |
| `Openscm.C76_view` | propext, Classical.choice, Quot.sound |
| `Openscm.C77_back` | propext, Classical.choice, Quot.sound |
| `Openscm.C77_history` | propext, Classical.choice, Quot.sound |
| `Openscm.C77_metric` | propext, Classical.choice, Quot.sound |
| `Openscm.C77_other_metric` | propext, Classical.choice, Quot.sound |
| `Openscm.C77_works` | propext, Classical.choice, Quot.sound |
| `Openscm.C78_argument` | propext, Classical.choice, Quot.sound |
| `Openscm.C78_climate_model` | propext, Classical.choice, Quot.sound |
| `Openscm.C78_columns` | propext, Classical.choice, Quot.sound |
| `Openscm.C78_generic` | propext, Classical.choice, Quot.sound |
| `Openscm.C78_number` | propext, Classical.choice, Quot.sound |
| `Openscm.C78_read_generic` | propext, Classical.choice, Quot.sound |
| `Openscm.C78_read_scalar` | propext, Classical.choice, Quot.sound |
| `Openscm.C78_refused` | propext, Classical.choice, Quot.sound |
| `Openscm.C78_scalar` | propext, Classical.choice, Quot.sound |
| `Openscm.C79_info` | propext, Classical.choice, Quot.sound |
| `Openscm.C79_reads` | propext, Classical.choice, Quot.sound |
| `Openscm.C80_columns` | propext, Classical.choice, Quot.sound |
| `Openscm.C80_commute` | propext, Classical.choice, Quot.sound |
| `Openscm.C81_steps_partial` | propext, Classical.choice, Quot.sound |
| `Openscm.C81_weights` | propext, Classical.choice, Quot.sound |
| `Openscm.C82_commute_partial` | propext, Classical.choice, Quot.sound |
| `Openscm.C82_lost` | propext, Classical.choice, Quot.sound |
| `Openscm.C82_metric` | propext, Classical.choice, Quot.sound |
| `Openscm.C82_works` | propext, Classical.choice, Quot.sound |
| `Openscm.C83_metric` | propext, Classical.choice, Quot.sound |
| `Openscm.C83_units` | propext, Classical.choice, Quot.sound |
| `Openscm.C84_average_near` | propext, Classical.choice, Quot.sound |
| `Openscm.C84_lost` | propext, Classical.choice, Quot.sound |
| `Openscm.C84_parameter` | propext, Classical.choice, Quot.sound |
| `Openscm.C84_point_near` | propext, Classical.choice, Quot.sound |
| `Openscm.C84_point_partial` | propext, Classical.choice, Quot.sound |
| `Openscm.C84_sound` | propext, Classical.choice, Quot.sound |
| `Openscm.C85_average` | propext, Classical.choice, Quot.sound |
| `Openscm.C85_point` | propext, Classical.choice, Quot.sound |
| `Openscm.C85_refused` | propext, Classical.choice, Quot.sound |
| `Openscm.C85_spelling` | propext, Classical.choice, Quot.sound |
| `Openscm.C87_accepted` | propext, Classical.choice, Quot.sound |
| `Openscm.C87_case` | propext, Classical.choice, Quot.sound |
| `Openscm.C87_frame_partial` | propext, Classical.choice, Quot.sound |
| `Openscm.C87_long` | propext, Classical.choice, Quot.sound |
| `Openscm.C87_rows` | propext, Classical.choice, Quot.sound |
| `Openscm.C88_again` | propext, Classical.choice, Quot.sound |
| `Openscm.C88_append` | propext, Classical.choice, Quot.sound |
| `Openscm.C88_append_made` | propext, Classical.choice, Quot.sound |
| `Openscm.C88_bad_source` | propext, Classical.choice, Quot.sound |
| `Openscm.C88_file` | propext, Classical.choice, Quot.sound |
| `Openscm.C88_frame` | propext, Classical.choice, Quot.sound |
| `Openscm.C88_in_place` | propext, Classical.choice, Quot.sound |
| `Openscm.C88_refused` | propext, Classical.choice, Quot.sound |
| `Openscm.C88_sources` | propext, Classical.choice, Quot.sound |
| `Openscm.C88_unchanged` | propext, Classical.choice, Quot.sound |
| `Openscm.C89_accepted` | propext, Classical.choice, Quot.sound |
| `Openscm.C89_default` | propext, Classical.choice, Quot.sound |
| `Openscm.C89_errors` | propext, Classical.choice, Quot.sound |
| `Openscm.C89_head` | propext, Quot.sound |
| `Openscm.C89_more` | propext, Classical.choice, Quot.sound |
| `Openscm.C89_read` | propext, Classical.choice, Quot.sound |
| `Openscm.C89_split` | propext, Quot.sound |
| `Openscm.C89_table` | propext, Classical.choice, Quot.sound |
| `Openscm.C89_tail` | propext, Quot.sound |
| `Openscm.C89_values` | propext, Quot.sound |
| `Openscm.C90_defaults` | propext, Classical.choice, Quot.sound |
| `Openscm.C90_more` | propext, Classical.choice, Quot.sound |
| `Openscm.C90_numbers` | propext, Classical.choice, Quot.sound |
| `Openscm.C90_sensitivity` | propext, Classical.choice, Quot.sound |
| `Openscm.C91_causal` | propext, Classical.choice, Quot.sound |
| `Openscm.C91_mixture` | propext, Classical.choice, Quot.sound |
| `Openscm.C92_accepted` | propext, Classical.choice, Quot.sound |
| `Openscm.C92_convert` | propext, Classical.choice, Quot.sound |
| `Openscm.C93_anomaly` | propext, Classical.choice, Quot.sound |
| `Openscm.C93_interpolate` | propext, Classical.choice, Quot.sound |
| `Openscm.C93_missing` | propext, Classical.choice, Quot.sound |
| `Openscm.C93_units` | propext, Classical.choice, Quot.sound |
| `Openscm.C94_average_partial` | propext, Classical.choice, Quot.sound |
| `Openscm.C94_local_average` | propext, Classical.choice, Quot.sound |
| `Openscm.C94_local_point` | propext, Classical.choice, Quot.sound |
| `Openscm.C94_order` | propext, Classical.choice, Quot.sound |
| `Openscm.C94_order_average` | propext, Classical.choice, Quot.sound |
| `Openscm.C94_point` | propext, Classical.choice, Quot.sound |
| `Openscm.C94_sharp` | propext, Classical.choice, Quot.sound |
| `Openscm.C95_back` | propext, Classical.choice, Quot.sound |
| `Openscm.C95_steps` | propext, Classical.choice, Quot.sound |
| `Openscm.C95_through` | propext, Classical.choice, Quot.sound |
| `Openscm.C95_through_average` | propext, Classical.choice, Quot.sound |
| `Openscm.C96_cooling` | propext, Classical.choice, Quot.sound |
| `Openscm.C96_defaults` | propext, Classical.choice, Quot.sound |
| `Openscm.C96_forcing` | propext, Classical.choice, Quot.sound |
| `Openscm.C96_pools_above` | propext, Classical.choice, Quot.sound |
| `Openscm.C96_pools_below` | propext, Classical.choice, Quot.sound |
| `Openscm.C96_rest` | propext, Classical.choice, Quot.sound |
| `Openscm.C96_warming` | propext, Classical.choice, Quot.sound |
| `Openscm.C97_interpolated` | propext, Classical.choice, Quot.sound |
| `Openscm.C97_loaded` | propext, Classical.choice, Quot.sound |
| `Openscm.C97_mixed` | propext, Classical.choice, Quot.sound |
| `Openscm.C97_works` | propext, Classical.choice, Quot.sound |
| `Openscm.C98_back` | propext, Classical.choice, Quot.sound |
| `Openscm.C98_interpolated` | propext, Classical.choice, Quot.sound |
| `Openscm.C98_succeeds` | propext, Classical.choice, Quot.sound |
| `Openscm.C99_columns_partial` | propext, Classical.choice, Quot.sound |
| `Openscm.C99_names_matter` | propext, Classical.choice, Quot.sound |
| `Openscm.C99_rows_partial` | propext, Classical.choice, Quot.sound |
| `Openscm.C99_succeeds_partial` | propext, Classical.choice, Quot.sound |
| `Openscm.C99_unchanged_partial` | propext, Classical.choice, Quot.sound |
| `Openscm.IsMedian.unique` | propext, Quot.sound |
| `Openscm.IsQuantile.mono` | propext, Classical.choice, Quot.sound |
| `Openscm.IsQuantile.one` | propext, Classical.choice, Quot.sound |
| `Openscm.IsQuantile.unique` | propext, Classical.choice, Quot.sound |
| `Openscm.IsQuantile.zero` | propext, Classical.choice, Quot.sound |
| `Openscm.Version.C86_archive_partial` | propext, Classical.choice, Quot.sound |
| `Openscm.Version.C86_branch` | propext, Classical.choice, Quot.sound |
| `Openscm.Version.C86_collision` | propext, Classical.choice, Quot.sound |
| `Openscm.Version.C86_commit` | propext, Classical.choice, Quot.sound |
| `Openscm.Version.C86_date` | propext, Classical.choice, Quot.sound |
| `Openscm.Version.C86_directory` | propext, Classical.choice, Quot.sound |
| `Openscm.Version.C86_distinct_partial` | propext, Classical.choice, Quot.sound |
| `Openscm.Version.C86_one_plus` | propext, Classical.choice, Quot.sound |
| `Openscm.Version.C86_release` | propext, Classical.choice, Quot.sound |
| `Openscm.Version.C86_styles` | propext, Classical.choice, Quot.sound |
| `Openscm.Version.C86_unknown` | propext, Classical.choice, Quot.sound |
| `Openscm.quad_add` | propext, Quot.sound |
| `Openscm.quad_bounds` | propext, Classical.choice, Quot.sound |
