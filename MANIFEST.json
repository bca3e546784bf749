{
 "claims": [
  {
   "property": "C01",
   "status": "proved",
   "theorems": [
    "Openscm.C01_any_view",
    "Openscm.C01_own_view"
   ],
   "note": ""
  },
  {
   "property": "C02",
   "status": "proved",
   "theorems": [
    "Openscm.C02_generic",
    "Openscm.C02_scalar"
   ],
   "note": "The log of successful writes is computed from calls and outcomes only; the value of a scalar or generic leaf is the last entry of the log for that parameter (converted as pint does)."
  },
  {
   "property": "C03",
   "status": "proved",
   "theorems": [
    "Openscm.C03_other_type_refused",
    "Openscm.C03_type_fixed"
   ],
   "note": ""
  },
  {
   "property": "C04",
   "status": "proved",
   "theorems": [
    "Openscm.C04_first_view",
    "Openscm.C04_length",
    "Openscm.C04_points_fixed",
    "Openscm.C04_unit_fixed"
   ],
   "note": ""
  },
  {
   "property": "C05",
   "status": "proved",
   "theorems": [
    "Openscm.C05_assigned",
    "Openscm.C05_child_refused",
    "Openscm.C05_no_children"
   ],
   "note": ""
  },
  {
   "property": "C06",
   "status": "proved",
   "theorems": [
    "Openscm.C06_child_refused",
    "Openscm.C06_children_frozen"
   ],
   "note": ""
  },
  {
   "property": "C07",
   "status": "proved",
   "theorems": [
    "Openscm.C07_generic",
    "Openscm.C07_scalar",
    "Openscm.C07_timeseries"
   ],
   "note": ""
  },
  {
   "property": "C08",
   "status": "partial",
   "theorems": [
    "Openscm.C08_element_assignment_accepted",
    "Openscm.C08_partial"
   ],
   "note": "Whole-array assignment: proved. Element assignment to a view of a parameter with children is accepted by the code: C08_element_assignment_accepted proves the violation."
  },
  {
   "property": "C09",
   "status": "proved",
   "theorems": [
    "Openscm.C09_fresh_sum"
   ],
   "note": "For scalar-typed descendants (the code does not check the type of children, see DESIGN section 4)."
  },
  {
   "property": "C10",
   "status": "partial",
   "theorems": [
    "Openscm.C10_old_view_misses_new_leaf",
    "Openscm.C10_original_leaves",
    "Openscm.C10_partial",
    "Openscm.C10_view_calls_keep_leaves"
   ],
   "note": "False as stated: C10_old_view_misses_new_leaf. Proved: for ever the sum over the leaves there were when the view was obtained, hence current as long as no leaf was added (which only requests can do)."
  },
  {
   "property": "C11",
   "status": "partial",
   "theorems": [
    "Openscm.C11_first_read_partial",
    "Openscm.C11_frozen",
    "Openscm.C11_stale_after_child_write"
   ],
   "note": "False as stated: C11_stale_after_child_write shows a reachable state in which an aggregated timeseries view keeps its old cache after a write to a leaf; C11_frozen: always so, until something is written through a view of the parameter itself. Proved: the first read of an unused aggregated view is the elementwise sum of what fresh views of the leaves show (C11_first_read_partial)."
  },
  {
   "property": "C12",
   "status": "partial",
   "theorems": [
    "Openscm.C12_current_partial",
    "Openscm.C12_exchange",
    "Openscm.C12_integer_cache",
    "Openscm.C12_others_seen_partial",
    "Openscm.C12_refused_write_visible"
   ],
   "note": "False as stated: C12_refused_write_visible and C12_integer_cache prove reachable violations. Proved: as long as every own write of the view was stored and none used an integer array, a read returns either what a view created at that moment would return or exactly the last own write; once anyone else has written since, the former. C12_exchange: on the stored time points other views read the written array, converted as pint does."
  },
  {
   "property": "C13",
   "status": "partial",
   "theorems": [
    "Openscm.C13_all_writes",
    "Openscm.C13_locked_discarded",
    "Openscm.C13_locked_partial",
    "Openscm.C13_locked_unreadable",
    "Openscm.C13_read_back_partial",
    "Openscm.C13_wrong_length"
   ],
   "note": "Unlocked views: proved for every way of writing. Locked views: false without a prior read or with another view writing in between (C13_locked_unreadable, C13_locked_discarded); proved when the view is read first and nobody else writes (C13_locked_partial)."
  },
  {
   "property": "C14",
   "status": "proved",
   "theorems": [
    "Openscm.C14_monotone",
    "Openscm.C14_one_step",
    "Openscm.C14_same_version",
    "Openscm.C14_version_counts_writes",
    "Openscm.C14_written_exists"
   ],
   "note": "Version = number of successful writes for every history; monotone; one call changes at most one version by at most one."
  },
  {
   "property": "C15",
   "status": "proved",
   "theorems": [
    "Openscm.C15_generic_value",
    "Openscm.C15_info",
    "Openscm.C15_regions",
    "Openscm.C15_requested",
    "Openscm.C15_requested_info",
    "Openscm.C15_requested_values",
    "Openscm.C15_scalar_value",
    "Openscm.C15_timeseries_values"
   ],
   "note": "Every observable of every other parameter and region, and every other view, after any call."
  },
  {
   "property": "C16",
   "status": "proved",
   "theorems": [
    "Openscm.C16_found_iff_requested",
    "Openscm.C16_info_changes_nothing",
    "Openscm.C16_persists",
    "Openscm.C16_reports_key"
   ],
   "note": ""
  },
  {
   "property": "C17",
   "status": "partial",
   "theorems": [
    "Openscm.C17_empty_name",
    "Openscm.C17_info_partial",
    "Openscm.C17_join_split",
    "Openscm.C17_levels",
    "Openscm.C17_requests",
    "Openscm.C17_separator_in_part",
    "Openscm.C17_split_injective",
    "Openscm.C17_split_join",
    "Openscm.C17_str_eq_seq"
   ],
   "note": "Names mean the same in both forms for every request and region (C17_requests) and for info with names other than the empty text (C17_info_partial); info(\"\") raises ValueError although info((\"\",)) finds the parameter: C17_empty_name."
  },
  {
   "property": "C18",
   "status": "partial",
   "theorems": [
    "Openscm.C18_generic",
    "Openscm.C18_readonly",
    "Openscm.C18_refused_marks_written",
    "Openscm.C18_refused_stays_visible",
    "Openscm.C18_scalar",
    "Openscm.C18_timeseries_partial"
   ],
   "note": "Scalar, generic and read-only refusals: proved. Timeseries assignments refused for length or conversion reasons leave the parameter marked as written (C18_refused_marks_written) and can stay visible through the view (C18_refused_stays_visible); what holds is C18_timeseries_partial."
  },
  {
   "property": "C19",
   "status": "partial",
   "theorems": [
    "Openscm.C19_first_write_shows_nan",
    "Openscm.C19_invisible_partial",
    "Openscm.C19_no_version_change",
    "Openscm.C19_unlock_stores"
   ],
   "note": "Version unchanged while locked and store on unlock: proved. Invisibility to every other program: proved for a parameter that is not empty; for an empty one C19_first_write_shows_nan proves the violation."
  },
  {
   "property": "C20",
   "status": "partial",
   "theorems": [
    "Openscm.C20_granted_after",
    "Openscm.C20_partial",
    "Openscm.C20_second_request_accepted"
   ],
   "note": "The first request is refused (proved); a second identical request is accepted: C20_second_request_accepted proves the violation, C20_granted_after that every later one is accepted."
  },
  {
   "property": "C21",
   "status": "partial",
   "theorems": [
    "Openscm.C21_element_assignment_does_not_count",
    "Openscm.C21_ensure",
    "Openscm.C21_read_empty",
    "Openscm.C21_read_empty_timeseries",
    "Openscm.C21_refused_assignment_counts",
    "Openscm.C21_scalar_generic",
    "Openscm.C21_timeseries_assigned",
    "Openscm.C21_timeseries_partial"
   ],
   "note": "Scalar and generic: proved in full. Timeseries: the full statement is false of the code (two witnesses proved); proved instead: not empty iff some whole-array assignment passed the write check."
  },
  {
   "property": "C22",
   "status": "proved",
   "theorems": [
    "Openscm.C22_average_identity",
    "Openscm.C22_converter_identity",
    "Openscm.C22_point_identity"
   ],
   "note": ""
  },
  {
   "property": "C23",
   "status": "proved",
   "theorems": [
    "Openscm.C23_period_mean",
    "Openscm.C23_total_preserved",
    "Openscm.quad_add",
    "Openscm.quad_bounds"
   ],
   "note": "That the idealised quadrature is the integral: quad_add, quad_bounds."
  },
  {
   "property": "C24",
   "status": "proved",
   "theorems": [
    "Openscm.C24_between",
    "Openscm.C24_knot",
    "Openscm.C24_segment"
   ],
   "note": ""
  },
  {
   "property": "C25",
   "status": "partial",
   "theorems": [
    "Openscm.C25_average_constant",
    "Openscm.C25_average_line_nonuniform_fails",
    "Openscm.C25_average_line_uniform",
    "Openscm.C25_point_line"
   ],
   "note": "Point series: proved. Average series: proved on equidistant source grids, and constants on every grid; C25_average_line_nonuniform_fails shows the claim is false for averages on unequal periods."
  },
  {
   "property": "C26",
   "status": "proved",
   "theorems": [
    "Openscm.C26_constant",
    "Openscm.C26_extrapolation_never_fails",
    "Openscm.C26_linear",
    "Openscm.C26_none_error_iff"
   ],
   "note": ""
  },
  {
   "property": "C27",
   "status": "proved",
   "theorems": [
    "Openscm.C27_converter_length",
    "Openscm.C27_create",
    "Openscm.C27_length",
    "Openscm.C27_misfit",
    "Openscm.C27_point_no_nan",
    "Openscm.C27_short"
   ],
   "note": ""
  },
  {
   "property": "C28",
   "status": "proved",
   "theorems": [
    "Openscm.C28_linear"
   ],
   "note": ""
  },
  {
   "property": "C29",
   "status": "proved",
   "theorems": [
    "Openscm.C29_close",
    "Openscm.C29_length",
    "Openscm.C29_points",
    "Openscm.C29_succeeds"
   ],
   "note": "Exact for times in whole seconds (datetime64[s], the resolution of the library); for finer inputs, which the code cuts to seconds, C29_close bounds the error."
  },
  {
   "property": "C30",
   "status": "proved",
   "theorems": [
    "Openscm.C30_accepted",
    "Openscm.C30_inside",
    "Openscm.C30_monotone",
    "Openscm.C30_position",
    "Openscm.C30_refused",
    "Openscm.C30_whole"
   ],
   "note": "Against any function satisfying the calendar axioms (365 or 366 days per year by the Gregorian rule, origin 1970). Decimal years from 1 up to 9999 are accepted, the rest raise ValueError."
  },
  {
   "property": "C31",
   "status": "proved",
   "theorems": [
    "Openscm.C31_accepted",
    "Openscm.C31_inverse",
    "Openscm.C31_no_name",
    "Openscm.C31_refused"
   ],
   "note": ""
  },
  {
   "property": "C32",
   "status": "proved",
   "theorems": [
    "Openscm.C32_from_to",
    "Openscm.C32_same_unit",
    "Openscm.C32_to_from"
   ],
   "note": ""
  },
  {
   "property": "C33",
   "status": "proved",
   "theorems": [
    "Openscm.C33_additive",
    "Openscm.C33_affine",
    "Openscm.C33_compose",
    "Openscm.C33_convertFrom_is_pint",
    "Openscm.C33_reverse"
   ],
   "note": ""
  },
  {
   "property": "C34",
   "status": "proved",
   "theorems": [
    "Openscm.C34_dimensionality_iff",
    "Openscm.C34_exists_iff",
    "Openscm.C34_granted",
    "Openscm.C34_scalar_request",
    "Openscm.C34_timeseries_request",
    "Openscm.C34_undefined_iff"
   ],
   "note": ""
  },
  {
   "property": "C35",
   "status": "proved",
   "theorems": [
    "Openscm.C35_example",
    "Openscm.C35_from_co2",
    "Openscm.C35_ratio",
    "Openscm.C35_refused",
    "Openscm.C35_same_dimension",
    "Openscm.C35_to_co2"
   ],
   "note": "For any registry that contains the gases of the table and any units of the four forms. Where the table has no value the result is NaN."
  },
  {
   "property": "C36",
   "status": "partial",
   "theorems": [
    "Openscm.C36_joint_partial",
    "Openscm.C36_spellings_partial",
    "Openscm.C36_sulfur_refused",
    "Openscm.C36_sulfur_undefined"
   ],
   "note": "All entries but the three for sulfur, which the code leaves undefined: C36_sulfur_undefined, C36_sulfur_refused."
  },
  {
   "property": "C37",
   "status": "proved",
   "theorems": [
    "Openscm.C37_failed",
    "Openscm.C37_known",
    "Openscm.C37_same_class",
    "Openscm.C37_unknown"
   ],
   "note": ""
  },
  {
   "property": "C38",
   "status": "proved",
   "theorems": [
    "Openscm.C38_before_run",
    "Openscm.C38_defaults",
    "Openscm.C38_initialised_once",
    "Openscm.C38_values_kept"
   ],
   "note": "At most once means once successfully: an initialisation that raises half-way is repeated by the next call, which still assigns only to empty parameters (C38_values_kept)."
  },
  {
   "property": "C39",
   "status": "proved",
   "theorems": [
    "Openscm.C39_lower",
    "Openscm.C39_upper"
   ],
   "note": ""
  },
  {
   "property": "C40",
   "status": "proved",
   "theorems": [
    "Openscm.C40_step",
    "Openscm.C40_total"
   ],
   "note": ""
  },
  {
   "property": "C41",
   "status": "proved",
   "theorems": [
    "Openscm.C41_equilibrium",
    "Openscm.C41_run"
   ],
   "note": ""
  },
  {
   "property": "C42",
   "status": "proved",
   "theorems": [
    "Openscm.C42_same",
    "Openscm.C42_succeeds"
   ],
   "note": "One succeeds iff the other does, and every new view of every output reads the same."
  },
  {
   "property": "C43",
   "status": "proved",
   "theorems": [
    "Openscm.C43_again",
    "Openscm.C43_same",
    "Openscm.C43_succeeds"
   ],
   "note": "C43_succeeds: after a run that succeeded, a run succeeds again after any calls that are not calls of the input parameter set, for emissions stored in the parameter itself; C43_again: it leaves the same outputs. C43_same: for the same inputs however they came about, stated for runs that succeed."
  },
  {
   "property": "C44",
   "status": "proved",
   "theorems": [
    "Openscm.C44_end",
    "Openscm.C44_step",
    "Openscm.C44_time"
   ],
   "note": "Exactly W.steps steps succeed (C44_step, C44_end) and the k-th returns start + k*period (C44_time)."
  },
  {
   "property": "C45",
   "status": "partial",
   "theorems": [
    "Openscm.C45_between",
    "Openscm.C45_exact_partial",
    "Openscm.C45_linear_partial",
    "Openscm.C45_monotone",
    "Openscm.C45_not_linear",
    "Openscm.C45_saturated",
    "Openscm.C45_start"
   ],
   "note": "Start, saturation, interval and monotonicity: proved. Exactly linear: false, the code cuts to whole ticks (C45_not_linear); C45_linear_partial bounds the distance from the line and C45_exact_partial says exactly which value there is."
  },
  {
   "property": "C46",
   "status": "proved",
   "theorems": [
    "Openscm.C46_cells",
    "Openscm.C46_partition",
    "Openscm.C46_works"
   ],
   "note": "The cells (metadata, time, value) of the result are exactly the matching ones of the frame, in order; keep=False gives the others (C46_cells, C46_partition). C46_works: filters that suit the frame do not fail."
  },
  {
   "property": "C47",
   "status": "partial",
   "theorems": [
    "Openscm.C47_both_partial",
    "Openscm.C47_commute_partial",
    "Openscm.C47_empty",
    "Openscm.C47_empty_refused",
    "Openscm.C47_idempotent_partial",
    "Openscm.C47_level"
   ],
   "note": "Filters that find something: C47_idempotent_partial; filters that work on the whole frame and whose results are not empty: C47_commute_partial, C47_both_partial. False when nothing is left, since filtering an empty frame raises (C47_empty, C47_empty_refused), and for a level given apart from its variable (C47_level)."
  },
  {
   "property": "C48",
   "status": "partial",
   "theorems": [
    "Openscm.C48_backslash",
    "Openscm.C48_caret",
    "Openscm.C48_exact",
    "Openscm.C48_newline",
    "Openscm.C48_partial",
    "Openscm.C48_question"
   ],
   "note": "Exact meaning for patterns without [ ? ^ { \\: C48_exact. The documented reading (only * is special): for these patterns and text without newlines (C48_partial); false otherwise (C48_question, C48_caret, C48_backslash, C48_newline)."
  },
  {
   "property": "C49",
   "status": "proved",
   "theorems": [
    "Openscm.C49_below",
    "Openscm.C49_level",
    "Openscm.C49_partition",
    "Openscm.C49_refused"
   ],
   "note": ""
  },
  {
   "property": "C50",
   "status": "partial",
   "theorems": [
    "Openscm.C50_again",
    "Openscm.C50_argument_changed",
    "Openscm.C50_day_partial",
    "Openscm.C50_documented",
    "Openscm.C50_month_partial",
    "Openscm.C50_month_single",
    "Openscm.C50_third_name",
    "Openscm.C50_two_ranges_day",
    "Openscm.C50_two_ranges_month"
   ],
   "note": "Names, one range, any list without two ranges. Lists with two ranges always raise, also the documented example (C50_two_ranges_month, C50_two_ranges_day, C50_documented)."
  },
  {
   "property": "C51",
   "status": "proved",
   "theorems": [
    "Openscm.C51_clash",
    "Openscm.C51_inplace",
    "Openscm.C51_renamed",
    "Openscm.C51_unchanged",
    "Openscm.C51_unknown",
    "Openscm.C51_works"
   ],
   "note": "C51_unchanged holds for renaming not in place; a refused renaming in place leaves a half-renamed frame (C51_inplace)."
  },
  {
   "property": "C52",
   "status": "partial",
   "theorems": [
    "Openscm.C52_average_partial",
    "Openscm.C52_exact_messages_partial",
    "Openscm.C52_exact_order_partial",
    "Openscm.C52_exact_partial",
    "Openscm.C52_messages_partial",
    "Openscm.C52_no_overlap_partial",
    "Openscm.C52_no_sentinel",
    "Openscm.C52_order_partial",
    "Openscm.C52_sentinel",
    "Openscm.C52_works"
   ],
   "note": "With metadata of the value -999 it is false (C52_sentinel). Exactly what holds for all metadata, with -999 read as missing: C52_exact_partial, C52_exact_order_partial, C52_exact_messages_partial, C52_no_sentinel. For frames without -999: averages, completeness, nothing invented, no change without overlap, independence of the order and duplicate_msg as stated. C52_works says when an append gives a frame. The order of the rows is not modelled."
  },
  {
   "property": "C53",
   "status": "proved",
   "theorems": [
    "Openscm.C53_back",
    "Openscm.C53_converted",
    "Openscm.C53_inplace",
    "Openscm.C53_no_values",
    "Openscm.C53_unchanged",
    "Openscm.C53_works"
   ],
   "note": "Selected means having a value (not missing) at a time that matches: timeseries without values keep their unit (C53_no_values). In place, a refused conversion leaves a half-converted frame (C53_inplace). There and back: C53_back."
  },
  {
   "property": "C54",
   "status": "proved",
   "theorems": [
    "Openscm.C54_name",
    "Openscm.C54_relative",
    "Openscm.C54_works"
   ],
   "note": "For results of the call (C54_works says when there is one, for a given name). Timeseries without values in the period become missing altogether. The default name raises TypeError for filters given as single values (C54_name)."
  },
  {
   "property": "C55",
   "status": "partial",
   "theorems": [
    "Openscm.C55_clock",
    "Openscm.C55_covers_partial",
    "Openscm.C55_exact_partial",
    "Openscm.C55_exact_tick_partial",
    "Openscm.C55_multiple",
    "Openscm.C55_no_gap",
    "Openscm.C55_tick",
    "Openscm.C55_tick_partial",
    "Openscm.C55_times",
    "Openscm.C55_works"
   ],
   "note": "False for multiples, different times of day at both ends and fixed periods that do not fit (C55_multiple, C55_clock, C55_tick). Exactly which times there are, for every multiple and all times of day: C55_exact_partial, and C55_exact_tick_partial for fixed periods. The end is covered for the multiple 1 and equal times of day (C55_covers_partial) and for fixed periods that fit (C55_tick_partial)."
  },
  {
   "property": "C56",
   "status": "partial",
   "theorems": [
    "Openscm.C56_mixed",
    "Openscm.C56_own",
    "Openscm.C56_placed_partial",
    "Openscm.C56_refused",
    "Openscm.C56_same_times",
    "Openscm.C56_works"
   ],
   "note": "The code violates the property: frames with both kinds are refused for every list of times (C56_mixed), more exactly whenever an average comes before another type in the alphabet (C56_refused). Proved otherwise: every call that succeeds puts every timeseries with a type on the requested times (C56_placed_partial), and which calls succeed (C56_works). Missing: the property for frames with both kinds, which is false. A frame on its own times stays as it is: C56_own, for one kind without missing values."
  },
  {
   "property": "C57",
   "status": "partial",
   "theorems": [
    "Openscm.C57_deep",
    "Openscm.C57_exact_partial",
    "Openscm.C57_exact_type_partial",
    "Openscm.C57_round_trip_partial",
    "Openscm.C57_single",
    "Openscm.C57_type_partial"
   ],
   "note": "False for regions two or more levels below World, whose timeseries are dropped without notice (C57_deep). Exactly what holds for regions at any depth: C57_exact_partial (the timeseries of regions at most one level below World return, once each, and no others; ValueError if there are none) and C57_exact_type_partial. Without deep regions everything returns: C57_round_trip_partial, C57_type_partial. Frames with one time are refused by to_parameterset (C57_single)."
  },
  {
   "property": "C58",
   "status": "proved",
   "theorems": [
    "Openscm.C58_name",
    "Openscm.C58_unit"
   ],
   "note": "Units: the guess is average exactly if the dimension has [time] (C58_unit); without a usable unit the name decides (C58_name)."
  },
  {
   "property": "C59",
   "status": "proved",
   "theorems": [
    "Openscm.C59_array",
    "Openscm.C59_columns",
    "Openscm.C59_frame",
    "Openscm.C59_works"
   ],
   "note": "For values and lists; numpy arrays of length 1 are not repeated but refused (C59_array)."
  },
  {
   "property": "C60",
   "status": "partial",
   "theorems": [
    "Openscm.C60_joint_partial",
    "Openscm.C60_same_gas_partial"
   ],
   "note": "All pairs of entries except those involving the three sulfur entries, which the code leaves undefined (C36_sulfur_undefined)."
  },
  {
   "property": "C61",
   "status": "proved",
   "theorems": [
    "Openscm.C61_methane",
    "Openscm.C61_no_context",
    "Openscm.C61_nothing_else",
    "Openscm.C61_nox"
   ],
   "note": ""
  },
  {
   "property": "C62",
   "status": "partial",
   "theorems": [
    "Openscm.C62_between",
    "Openscm.C62_columns",
    "Openscm.C62_covered_exact_partial",
    "Openscm.C62_covered_partial",
    "Openscm.C62_distinct",
    "Openscm.C62_dropped",
    "Openscm.C62_half",
    "Openscm.C62_length",
    "Openscm.C62_mean",
    "Openscm.C62_median",
    "Openscm.C62_missing",
    "Openscm.C62_quantile",
    "Openscm.C62_refused",
    "Openscm.C62_row",
    "Openscm.C62_works",
    "Openscm.IsQuantile.mono",
    "Openscm.IsQuantile.zero",
    "Openscm.IsQuantile.one",
    "Openscm.IsQuantile.unique",
    "Openscm.IsMedian.unique"
   ],
   "note": "False for missing metadata: timeseries with None or NaN in a remaining column are in no group and dropped without notice (C62_dropped). Exactly these: C62_covered_exact_partial. That there are no other rows, no double rows and what the rows hold is proved without that restriction."
  },
  {
   "property": "C63",
   "status": "partial",
   "theorems": [
    "Openscm.C63_again",
    "Openscm.C63_complete_partial",
    "Openscm.C63_exact_partial",
    "Openscm.C63_exact_tick_partial",
    "Openscm.C63_kept",
    "Openscm.C63_line",
    "Openscm.C63_mixed",
    "Openscm.C63_steps",
    "Openscm.C63_works"
   ],
   "note": "All steps up to the end: C63_complete_partial, for the multiple 1 and both ends at the same time of day; false for multiples, other times of day and fixed periods (C55_multiple, C55_clock, C55_tick), and frames with both kinds are refused (C63_mixed). Exactly which times there are otherwise: C63_exact_partial, C63_exact_tick_partial. Metadata and values of every call that succeeds: C63_steps. Resampling again: C63_again, for one kind without missing values, fixed periods included."
  },
  {
   "property": "C64",
   "status": "partial",
   "theorems": [
    "Openscm.C64_accepted",
    "Openscm.C64_column",
    "Openscm.C64_refused_time",
    "Openscm.C64_several",
    "Openscm.C64_time_partial",
    "Openscm.C64_values",
    "Openscm.C64_year",
    "Openscm.C64_year_ignored"
   ],
   "note": "False for refused times, which are read afterwards (C64_refused_time), and for \"year\", which is accepted and never read (C64_year_ignored, C64_year). Times: C64_time_partial, if no list of times has the wrong length. All else: C64_column, C64_values, C64_accepted, C64_several for frames with at least one timeseries. Not covered: series as values."
  },
  {
   "property": "C65",
   "status": "proved",
   "theorems": [
    "Openscm.C65_dropped",
    "Openscm.C65_order",
    "Openscm.C65_refused",
    "Openscm.C65_values",
    "Openscm.C65_works"
   ],
   "note": "For tables whose times are all years or all datetimes and whose values are numbers or missing (C65_works shows that these succeed). Rows with missing metadata are dropped without notice (C65_dropped)."
  },
  {
   "property": "C66",
   "status": "partial",
   "theorems": [
    "Openscm.C66_far",
    "Openscm.C66_looks",
    "Openscm.C66_refused",
    "Openscm.C66_round_trip_partial",
    "Openscm.C66_text",
    "Openscm.C66_unsorted",
    "Openscm.C66_value",
    "Openscm.C66_values",
    "Openscm.C66_works"
   ],
   "note": "Columns labelled by numbers or datetimes: C66_values. Labels that are text: C66_text; they are put in the order of the text, so the times need not increase (C66_unsorted). The round trip through timeseries() is false for metadata called \"value\" or by a name that reads as a time (C66_value, C66_looks) and for times after the year 9999 (C66_far); proved for all other frames with at least one time and no time twice (C66_round_trip_partial)."
  },
  {
   "property": "C67",
   "status": "partial",
   "theorems": [
    "Openscm.C67_fits",
    "Openscm.C67_in_place",
    "Openscm.C67_isolated",
    "Openscm.C67_refused_time",
    "Openscm.C67_times",
    "Openscm.C67_times_partial"
   ],
   "note": "df[\"time\"] is false after a refused assignment of times: it then gives the refused times, and the frame cannot be filtered any more (C67_refused_time). Without such assignments: C67_times_partial; with them it differs from the times of the data in number (C67_times). Everything else is proved for all programs."
  },
  {
   "property": "C68",
   "status": "partial",
   "theorems": [
    "Openscm.C68_convert",
    "Openscm.C68_distinct_partial",
    "Openscm.C68_interpolate",
    "Openscm.C68_rename",
    "Openscm.C68_timeseries",
    "Openscm.C68_works_partial"
   ],
   "note": "False for conversion of units (C68_convert), interpolation (C68_interpolate) and refused renaming in place (C68_rename). C68_distinct_partial covers all calls: timeseries that differ apart from the columns X still do after calls that change at most X; for X empty copying, filtering, renaming, appending and long tables (C68_works_partial). When timeseries() works: C68_timeseries, all programs."
  },
  {
   "property": "C69",
   "status": "partial",
   "theorems": [
    "Openscm.C69_exact",
    "Openscm.C69_existing",
    "Openscm.C69_more",
    "Openscm.C69_positions",
    "Openscm.C69_refused",
    "Openscm.C69_rows",
    "Openscm.C69_set_partial",
    "Openscm.C69_swapped"
   ],
   "note": "What the metadata has afterwards, exactly (C69_rows). Positions: in full for distinct positions (C69_positions). Columns: for distinct keys of timeseries, in full exactly if the timeseries are sorted by key, the index is theirs or it is empty (C69_set_partial, C69_exact). Otherwise violated: timeseries get the metadata of others (C69_swapped), unknown and repeated keys add rows (C69_more), existing columns are split or raise (C69_existing). Keys are strings."
  },
  {
   "property": "C70",
   "status": "partial",
   "theorems": [
    "Openscm.C70_get",
    "Openscm.C70_held_partial",
    "Openscm.C70_inplace_partial",
    "Openscm.C70_integers",
    "Openscm.C70_set_partial",
    "Openscm.C70_stored_partial"
   ],
   "note": "Reading elements in full; assigning and operations in place for arrays of floats (C70_set_partial, C70_held_partial, C70_inplace_partial, C70_stored_partial). Violated after integers were assigned (C70_integers)."
  },
  {
   "property": "C71",
   "status": "partial",
   "theorems": [
    "Openscm.C71_new",
    "Openscm.C71_offset",
    "Openscm.C71_scalar",
    "Openscm.C71_scalar_sum",
    "Openscm.C71_scalar_sum_partial",
    "Openscm.C71_timeseries",
    "Openscm.C71_timeseries_sum_partial"
   ],
   "note": "Parameters without children in full (C71_scalar, C71_new, C71_timeseries). With n children: the sum is converted plus n-1 times the conversion of zero (C71_scalar_sum_partial, C71_timeseries_sum_partial), so in full for units without offset (C71_scalar_sum). Violated for units with an offset: 300 K is shown as -246.3 degC (C71_offset)."
  },
  {
   "property": "C72",
   "status": "partial",
   "theorems": [
    "Openscm.C72_commute",
    "Openscm.C72_commute_partial",
    "Openscm.C72_missing",
    "Openscm.C72_works"
   ],
   "note": "In full for frames without missing values in which every timeseries has a type (C72_commute, C72_works); in general if interpolation leaves values exactly where there were some (C72_commute_partial). Violated with missing values: a timeseries that loses its values keeps its unit (C72_missing). Without context; units other than the empty text."
  },
  {
   "property": "C73",
   "status": "partial",
   "theorems": [
    "Openscm.C73_mixed",
    "Openscm.C73_scalar_granted",
    "Openscm.C73_scalar_partial",
    "Openscm.C73_scalar_refused",
    "Openscm.C73_timeseries"
   ],
   "note": "In full for timeseries and generic leaves (C73_timeseries, C73_scalar_granted, C73_scalar_refused). Violated for scalar views: they are granted above timeseries (C73_mixed); what remains is C73_scalar_partial: every leaf is a quantity in a convertible unit."
  },
  {
   "property": "C74",
   "status": "proved",
   "theorems": [
    "Openscm.C74_contexts",
    "Openscm.C74_history",
    "Openscm.C74_metric_iff",
    "Openscm.C74_no_context",
    "Openscm.C74_none_active",
    "Openscm.C74_result"
   ],
   "note": "For requests through UnitConverter; contexts that users enable on the registry itself are not modelled."
  },
  {
   "property": "C75",
   "status": "partial",
   "theorems": [
    "Openscm.C75_average_partial",
    "Openscm.C75_linear",
    "Openscm.C75_negative",
    "Openscm.C75_point",
    "Openscm.C75_sharp"
   ],
   "note": "Proved for points. False for averages (C75_negative: averages that are never negative get a negative part); proved instead: the range is exceeded by at most half its width, and no smaller bound holds (C75_sharp)."
  },
  {
   "property": "C76",
   "status": "proved",
   "theorems": [
    "Openscm.C76_average",
    "Openscm.C76_convert",
    "Openscm.C76_point",
    "Openscm.C76_view"
   ],
   "note": "In exact arithmetic."
  },
  {
   "property": "C77",
   "status": "proved",
   "theorems": [
    "Openscm.C77_back",
    "Openscm.C77_history",
    "Openscm.C77_metric",
    "Openscm.C77_other_metric",
    "Openscm.C77_works"
   ],
   "note": "For any registry that contains the gases of the table. The noted metric is not checked: C77_other_metric."
  },
  {
   "property": "C78",
   "status": "proved",
   "theorems": [
    "Openscm.C78_argument",
    "Openscm.C78_climate_model",
    "Openscm.C78_columns",
    "Openscm.C78_generic",
    "Openscm.C78_number",
    "Openscm.C78_read_generic",
    "Openscm.C78_read_scalar",
    "Openscm.C78_refused",
    "Openscm.C78_scalar"
   ],
   "note": "Starting from a new parameter set (refusals: from any). Names of scalars are without surrounding white space and no two columns name the same scalar."
  },
  {
   "property": "C79",
   "status": "proved",
   "theorems": [
    "Openscm.C79_info",
    "Openscm.C79_reads"
   ],
   "note": "C79_reads: successful reads. C79_info: one request (chain for several). A read that fails may succeed after a request."
  },
  {
   "property": "C80",
   "status": "proved",
   "theorems": [
    "Openscm.C80_columns",
    "Openscm.C80_commute"
   ],
   "note": "If all the calls work. C80_columns: why the frames have to agree about the metadata that filters name."
  },
  {
   "property": "C81",
   "status": "partial",
   "theorems": [
    "Openscm.C81_steps_partial",
    "Openscm.C81_weights"
   ],
   "note": "False where values are averaged: C81_weights. C81_steps_partial: true for all metadata and times with one value at most among the frames appended first, or none among the others; without metadata -999."
  },
  {
   "property": "C82",
   "status": "partial",
   "theorems": [
    "Openscm.C82_commute_partial",
    "Openscm.C82_lost",
    "Openscm.C82_metric",
    "Openscm.C82_works"
   ],
   "note": "False without context: conversion adds a column unit_context that is missing in every row, so that no group is left (C82_lost, for all frames without that column). C82_commute_partial: true if unit_context is processed over, for frames without empty timeseries; C82_metric: with a context nothing is lost; C82_works: when there are statistics of the converted frame."
  },
  {
   "property": "C83",
   "status": "proved",
   "theorems": [
    "Openscm.C83_metric",
    "Openscm.C83_units"
   ],
   "note": "If conversion and both anomalies work. C83_units without, C83_metric with the metric of a context."
  },
  {
   "property": "C84",
   "status": "partial",
   "theorems": [
    "Openscm.C84_average_near",
    "Openscm.C84_lost",
    "Openscm.C84_parameter",
    "Openscm.C84_point_near",
    "Openscm.C84_point_partial",
    "Openscm.C84_sound"
   ],
   "note": "False at time points of the source: the value after a missing one is lost (C84_lost, for all point timeseries; C84_parameter: two values of a parameter). C84_sound: numbers never depend on missing values. C84_point_partial: true at all other times. C84_point_near, C84_average_near: where numbers are, whatever the extrapolation. Quadrature is taken to be exact and to notice NaN in any part of the interval."
  },
  {
   "property": "C85",
   "status": "proved",
   "theorems": [
    "Openscm.C85_average",
    "Openscm.C85_point",
    "Openscm.C85_refused",
    "Openscm.C85_spelling"
   ],
   "note": "C85_point and C85_average end to end through the public calls; C85_spelling and C85_refused for the arguments. Letters are ASCII letters."
  },
  {
   "property": "C86",
   "status": "partial",
   "theorems": [
    "Openscm.Version.C86_archive_partial",
    "Openscm.Version.C86_branch",
    "Openscm.Version.C86_collision",
    "Openscm.Version.C86_commit",
    "Openscm.Version.C86_date",
    "Openscm.Version.C86_directory",
    "Openscm.Version.C86_distinct_partial",
    "Openscm.Version.C86_one_plus",
    "Openscm.Version.C86_release",
    "Openscm.Version.C86_styles",
    "Openscm.Version.C86_unknown"
   ],
   "note": "False for tags with a + (C86_collision) and for archives of commits without any tag (C86_branch: a branch v2-dev is taken for release 2-dev). The rest is proved; what git prints is given by `described` and `decorated`."
  },
  {
   "property": "C87",
   "status": "partial",
   "theorems": [
    "Openscm.C87_accepted",
    "Openscm.C87_case",
    "Openscm.C87_frame_partial",
    "Openscm.C87_long",
    "Openscm.C87_rows"
   ],
   "note": "False for metadata with capitals in the name, which comes back in lower case (C87_case), and for times after the year 9999 (C66_far). C87_frame_partial is proved for names in lower case other than notes, value, year, time and names that read as a time; C87_long, C87_accepted and C87_rows for tables. pyam itself is not in the repository: its constructor is modelled after pyam 0.2."
  },
  {
   "property": "C88",
   "status": "proved",
   "theorems": [
    "Openscm.C88_again",
    "Openscm.C88_append",
    "Openscm.C88_append_made",
    "Openscm.C88_bad_source",
    "Openscm.C88_file",
    "Openscm.C88_frame",
    "Openscm.C88_in_place",
    "Openscm.C88_refused",
    "Openscm.C88_sources",
    "Openscm.C88_unchanged"
   ],
   "note": "Files are what pandas reads from them. An empty list raises IndexError (C88_refused)."
  },
  {
   "property": "C89",
   "status": "proved",
   "theorems": [
    "Openscm.C89_accepted",
    "Openscm.C89_default",
    "Openscm.C89_errors",
    "Openscm.C89_head",
    "Openscm.C89_more",
    "Openscm.C89_read",
    "Openscm.C89_split",
    "Openscm.C89_table",
    "Openscm.C89_tail",
    "Openscm.C89_values"
   ],
   "note": "Reading back (C89_read): as in C66 no chosen column may be called value or by a name that reads as a time, and the times are in the years 1 to 9999."
  },
  {
   "property": "C90",
   "status": "proved",
   "theorems": [
    "Openscm.C90_defaults",
    "Openscm.C90_more",
    "Openscm.C90_numbers",
    "Openscm.C90_sensitivity"
   ],
   "note": "WellPosed lists the conditions on parameters. Exact arithmetic."
  },
  {
   "property": "C91",
   "status": "proved",
   "theorems": [
    "Openscm.C91_causal",
    "Openscm.C91_mixture"
   ],
   "note": "Emissions are those that the model reads on its own time axis."
  },
  {
   "property": "C92",
   "status": "proved",
   "theorems": [
    "Openscm.C92_accepted",
    "Openscm.C92_convert"
   ],
   "note": "Exact arithmetic: in floats rounding depends on the clock."
  },
  {
   "property": "C93",
   "status": "proved",
   "theorems": [
    "Openscm.C93_anomaly",
    "Openscm.C93_interpolate",
    "Openscm.C93_missing",
    "Openscm.C93_units"
   ],
   "note": "C93_interpolate: the selection can be interpolated and both orders give the same frame. C93_units and C93_anomaly: if the calls work. C93_missing: why no values may be missing."
  },
  {
   "property": "C94",
   "status": "partial",
   "theorems": [
    "Openscm.C94_average_partial",
    "Openscm.C94_local_average",
    "Openscm.C94_local_point",
    "Openscm.C94_order",
    "Openscm.C94_order_average",
    "Openscm.C94_point",
    "Openscm.C94_sharp"
   ],
   "note": "Points in full (C94_point, C94_order, C94_local_point), locality of averages too (C94_local_average). False for averages: errors of e may give errors up to 2 e (C94_average_partial, the best bound: C94_sharp), and larger averages may give smaller ones (C94_order_average)."
  },
  {
   "property": "C95",
   "status": "partial",
   "theorems": [
    "Openscm.C95_back",
    "Openscm.C95_steps",
    "Openscm.C95_through",
    "Openscm.C95_through_average"
   ],
   "note": "Steps for points in full (C95_through, frames: C95_steps); there and back for points and averages (C95_back). False for averages in steps (C95_through_average): the line through the averages of finer periods is not the old one."
  },
  {
   "property": "C96",
   "status": "proved",
   "theorems": [
    "Openscm.C96_cooling",
    "Openscm.C96_defaults",
    "Openscm.C96_forcing",
    "Openscm.C96_pools_above",
    "Openscm.C96_pools_below",
    "Openscm.C96_rest",
    "Openscm.C96_warming"
   ],
   "note": "In exact arithmetic, for any monotone logarithm. C96_defaults: the defaults meet the hypotheses."
  },
  {
   "property": "C97",
   "status": "proved",
   "theorems": [
    "Openscm.C97_interpolated",
    "Openscm.C97_loaded",
    "Openscm.C97_mixed",
    "Openscm.C97_works"
   ],
   "note": "C97_works: conversely the frame can be interpolated if the views show something and no average comes before another type. C97_mixed: with points and averages in one frame the views work but interpolate does not (see C56)."
  },
  {
   "property": "C98",
   "status": "proved",
   "theorems": [
    "Openscm.C98_back",
    "Openscm.C98_interpolated",
    "Openscm.C98_succeeds"
   ],
   "note": "C98_succeeds: exactly when; C98_back: exactly what; C98_interpolated: the same as interpolating. Deeper regions are dropped (see C57)."
  },
  {
   "property": "C99",
   "status": "partial",
   "theorems": [
    "Openscm.C99_columns_partial",
    "Openscm.C99_names_matter",
    "Openscm.C99_rows_partial",
    "Openscm.C99_succeeds_partial",
    "Openscm.C99_unchanged_partial"
   ],
   "note": "The code violates the statement: a generic value called variable, region, unit or parameter_type replaces that column (C99_names_matter). C99_rows_partial, C99_columns_partial, C99_succeeds_partial and C99_unchanged_partial: the whole statement if there is no such value."
  },
  {
   "property": "C100",
   "status": "proved",
   "theorems": [
    "Openscm.C100_carbon",
    "Openscm.C100_emissions",
    "Openscm.C100_interpolated",
    "Openscm.C14_same_version"
   ],
   "note": "C100_emissions: the model reads what a view of the row shows, after any calls that leave the version that info reports for emissions. C100_interpolated: a run takes the row as interpolate gives it on the beginnings of the periods, converted. C100_carbon: the total of the pools changes by these values as long as no pool is at its lower bound. Generic values of the frame reach the adapter as opaque values (CoreOpaque)."
  },
  {
   "property": "C101",
   "status": "proved",
   "theorems": [
    "Openscm.C101_carbon",
    "Openscm.C101_columns",
    "Openscm.C101_frame",
    "Openscm.C101_own",
    "Openscm.C101_rows"
   ],
   "note": "C101_own: what info can find among the outputs. C101_frame: the conversion succeeds, with one row per output and no others. C101_rows: region, unit, type, length and values of a row. C101_columns: the columns. C101_carbon: from frame to frame, as long as no pool is at its lower bound. The outputs have no generic values, so the function by which CoreOpaque renames them is arbitrary."
  },
  {
   "property": "C102",
   "status": "proved",
   "theorems": [
    "Openscm.C102_means",
    "Openscm.C102_median"
   ],
   "note": "C102_means: the rows of both tables of means, in both directions. C102_median: a frame for which medians differ."
  },
  {
   "property": "C103",
   "status": "partial",
   "theorems": [
    "Openscm.C103_commute_partial",
    "Openscm.C103_untyped"
   ],
   "note": "C103_commute_partial: all frames say the types or none does. C103_untyped: the code loses the values of a frame without types otherwise, so that the two orders differ. Missing: metadata with the value -999 (see C52), frames on different times, where appending leaves gaps."
  },
  {
   "property": "C104",
   "status": "partial",
   "theorems": [
    "Openscm.C104_loaded",
    "Openscm.C104_sulfur",
    "Openscm.C104_units_partial"
   ],
   "note": "C104_loaded holds for all values. C104_units_partial: all units but that of Emissions|SOx. C104_sulfur: the code has no definition for what Mt S / yr refers to."
  },
  {
   "property": "C105",
   "status": "partial",
   "theorems": [
    "Openscm.C105_needs_partial",
    "Openscm.C105_replaced",
    "Openscm.C105_total"
   ],
   "note": "C105_needs_partial and C105_total are for frames with at most one timeseries for each variable and region; C105_replaced: without this the frame is not refused and a timeseries is lost."
  },
  {
   "property": "C106",
   "status": "proved",
   "theorems": [
    "Openscm.C106_iff",
    "Openscm.C106_loads",
    "Openscm.C106_round"
   ],
   "note": "Both directions are in C106_iff; C106_round has no hypothesis that a call succeeds. Metadata with parentheses in its name (scalars) is in C107."
  },
  {
   "property": "C107",
   "status": "proved",
   "theorems": [
    "Openscm.C107_iff",
    "Openscm.C107_loads",
    "Openscm.C107_round",
    "Openscm.C107_twice"
   ],
   "note": "Both directions are in C107_iff; C107_round has no hypothesis that a call succeeds. C107_twice shows why one column for each name is asked for: of two columns for one scalar, one is lost without an error."
  },
  {
   "property": "C108",
   "status": "proved",
   "theorems": [
    "Openscm.C108_back",
    "Openscm.C108_none",
    "Openscm.C108_order"
   ],
   "note": "C108_none shows why scalars that are None are excluded: NaN in one timeseries and None in another count as the same metadata, and the first one is used."
  },
  {
   "property": "C109",
   "status": "proved",
   "theorems": [
    "Openscm.C109_back",
    "Openscm.C109_select"
   ],
   "note": "Which timeseries are asked for is PicksRow, the specification of filters of C72 and C93."
  },
  {
   "property": "C110",
   "status": "proved",
   "theorems": [
    "Openscm.C110_before",
    "Openscm.C110_context",
    "Openscm.C110_views"
   ],
   "note": "What a view shows is Sees (C97). Arithmetic is exact, so conversions can be composed without loss. The refusal is C110_context, for any conversion."
  },
  {
   "property": "C111",
   "status": "proved",
   "theorems": [
    "Openscm.C111_alone",
    "Openscm.C111_order",
    "Openscm.C111_selected"
   ],
   "note": "C111_order and C111_selected are the cases of C108 and C109; C111_selected has their hypotheses about scalars."
  },
  {
   "property": "C112",
   "status": "proved",
   "theorems": [
    "Openscm.C112_names",
    "Openscm.C112_renamed"
   ],
   "note": "The examples show why units and the climate model are left out."
  },
  {
   "property": "C113",
   "status": "proved",
   "theorems": [
    "Openscm.C113_alone",
    "Openscm.C113_converted"
   ],
   "note": "Untouched and readEmissions are those of C100; exact arithmetic."
  },
  {
   "property": "C114",
   "status": "proved",
   "theorems": [
    "Openscm.C114_bounds",
    "Openscm.C114_run",
    "Openscm.C114_scalar",
    "Openscm.C114_start"
   ],
   "note": "freshScalar and Journey are those of C38 to C41; exact arithmetic."
  },
  {
   "property": "C115",
   "status": "proved",
   "theorems": [
    "Openscm.C115_alone",
    "Openscm.C115_converted",
    "Openscm.C115_emissions"
   ],
   "note": "The emissions of the frame are to be seen at the time points of the model (Sees). Exact arithmetic."
  }
 ]
}