{
 "claims": [
  {
   "property": "C01",
   "status": "proved",
   "theorems": [
    "Shipgrav.C01_gaussian_filter_is_fir",
    "Shipgrav.C01_short_series_rejected",
    "Shipgrav.C01_nonpositive_length_raises",
    "Shipgrav.C01_causal"
   ],
   "note": ""
  },
  {
   "property": "C02",
   "status": "proved",
   "theorems": [
    "Shipgrav.C02_kernel",
    "Shipgrav.C02_between_window_bounds",
    "Shipgrav.C02_constant_reproduced"
   ],
   "note": ""
  },
  {
   "property": "C03",
   "status": "proved",
   "theorems": [
    "Shipgrav.C03_linear",
    "Shipgrav.C03_time_invariant"
   ],
   "note": ""
  },
  {
   "property": "C04",
   "status": "proved",
   "theorems": [
    "Shipgrav.C04_ramp_delay",
    "Shipgrav.C04_docstring_shift_refuted"
   ],
   "note": ""
  },
  {
   "property": "C05",
   "status": "partial",
   "theorems": [
    "Shipgrav.C05_impulse_response",
    "Shipgrav.C05_bell_outside_centre_partial",
    "Shipgrav.C05_centre_is_not_the_peak"
   ],
   "note": "The claim is false: for every fl >= 2 the centre weight is strictly below its neighbours (C05_centre_is_not_the_peak). Proved part: strictly decreasing from the first neighbour outwards."
  },
  {
   "property": "C06",
   "status": "proved",
   "theorems": [
    "Shipgrav.C06_decode_16bit",
    "Shipgrav.C06_injective"
   ],
   "note": ""
  },
  {
   "property": "C07",
   "status": "proved",
   "theorems": [
    "Shipgrav.C07_decode_wide",
    "Shipgrav.C07_wide_first_flag",
    "Shipgrav.C07_negative",
    "Shipgrav.C07_wide_disagrees",
    "Shipgrav.C07_other_type"
   ],
   "note": ""
  },
  {
   "property": "C08",
   "status": "proved",
   "theorems": [
    "Shipgrav.C08_frame",
    "Shipgrav.C08_second_call",
    "Shipgrav.C08_partial_insert_on_duplicate",
    "Shipgrav.C08_missing_key"
   ],
   "note": ""
  },
  {
   "property": "C09",
   "status": "proved",
   "theorems": [
    "Shipgrav.C09_output_path"
   ],
   "note": ""
  },
  {
   "property": "C10",
   "status": "proved",
   "theorems": [
    "Shipgrav.C10_line_by_line",
    "Shipgrav.C10_substitution_unique",
    "Shipgrav.C10_line_count"
   ],
   "note": ""
  },
  {
   "property": "C11",
   "status": "proved",
   "theorems": [
    "Shipgrav.C11_failure",
    "Shipgrav.C11_bad_line_fails"
   ],
   "note": ""
  },
  {
   "property": "C12",
   "status": "proved",
   "theorems": [
    "Shipgrav.C12_idempotent"
   ],
   "note": ""
  },
  {
   "property": "C13",
   "status": "partial",
   "theorems": [
    "Shipgrav.C13_comment_always_dropped",
    "Shipgrav.C13_refuted",
    "Shipgrav.C13_comment_kept_partial"
   ],
   "note": "The claim is false: the comment after an unquoted string is always dropped (C13_comment_always_dropped, C13_refuted). Proved part: comments survive on lines that are not requoted."
  },
  {
   "property": "C14",
   "status": "proved",
   "theorems": [
    "Shipgrav.C14_stack_of_picks",
    "Shipgrav.C14_picks_unique",
    "Shipgrav.C14_right_click_empty"
   ],
   "note": ""
  },
  {
   "property": "C15",
   "status": "proved",
   "theorems": [
    "Shipgrav.C15_picks_are_nearest"
   ],
   "note": ""
  },
  {
   "property": "C16",
   "status": "partial",
   "theorems": [
    "Shipgrav.C16_snaps_to_next_point_partial",
    "Shipgrav.C16_not_closest"
   ],
   "note": "The claim is false: the cross-hair snaps to the first point at or after the mouse (C16_not_closest). Proved part: exactly that behaviour, for all histories."
  },
  {
   "property": "C17",
   "status": "proved",
   "theorems": [
    "Shipgrav.C17_rejects",
    "Shipgrav.C17_shape_and_mask"
   ],
   "note": ""
  },
  {
   "property": "C18",
   "status": "proved",
   "theorems": [
    "Shipgrav.C18_stencil_exact",
    "Shipgrav.C18_polynomial_track",
    "Shipgrav.C18_radii_positive"
   ],
   "note": ""
  },
  {
   "property": "C19",
   "status": "proved",
   "theorems": [
    "Shipgrav.C19_stationary",
    "Shipgrav.C19_longitude_offset",
    "Shipgrav.C19_frequency_scaling",
    "Shipgrav.C19_time_reversal"
   ],
   "note": ""
  },
  {
   "property": "C20",
   "status": "proved",
   "theorems": [
    "Shipgrav.C20_polar",
    "Shipgrav.C20_unique",
    "Shipgrav.C20_zero_speed",
    "Shipgrav.C20_compass"
   ],
   "note": ""
  },
  {
   "property": "C21",
   "status": "proved",
   "theorems": [
    "Shipgrav.C21_isometry",
    "Shipgrav.C21_composes",
    "Shipgrav.C21_inverse",
    "Shipgrav.C21_along_track",
    "Shipgrav.C21_orientation"
   ],
   "note": ""
  },
  {
   "property": "C22",
   "status": "proved",
   "theorems": [
    "Shipgrav.C22_coordinates_decode"
   ],
   "note": ""
  },
  {
   "property": "C23",
   "status": "proved",
   "theorems": [
    "Shipgrav.C23_broken_field",
    "Shipgrav.C23_cut_off",
    "Shipgrav.C23_one_position_per_talker_line",
    "Shipgrav.C23_other_lines_ignored",
    "Shipgrav.C23_dropout_is_nan"
   ],
   "note": ""
  },
  {
   "property": "C24",
   "status": "partial",
   "theorems": [
    "Shipgrav.C24_whole_seconds",
    "Shipgrav.C24_fraction_decoded",
    "Shipgrav.C24_tiny_fraction_raises",
    "Shipgrav.C24_fraction_correct_iff_partial",
    "Shipgrav.C24_half_second_refuted"
   ],
   "note": "The claim is false for fractions whose canonical decimal form does not have exactly two digits (C24_half_second_refuted; C24_fraction_correct_iff_partial gives the exact condition). Proved part: whole seconds and two-digit fractions, and what is returned for every other fraction."
  },
  {
   "property": "C25",
   "status": "partial",
   "theorems": [
    "Shipgrav.C25_order_lost_refuted",
    "Shipgrav.C25_midnight_refuted",
    "Shipgrav.C25_increasing_kept_partial"
   ],
   "note": "The claim is false: C24's misread fractions and C26's midnight shift can swap fixes (C25_order_lost_refuted, C25_midnight_refuted). Proved part: fixes whose assigned timestamps increase keep their order and none is lost."
  },
  {
   "property": "C26",
   "status": "proved",
   "theorems": [
    "Shipgrav.C26_one_stamp_per_talker_line",
    "Shipgrav.C26_atlantis",
    "Shipgrav.C26_thompson",
    "Shipgrav.C26_nbp",
    "Shipgrav.C26_exact_iff_same_date",
    "Shipgrav.C26_midnight_one_day_early",
    "Shipgrav.C26_no_date"
   ],
   "note": ""
  },
  {
   "property": "C27",
   "status": "proved",
   "theorems": [
    "Shipgrav.C27_nearest_preceding_date",
    "Shipgrav.C27_missing_date_raises",
    "Shipgrav.C27_dateless_fix_never_read"
   ],
   "note": ""
  },
  {
   "property": "C28",
   "status": "proved",
   "theorems": [
    "Shipgrav.C28_strictly_increasing"
   ],
   "note": ""
  },
  {
   "property": "C29",
   "status": "proved",
   "theorems": [
    "Shipgrav.C29_track",
    "Shipgrav.C29_nothing_lost"
   ],
   "note": ""
  },
  {
   "property": "C30",
   "status": "partial",
   "theorems": [
    "Shipgrav.C30_sampling_ignored_refuted",
    "Shipgrav.C30_witness_refuted"
   ],
   "note": "The claim is false: any two nonzero sampling arguments give the same result (C30_sampling_ignored_refuted); C30_witness_refuted is a concrete track that is not resampled. C29 states what is returned instead: the original epochs."
  },
  {
   "property": "C31",
   "status": "proved",
   "theorems": [
    "Shipgrav.C31_number_kept",
    "Shipgrav.C31_zero_is_one"
   ],
   "note": ""
  },
  {
   "property": "C32",
   "status": "proved",
   "theorems": [
    "Shipgrav.C32_sentinel_iff",
    "Shipgrav.C32_overrides",
    "Shipgrav.C32_default_talker"
   ],
   "note": ""
  },
  {
   "property": "C33",
   "status": "proved",
   "theorems": [
    "Shipgrav.C33_repair_is_continuous",
    "Shipgrav.C33_column_is_continuous",
    "Shipgrav.C33_read_nav"
   ],
   "note": ""
  },
  {
   "property": "C34",
   "status": "proved",
   "theorems": [
    "Shipgrav.C34_never_raises",
    "Shipgrav.C34_repair",
    "Shipgrav.C34_modulo_a_turn"
   ],
   "note": ""
  },
  {
   "property": "C35",
   "status": "proved",
   "theorems": [
    "Shipgrav.C35_ordinal_counts_days",
    "Shipgrav.C35_instant",
    "Shipgrav.C35_order_preserving",
    "Shipgrav.C35_injective",
    "Shipgrav.C35_day_of_year_agrees",
    "Shipgrav.C35_day_366_rolls_over",
    "Shipgrav.C35_utc_instant"
   ],
   "note": ""
  },
  {
   "property": "C36",
   "status": "proved",
   "theorems": [
    "Shipgrav.C36_scaled",
    "Shipgrav.C36_files_in_order",
    "Shipgrav.C36_atlantis",
    "Shipgrav.C36_thompson",
    "Shipgrav.C36_revelle",
    "Shipgrav.C36_langseth"
   ],
   "note": ""
  },
  {
   "property": "C37",
   "status": "proved",
   "theorems": [
    "Shipgrav.C37_sentinel_iff",
    "Shipgrav.C37_no_files",
    "Shipgrav.C37_overrides",
    "Shipgrav.C37_supplied"
   ],
   "note": ""
  },
  {
   "property": "C38",
   "status": "proved",
   "theorems": [
    "Shipgrav.C38_unchanged",
    "Shipgrav.C38_removed",
    "Shipgrav.C38_only_removes",
    "Shipgrav.C38_removed_rows_are_spikes"
   ],
   "note": ""
  },
  {
   "property": "C39",
   "status": "partial",
   "theorems": [
    "Shipgrav.C39_isolated_spikes_removed_partial",
    "Shipgrav.C39_single_spike_kept_refuted"
   ],
   "note": "The claim is false for a single spike: two jumps or fewer are never acted on (C39_single_spike_kept_refuted). Proved part: two or more isolated spikes are removed, and nothing else."
  },
  {
   "property": "C40",
   "status": "proved",
   "theorems": [
    "Shipgrav.C40_kept_unique",
    "Shipgrav.C40_rows",
    "Shipgrav.C40_empty",
    "Shipgrav.C40_instants"
   ],
   "note": ""
  },
  {
   "property": "C41",
   "status": "proved",
   "theorems": [
    "Shipgrav.C41_laptop_sentinel_iff",
    "Shipgrav.C41_laptop_one_path",
    "Shipgrav.C41_laptop_no_files",
    "Shipgrav.C41_laptop_files_in_order",
    "Shipgrav.C41_laptop_supplied",
    "Shipgrav.C41_raw_one_path",
    "Shipgrav.C41_raw_no_files",
    "Shipgrav.C41_raw_files_in_order"
   ],
   "note": ""
  },
  {
   "property": "C42",
   "status": "proved",
   "theorems": [
    "Shipgrav.C42_scaling"
   ],
   "note": ""
  },
  {
   "property": "C43",
   "status": "proved",
   "theorems": [
    "Shipgrav.C43_synced",
    "Shipgrav.C43_stamp_in_string",
    "Shipgrav.C43_no_stamp",
    "Shipgrav.C43_unsynced_never_raises"
   ],
   "note": ""
  },
  {
   "property": "C44",
   "status": "proved",
   "theorems": [
    "Shipgrav.C44_at1m_unique",
    "Shipgrav.C44_rows",
    "Shipgrav.C44_instants"
   ],
   "note": ""
  },
  {
   "property": "C45",
   "status": "partial",
   "theorems": [
    "Shipgrav.C45_rows_partial",
    "Shipgrav.C45_last_line_lost"
   ],
   "note": "The claim is false: the last line of the file is never returned (C45_last_line_lost: whenever it is tagged there is one row too few). Proved part: one row for every tagged line before the last one."
  },
  {
   "property": "C46",
   "status": "partial",
   "theorems": [
    "Shipgrav.C46_dollar_optional",
    "Shipgrav.C46_absent_tag",
    "Shipgrav.C46_column_info",
    "Shipgrav.C46_fields_partial",
    "Shipgrav.C46_number",
    "Shipgrav.C46_text",
    "Shipgrav.C46_values_partial",
    "Shipgrav.C46_empty_first_field_refuted"
   ],
   "note": "The claim is false for lines whose first field is empty: their fields shift left (C46_empty_first_field_refuted). Proved part: the field mapping for all files whose tagged lines have a first field, the optional dollar sign, absent tags, and the numeric conversion."
  },
  {
   "property": "C47",
   "status": "proved",
   "theorems": [
    "Shipgrav.C47_time_arguments",
    "Shipgrav.C47_hour_in_range"
   ],
   "note": ""
  },
  {
   "property": "C48",
   "status": "proved",
   "theorems": [
    "Shipgrav.C48_lengths",
    "Shipgrav.C48_pointwise",
    "Shipgrav.C48_sum"
   ],
   "note": ""
  },
  {
   "property": "C49",
   "status": "proved",
   "theorems": [
    "Shipgrav.C49_longitude_mod_360"
   ],
   "note": ""
  },
  {
   "property": "C50",
   "status": "proved",
   "theorems": [
    "Shipgrav.C50_always_defined"
   ],
   "note": ""
  },
  {
   "property": "C51",
   "status": "proved",
   "theorems": [
    "Shipgrav.C51_bounded"
   ],
   "note": ""
  },
  {
   "property": "C52",
   "status": "proved",
   "theorems": [
    "Shipgrav.C52_rest"
   ],
   "note": ""
  },
  {
   "property": "C53",
   "status": "proved",
   "theorems": [
    "Shipgrav.C53_parallel",
    "Shipgrav.C53_increasing",
    "Shipgrav.C53_east_positive"
   ],
   "note": ""
  },
  {
   "property": "C54",
   "status": "proved",
   "theorems": [
    "Shipgrav.C54_values",
    "Shipgrav.C54_too_short",
    "Shipgrav.C54_longitude_shift",
    "Shipgrav.C54_mirror"
   ],
   "note": ""
  },
  {
   "property": "C55",
   "status": "proved",
   "theorems": [
    "Shipgrav.C55_typo_harmless",
    "Shipgrav.C55_no_second_longitude_difference"
   ],
   "note": ""
  },
  {
   "property": "C56",
   "status": "proved",
   "theorems": [
    "Shipgrav.C56_values",
    "Shipgrav.C56_first_exact",
    "Shipgrav.C56_second_exact",
    "Shipgrav.C56_linear"
   ],
   "note": ""
  },
  {
   "property": "C57",
   "status": "proved",
   "theorems": [
    "Shipgrav.C57_formula",
    "Shipgrav.C57_even",
    "Shipgrav.C57_periodic",
    "Shipgrav.C57_increasing",
    "Shipgrav.C57_range"
   ],
   "note": ""
  },
  {
   "property": "C58",
   "status": "proved",
   "theorems": [
    "Shipgrav.C58_zero",
    "Shipgrav.C58_formula",
    "Shipgrav.C58_water",
    "Shipgrav.C58_even",
    "Shipgrav.C58_decreasing",
    "Shipgrav.C58_negative"
   ],
   "note": ""
  },
  {
   "property": "C59",
   "status": "partial",
   "theorems": [
    "Shipgrav.C59_last_stretch_refuted",
    "Shipgrav.C59_after_last_gap_ignored",
    "Shipgrav.C59_between_gaps_partial",
    "Shipgrav.C59_no_gaps_partial"
   ],
   "note": "The claim is false: when there is a gap, everything after the last gap is left out (C59_after_last_gap_ignored), so a record whose only long stretch is the last one raises (C59_last_stretch_refuted); each stretch also loses its last sample, so 1001 are needed. Proved part: stretches between gaps contribute, and without gaps all samples do."
  },
  {
   "property": "C60",
   "status": "proved",
   "theorems": [
    "Shipgrav.C60_table",
    "Shipgrav.C60_sizes",
    "Shipgrav.C60_no_times"
   ],
   "note": ""
  },
  {
   "property": "C61",
   "status": "proved",
   "theorems": [
    "Shipgrav.C61_quadratic_trends",
    "Shipgrav.C61_linear_trends"
   ],
   "note": ""
  },
  {
   "property": "C62",
   "status": "proved",
   "theorems": [
    "Shipgrav.C62_coefficients_recovered"
   ],
   "note": ""
  },
  {
   "property": "C63",
   "status": "proved",
   "theorems": [
    "Shipgrav.C63_unit_up"
   ],
   "note": ""
  },
  {
   "property": "C64",
   "status": "proved",
   "theorems": [
    "Shipgrav.C64_level"
   ],
   "note": ""
  },
  {
   "property": "C65",
   "status": "proved",
   "theorems": [
    "Shipgrav.C65_filter",
    "Shipgrav.C65_bounded",
    "Shipgrav.C65_settles"
   ],
   "note": ""
  },
  {
   "property": "C66",
   "status": "proved",
   "theorems": [
    "Shipgrav.C66_arrays_after",
    "Shipgrav.C66_again"
   ],
   "note": ""
  },
  {
   "property": "C67",
   "status": "proved",
   "theorems": [
    "Shipgrav.C67_zero_damping",
    "Shipgrav.C67_up_vecs"
   ],
   "note": ""
  },
  {
   "property": "C68",
   "status": "proved",
   "theorems": [
    "Shipgrav.C68_value",
    "Shipgrav.C68_flat",
    "Shipgrav.C68_linear"
   ],
   "note": ""
  },
  {
   "property": "C69",
   "status": "partial",
   "theorems": [
    "Shipgrav.C69_wavenumbers_even_partial",
    "Shipgrav.C69_real_even_partial",
    "Shipgrav.C69_odd_refuted"
   ],
   "note": "The claim is false for profiles with an odd number of points: the upper bins get a wavenumber one too high (C69_odd_refuted). Proved part: for even lengths the wavenumbers are those of the DFT and the inverse transform is real."
  },
  {
   "property": "C70",
   "status": "proved",
   "theorems": [
    "Shipgrav.C70_folded_shape",
    "Shipgrav.C70_folded_wrong_shape",
    "Shipgrav.C70_unfolded_odd_columns",
    "Shipgrav.C70_unfolded_odd_rows"
   ],
   "note": ""
  },
  {
   "property": "C71",
   "status": "proved",
   "theorems": [
    "Shipgrav.C71_value_folded",
    "Shipgrav.C71_value_unfolded",
    "Shipgrav.C71_flat",
    "Shipgrav.C71_linear",
    "Shipgrav.C71_real",
    "Shipgrav.C71_mirror_columns",
    "Shipgrav.C71_mirror_rows"
   ],
   "note": ""
  },
  {
   "property": "C72",
   "status": "proved",
   "theorems": [
    "Shipgrav.C72_value",
    "Shipgrav.C72_linear",
    "Shipgrav.C72_additive",
    "Shipgrav.C72_zero_thickness",
    "Shipgrav.C72_uniform"
   ],
   "note": ""
  },
  {
   "property": "C73",
   "status": "partial",
   "theorems": [
    "Shipgrav.C73_other_bins_partial",
    "Shipgrav.C73_refuted",
    "Shipgrav.C73_effect_refuted"
   ],
   "note": "The claim is false for every size from 3 on: bin n//2+1 gets a positive frequency that is too large (C73_refuted), which changes the anomaly (C73_effect_refuted). Proved part: all other bins are right."
  },
  {
   "property": "C74",
   "status": "proved",
   "theorems": [
    "Shipgrav.C74_temperature",
    "Shipgrav.C74_subsidence",
    "Shipgrav.C74_errors"
   ],
   "note": ""
  },
  {
   "property": "C75",
   "status": "proved",
   "theorems": [
    "Shipgrav.C75_round_trip",
    "Shipgrav.C75_depth_recovered"
   ],
   "note": ""
  },
  {
   "property": "C76",
   "status": "proved",
   "theorems": [
    "Shipgrav.C76_age_or_distance"
   ],
   "note": ""
  },
  {
   "property": "C77",
   "status": "proved",
   "theorems": [
    "Shipgrav.C77_nodes",
    "Shipgrav.C77_boundaries",
    "Shipgrav.C77_errors"
   ],
   "note": ""
  },
  {
   "property": "C78",
   "status": "partial",
   "theorems": [
    "Shipgrav.C78_nonnegative_partial",
    "Shipgrav.C78_old_plates_partial",
    "Shipgrav.C78_young_plate_refuted"
   ],
   "note": "The claim is false near zero age: ten terms overshoot, and the middle of every young enough plate is hotter than the mantle (C78_young_plate_refuted). Proved part: never negative at any age and depth, and never above Tm once the slowest term has decayed to 9/20."
  },
  {
   "property": "C79",
   "status": "proved",
   "theorems": [
    "Shipgrav.C79_subsidence"
   ],
   "note": ""
  },
  {
   "property": "C80",
   "status": "proved",
   "theorems": [
    "Shipgrav.C80_nearest_node",
    "Shipgrav.C80_errors"
   ],
   "note": ""
  },
  {
   "property": "C81",
   "status": "partial",
   "theorems": [
    "Shipgrav.C81_shifted_partial",
    "Shipgrav.C81_line_partial",
    "Shipgrav.C81_refuted"
   ],
   "note": "The claim is false for every length from 2 on (C81_refuted: a spike at the first point is recovered at the last). Proved part: with a taper that passes all wavenumbers the recovered gravity is the input shifted by one sample along each axis, around the ends."
  },
  {
   "property": "C82",
   "status": "partial",
   "theorems": [
    "Shipgrav.C82_reversed_partial",
    "Shipgrav.C82_refuted"
   ],
   "note": "The claim is false for every length from 2 on (C82_refuted). Proved part: for all arguments the thickness with back=True is the thickness with back=False in reversed order."
  },
  {
   "property": "C83",
   "status": "proved",
   "theorems": [
    "Shipgrav.C83_mean",
    "Shipgrav.C83_linear",
    "Shipgrav.C83_density",
    "Shipgrav.C83_errors"
   ],
   "note": ""
  },
  {
   "property": "C84",
   "status": "partial",
   "theorems": [
    "Shipgrav.C84_used_wavenumbers_partial",
    "Shipgrav.C84_right_iff",
    "Shipgrav.C84_effect_refuted"
   ],
   "note": "The claim is false: every bin gets the wavenumber of the bin before (bin 0 that of one cycle), which is its own only for the bin just after the middle of an odd number (C84_right_iff); the effect is shown for every length from 3 on (C84_effect_refuted). Proved part: the value of the thickness with the wavenumbers that are used."
  },
  {
   "property": "C85",
   "status": "proved",
   "theorems": [
    "Shipgrav.C85_sentinel_iff",
    "Shipgrav.C85_no_files",
    "Shipgrav.C85_files_in_order",
    "Shipgrav.C85_records"
   ],
   "note": ""
  },
  {
   "property": "C86",
   "status": "proved",
   "theorems": [
    "Shipgrav.C86_langseth_stamp",
    "Shipgrav.C86_one_stamp_per_talker_line"
   ],
   "note": ""
  },
  {
   "property": "C87",
   "status": "partial",
   "theorems": [
    "Shipgrav.C87_posix_stamp",
    "Shipgrav.C87_iso_stamp_partial",
    "Shipgrav.C87_iso_milliseconds",
    "Shipgrav.C87_iso_refuted",
    "Shipgrav.C87_no_stamp",
    "Shipgrav.C87_other_talkers_have_no_stamp"
   ],
   "note": "The ISO part is false: int(float('.'+f)*1e6) loses a microsecond for some fractions, '.0157' gives 15699 (C87_iso_refuted). Proved: never more than one microsecond early and never late (fractions up to nine digits); exact for whole milliseconds written with up to three digits."
  },
  {
   "property": "C88",
   "status": "proved",
   "theorems": [
    "Shipgrav.C88_general",
    "Shipgrav.C88_sikuliaq",
    "Shipgrav.C88_thompson"
   ],
   "note": ""
  },
  {
   "property": "C89",
   "status": "proved",
   "theorems": [
    "Shipgrav.C89_thompson"
   ],
   "note": ""
  },
  {
   "property": "C90",
   "status": "proved",
   "theorems": [
    "Shipgrav.C90_tide_value"
   ],
   "note": ""
  },
  {
   "property": "C91",
   "status": "proved",
   "theorems": [
    "Shipgrav.C91_weights",
    "Shipgrav.C91_range"
   ],
   "note": ""
  },
  {
   "property": "C92",
   "status": "proved",
   "theorems": [
    "Shipgrav.C92_up_vectors"
   ],
   "note": ""
  },
  {
   "property": "C93",
   "status": "proved",
   "theorems": [
    "Shipgrav.C93_causal"
   ],
   "note": ""
  },
  {
   "property": "C94",
   "status": "proved",
   "theorems": [
    "Shipgrav.C94_heat_equation"
   ],
   "note": ""
  },
  {
   "property": "C95",
   "status": "proved",
   "theorems": [
    "Shipgrav.C95_heat_equation"
   ],
   "note": ""
  },
  {
   "property": "C96",
   "status": "partial",
   "theorems": [
    "Shipgrav.C96_no_continuation_partial",
    "Shipgrav.C96_refuted"
   ],
   "note": "The claim is false for every length from 3 on and every positive depth (C96_refuted). Proved part: without continuation, and with a taper that passes all wavenumbers, the thickness is real."
  },
  {
   "property": "C97",
   "status": "proved",
   "theorems": [
    "Shipgrav.C97_marker",
    "Shipgrav.C97_leave_and_click"
   ],
   "note": ""
  },
  {
   "property": "C98",
   "status": "partial",
   "theorems": [
    "Shipgrav.C98_datum_refuted",
    "Shipgrav.C98_zero_mean_partial",
    "Shipgrav.C98_origin_partial"
   ],
   "note": "The claim is false: powers of the topography are taken about the zero level and not about the mean (C98_datum_refuted: the anomaly over a step grows with the shift). Proved part: profiles of mean zero; the origin of the distances does not matter."
  },
  {
   "property": "C99",
   "status": "proved",
   "theorems": [
    "Shipgrav.C99_datum",
    "Shipgrav.C99_layer_background"
   ],
   "note": ""
  },
  {
   "property": "C100",
   "status": "proved",
   "theorems": [
    "Shipgrav.C100_velocity_is_long",
    "Shipgrav.C100_accelerations"
   ],
   "note": ""
  },
  {
   "property": "C101",
   "status": "partial",
   "theorems": [
    "Shipgrav.C101_scalar_flag",
    "Shipgrav.C101_value_partial",
    "Shipgrav.C101_calm_partial",
    "Shipgrav.C101_refuted"
   ],
   "note": "The claim is false: the script projects the long acceleration with the cross component and the cross acceleration with the long component (C101_refuted: with cross acceleration only, its projection is missing). Proved part: the value that is computed, and that it is zero without accelerations; a number for on_off acts like an array of it."
  },
  {
   "property": "C102",
   "status": "proved",
   "theorems": [
    "Shipgrav.C102_value",
    "Shipgrav.C102_at_fix",
    "Shipgrav.C102_between",
    "Shipgrav.C102_uniform_motion"
   ],
   "note": ""
  },
  {
   "property": "C103",
   "status": "partial",
   "theorems": [
    "Shipgrav.C103_kept_rows_partial",
    "Shipgrav.C103_isolated_partial",
    "Shipgrav.C103_consecutive_refuted",
    "Shipgrav.C103_west_refuted"
   ],
   "note": "The claim is false: of two dropouts in a row one stays (C103_consecutive_refuted), and in western longitudes a dropout that reads zero stays while the good row before it is removed (C103_west_refuted). Proved part: which rows are kept, and the claim for dropouts that stand alone and read west of the track."
  },
  {
   "property": "C104",
   "status": "proved",
   "theorems": [
    "Shipgrav.C104_value",
    "Shipgrav.C104_too_short",
    "Shipgrav.C104_at_rest"
   ],
   "note": ""
  },
  {
   "property": "C105",
   "status": "partial",
   "theorems": [
    "Shipgrav.C105_corrected_partial",
    "Shipgrav.C105_level_coefficient_refuted"
   ],
   "note": "The claim is false for the level error, which is two samples behind in the regression and is not corrected for (C105_level_coefficient_refuted). Proved part: the claim for the other four monitors, with the level error counted two samples back."
  },
  {
   "property": "C106",
   "status": "partial",
   "theorems": [
    "Shipgrav.C106_pairs_partial",
    "Shipgrav.C106_rows_partial",
    "Shipgrav.C106_end_refuted",
    "Shipgrav.C106_names_partial"
   ],
   "note": "The claim is false for the later pick, which is not among the rows written (C106_end_refuted). Proved part: pairs, order, bounds, rows and file names."
  },
  {
   "property": "C107",
   "status": "proved",
   "theorems": [
    "Shipgrav.C107_contrasts",
    "Shipgrav.C107_value",
    "Shipgrav.C107_flat",
    "Shipgrav.C107_no_expansion"
   ],
   "note": ""
  },
  {
   "property": "C108",
   "status": "partial",
   "theorems": [
    "Shipgrav.C108_document_partial",
    "Shipgrav.C108_number_refuted",
    "Shipgrav.C108_key_refuted",
    "Shipgrav.C108_equals_refuted",
    "Shipgrav.C108_backslash_refuted"
   ],
   "note": "The claim is false for numbers that Python reads and TOML does not (.5), keys and texts with TRUE or FALSE in them, unquoted texts with = (cut there) and backslashes (C108_*_refuted). Proved part: the claim for all files whose lines have none of these."
  },
  {
   "property": "C109",
   "status": "proved",
   "theorems": [
    "Shipgrav.C109_filtfilt",
    "Shipgrav.C109_initial_state",
    "Shipgrav.C109_lowpass",
    "Shipgrav.C109_trend_unchanged",
    "Shipgrav.C109_superposition",
    "Shipgrav.C109_no_phase_shift"
   ],
   "note": ""
  },
  {
   "property": "C110",
   "status": "partial",
   "theorems": [
    "Shipgrav.C110_track_trim",
    "Shipgrav.C110_plot_trim_partial",
    "Shipgrav.C110_plot_trim_refuted"
   ],
   "note": "The claim holds for `[taps:-taps]` (C110_track_trim) and is false for `[taps:-taps//2]` at the end of the series (C110_plot_trim_refuted). Proved part for the latter: all kept samples but the last 239."
  },
  {
   "property": "C111",
   "status": "proved",
   "theorems": [
    "Shipgrav.C111_extended_line",
    "Shipgrav.C111_short_line"
   ],
   "note": ""
  },
  {
   "property": "C112",
   "status": "proved",
   "theorems": [
    "Shipgrav.C112_embedded"
   ],
   "note": ""
  },
  {
   "property": "C113",
   "status": "proved",
   "theorems": [
    "Shipgrav.C113_even_spacing",
    "Shipgrav.C113_no_overshoot",
    "Shipgrav.C113_even_slope"
   ],
   "note": ""
  },
  {
   "property": "C114",
   "status": "proved",
   "theorems": [
    "Shipgrav.C114_between",
    "Shipgrav.C114_after",
    "Shipgrav.C114_start",
    "Shipgrav.C114_gap",
    "Shipgrav.C114_range"
   ],
   "note": ""
  },
  {
   "property": "C115",
   "status": "proved",
   "theorems": [
    "Shipgrav.C115_others_untouched",
    "Shipgrav.C115_records",
    "Shipgrav.C115_list",
    "Shipgrav.C115_twice",
    "Shipgrav.C115_raises_iff",
    "Shipgrav.C115_stale",
    "Shipgrav.C115_read"
   ],
   "note": ""
  },
  {
   "property": "C116",
   "status": "proved",
   "theorems": [
    "Shipgrav.C116_calibrated",
    "Shipgrav.C116_missing_key",
    "Shipgrav.C116_from_ini"
   ],
   "note": ""
  },
  {
   "property": "C117",
   "status": "proved",
   "theorems": [
    "Shipgrav.C117_values",
    "Shipgrav.C117_at_rest",
    "Shipgrav.C117_no_level_error",
    "Shipgrav.C117_parallel"
   ],
   "note": ""
  },
  {
   "property": "C118",
   "status": "proved",
   "theorems": [
    "Shipgrav.C118_value",
    "Shipgrav.C118_range",
    "Shipgrav.C118_symmetric",
    "Shipgrav.C118_units",
    "Shipgrav.C118_same",
    "Shipgrav.C118_short",
    "Shipgrav.C118_gap"
   ],
   "note": ""
  },
  {
   "property": "C119",
   "status": "proved",
   "theorems": [
    "Shipgrav.C119_order",
    "Shipgrav.C119_value"
   ],
   "note": ""
  },
  {
   "property": "C120",
   "status": "partial",
   "theorems": [
    "Shipgrav.C120_correction",
    "Shipgrav.C120_even_partial",
    "Shipgrav.C120_gap_refuted"
   ],
   "note": "The claim is false: readings are taken to be evenly spaced, so on either side of a gap the speed is overestimated and the anomaly is too high for a ship that goes east (C120_gap_refuted). Proved part: what correction is used for any pattern of times, and the claim for evenly spaced readings."
  },
  {
   "property": "C121",
   "status": "proved",
   "theorems": [
    "Shipgrav.C121_profile",
    "Shipgrav.C121_surface",
    "Shipgrav.C121_rate",
    "Shipgrav.C121_limit"
   ],
   "note": ""
  },
  {
   "property": "C122",
   "status": "proved",
   "theorems": [
    "Shipgrav.C122_inertial",
    "Shipgrav.C122_exact"
   ],
   "note": ""
  },
  {
   "property": "C123",
   "status": "proved",
   "theorems": [
    "Shipgrav.C123_swell",
    "Shipgrav.C123_size",
    "Shipgrav.C123_short"
   ],
   "note": ""
  },
  {
   "property": "C124",
   "status": "proved",
   "theorems": [
    "Shipgrav.C124_halfspace"
   ],
   "note": ""
  },
  {
   "property": "C125",
   "status": "partial",
   "theorems": [
    "Shipgrav.C125_partial",
    "Shipgrav.C125_size",
    "Shipgrav.C125_refuted"
   ],
   "note": "The claim is false: the temperature has ten terms, of which 1, 3, 5, 7, 9 contribute to the contraction, the subsidence has only 1, 3, 5, so it is too large at every age (C125_refuted). Proved part: the exact difference, and that it is at most 1.4 % of the scale and goes down with exp(-49 pi^2 k t / L^2)."
  },
  {
   "property": "C126",
   "status": "proved",
   "theorems": [
    "Shipgrav.C126_read_nav_double",
    "Shipgrav.C126_times_distinct"
   ],
   "note": ""
  },
  {
   "property": "C127",
   "status": "proved",
   "theorems": [
    "Shipgrav.C127_every_file",
    "Shipgrav.C127_well_formed",
    "Shipgrav.C127_order_kept"
   ],
   "note": ""
  },
  {
   "property": "C128",
   "status": "proved",
   "theorems": [
    "Shipgrav.C128_filter_error",
    "Shipgrav.C128_small_error",
    "Shipgrav.C128_same_errors"
   ],
   "note": ""
  },
  {
   "property": "C129",
   "status": "proved",
   "theorems": [
    "Shipgrav.C129_file_order",
    "Shipgrav.C129_split"
   ],
   "note": ""
  },
  {
   "property": "C130",
   "status": "partial",
   "theorems": [
    "Shipgrav.C130_bgm_atlantis",
    "Shipgrav.C130_bgm_thompson",
    "Shipgrav.C130_bgm_revelle",
    "Shipgrav.C130_bgm_langseth",
    "Shipgrav.C130_rgs",
    "Shipgrav.C130_laptop",
    "Shipgrav.C130_laptop_thompson",
    "Shipgrav.C130_laptop_sikuliaq",
    "Shipgrav.C130_laptop_langseth",
    "Shipgrav.C130_raw_partial",
    "Shipgrav.C130_raw_refuted",
    "Shipgrav.C130_raw_thompson",
    "Shipgrav.C130_raw_sikuliaq"
   ],
   "note": "False for DGS raw files whose clock is synchronised part-way: the first record alone decides, so the file read in one piece has no date_time at all while the files it can be cut into have it (C130_raw_refuted, for every such file). Proved for BGM, RGS, laptop files (common format, Thompson, Sikuliaq with their headers, Langseth with any other lines), raw files of Thompson and Sikuliaq, and other raw files with the clock synchronised throughout."
  },
  {
   "property": "C131",
   "status": "proved",
   "theorems": [
    "Shipgrav.C131_tilt_error",
    "Shipgrav.C131_small_error",
    "Shipgrav.C131_same_errors"
   ],
   "note": ""
  },
  {
   "property": "C132",
   "status": "proved",
   "theorems": [
    "Shipgrav.C132_normal_gravity",
    "Shipgrav.C132_free_air",
    "Shipgrav.C132_latitude_correction"
   ],
   "note": ""
  },
  {
   "property": "C133",
   "status": "proved",
   "theorems": [
    "Shipgrav.C133_eotvos",
    "Shipgrav.C133_ten_hertz",
    "Shipgrav.C133_rest"
   ],
   "note": ""
  },
  {
   "property": "C134",
   "status": "proved",
   "theorems": [
    "Shipgrav.C134_tide",
    "Shipgrav.C134_pointwise",
    "Shipgrav.C134_track"
   ],
   "note": ""
  },
  {
   "property": "C135",
   "status": "proved",
   "theorems": [
    "Shipgrav.C135_faa"
   ],
   "note": ""
  },
  {
   "property": "C136",
   "status": "proved",
   "theorems": [
    "Shipgrav.C136_position",
    "Shipgrav.C136_rest",
    "Shipgrav.C136_at_fix_refuted"
   ],
   "note": ""
  },
  {
   "property": "C137",
   "status": "proved",
   "theorems": [
    "Shipgrav.C137_sensitivity",
    "Shipgrav.C137_attained"
   ],
   "note": ""
  },
  {
   "property": "C138",
   "status": "proved",
   "theorems": [
    "Shipgrav.C138_pipeline"
   ],
   "note": ""
  },
  {
   "property": "C139",
   "status": "proved",
   "theorems": [
    "Shipgrav.C139_ride"
   ],
   "note": ""
  },
  {
   "property": "C140",
   "status": "proved",
   "theorems": [
    "Shipgrav.C140_laptop",
    "Shipgrav.C140_raw",
    "Shipgrav.C140_comments"
   ],
   "note": ""
  },
  {
   "property": "C141",
   "status": "proved",
   "theorems": [
    "Shipgrav.C141_wave",
    "Shipgrav.C141_long_wave",
    "Shipgrav.C141_swell"
   ],
   "note": ""
  },
  {
   "property": "C142",
   "status": "proved",
   "theorems": [
    "Shipgrav.C142_folded",
    "Shipgrav.C142_periodic",
    "Shipgrav.C142_converges",
    "Shipgrav.C142_layer"
   ],
   "note": ""
  },
  {
   "property": "C143",
   "status": "proved",
   "theorems": [
    "Shipgrav.C143_long_wave",
    "Shipgrav.C143_short_wave",
    "Shipgrav.C143_steep",
    "Shipgrav.C143_swell"
   ],
   "note": ""
  },
  {
   "property": "C144",
   "status": "proved",
   "theorems": [
    "Shipgrav.C144_raw",
    "Shipgrav.C144_rgs",
    "Shipgrav.C144_space_raises"
   ],
   "note": ""
  },
  {
   "property": "C145",
   "status": "proved",
   "theorems": [
    "Shipgrav.C145_rows",
    "Shipgrav.C145_counts_recovered",
    "Shipgrav.C145_langseth"
   ],
   "note": ""
  },
  {
   "property": "C146",
   "status": "proved",
   "theorems": [
    "Shipgrav.C146_repair",
    "Shipgrav.C146_never_raises",
    "Shipgrav.C146_track",
    "Shipgrav.C146_exact_near_date_line",
    "Shipgrav.C146_read_nav"
   ],
   "note": ""
  },
  {
   "property": "C147",
   "status": "proved",
   "theorems": [
    "Shipgrav.C147_layer",
    "Shipgrav.C147_slab"
   ],
   "note": ""
  },
  {
   "property": "C148",
   "status": "proved",
   "theorems": [
    "Shipgrav.C148_periodic",
    "Shipgrav.C148_folded",
    "Shipgrav.C148_finite"
   ],
   "note": ""
  },
  {
   "property": "C149",
   "status": "proved",
   "theorems": [
    "Shipgrav.C149_tide_is_newton"
   ],
   "note": ""
  },
  {
   "property": "C150",
   "status": "proved",
   "theorems": [
    "Shipgrav.C150_free_air_gradient",
    "Shipgrav.C150_water_gradient"
   ],
   "note": ""
  },
  {
   "property": "C151",
   "status": "proved",
   "theorems": [
    "Shipgrav.C151_pointwise",
    "Shipgrav.C151_constant",
    "Shipgrav.C151_profile",
    "Shipgrav.C151_raises"
   ],
   "note": ""
  },
  {
   "property": "C152",
   "status": "proved",
   "theorems": [
    "Shipgrav.C152_velocity",
    "Shipgrav.C152_difference",
    "Shipgrav.C152_eotvos"
   ],
   "note": ""
  },
  {
   "property": "C153",
   "status": "proved",
   "theorems": [
    "Shipgrav.C153_exists",
    "Shipgrav.C153_unique",
    "Shipgrav.C153_wgs_grav"
   ],
   "note": ""
  },
  {
   "property": "C154",
   "status": "proved",
   "theorems": [
    "Shipgrav.C154_bruns",
    "Shipgrav.C154_free_air"
   ],
   "note": ""
  },
  {
   "property": "C155",
   "status": "partial",
   "theorems": [
    "Shipgrav.C155_profile_response",
    "Shipgrav.C155_profile_zero_level_partial",
    "Shipgrav.C155_profile_refuted"
   ],
   "note": "False in the code for b ≠ 0 (C155_profile_refuted): the powers are those of the raw heights, so every wave has the additional factor 1 + kb + (kb)²/2 + (kb)³/6 + (kb)⁴/24 (C155_profile_response, exact for all inputs). True for b = 0 (partial)."
  },
  {
   "property": "C156",
   "status": "proved",
   "theorems": [
    "Shipgrav.C156_one_plate",
    "Shipgrav.C156_temperature",
    "Shipgrav.C156_subsidence",
    "Shipgrav.C156_defaults",
    "Shipgrav.C156_ridge"
   ],
   "note": ""
  },
  {
   "property": "C157",
   "status": "proved",
   "theorems": [
    "Shipgrav.C157_one_halfspace",
    "Shipgrav.C157_exact",
    "Shipgrav.C157_isotherm"
   ],
   "note": ""
  },
  {
   "property": "C158",
   "status": "proved",
   "theorems": [
    "Shipgrav.C158_plate_hotter",
    "Shipgrav.C158_temperature",
    "Shipgrav.C158_subsidence",
    "Shipgrav.C158_defaults"
   ],
   "note": ""
  },
  {
   "property": "C159",
   "status": "proved",
   "theorems": [
    "Shipgrav.C159_one_depth",
    "Shipgrav.C159_isotherm",
    "Shipgrav.C159_defaults"
   ],
   "note": ""
  },
  {
   "property": "C160",
   "status": "proved",
   "theorems": [
    "Shipgrav.C160_velocities",
    "Shipgrav.C160_same_errors",
    "Shipgrav.C160_course",
    "Shipgrav.C160_rotation"
   ],
   "note": ""
  },
  {
   "property": "C161",
   "status": "proved",
   "theorems": [
    "Shipgrav.C161_halfspace",
    "Shipgrav.C161_isotherm",
    "Shipgrav.C161_plate",
    "Shipgrav.C161_same_errors"
   ],
   "note": ""
  },
  {
   "property": "C162",
   "status": "proved",
   "theorems": [
    "Shipgrav.C162_nearest_node",
    "Shipgrav.C162_errors"
   ],
   "note": ""
  },
  {
   "property": "C163",
   "status": "proved",
   "theorems": [
    "Shipgrav.C163_geology",
    "Shipgrav.C163_smooth_signal",
    "Shipgrav.C163_smooth_geology",
    "Shipgrav.C163_wave",
    "Shipgrav.C163_apart"
   ],
   "note": ""
  },
  {
   "property": "C164",
   "status": "proved",
   "theorems": [
    "Shipgrav.C164_talker",
    "Shipgrav.C164_scale",
    "Shipgrav.C164_biases",
    "Shipgrav.C164_calibration_factor",
    "Shipgrav.C164_add_ship"
   ],
   "note": ""
  },
  {
   "property": "C165",
   "status": "proved",
   "theorems": [
    "Shipgrav.C165_script",
    "Shipgrav.C165_tables"
   ],
   "note": ""
  },
  {
   "property": "C166",
   "status": "proved",
   "theorems": [
    "Shipgrav.C166_filter",
    "Shipgrav.C166_script",
    "Shipgrav.C166_tables"
   ],
   "note": ""
  },
  {
   "property": "C167",
   "status": "proved",
   "theorems": [
    "Shipgrav.C167_lowpass",
    "Shipgrav.C167_filter"
   ],
   "note": ""
  },
  {
   "property": "C168",
   "status": "proved",
   "theorems": [
    "Shipgrav.C168_ride",
    "Shipgrav.C168_ride_smooth",
    "Shipgrav.C168_pipeline",
    "Shipgrav.C168_faa",
    "Shipgrav.C168_smooth"
   ],
   "note": ""
  },
  {
   "property": "C169",
   "status": "proved",
   "theorems": [
    "Shipgrav.C169_profile"
   ],
   "note": ""
  },
  {
   "property": "C170",
   "status": "proved",
   "theorems": [
    "Shipgrav.C170_folded",
    "Shipgrav.C170_unfolded"
   ],
   "note": ""
  },
  {
   "property": "C171",
   "status": "proved",
   "theorems": [
    "Shipgrav.C171_layer"
   ],
   "note": ""
  },
  {
   "property": "C172",
   "status": "proved",
   "theorems": [
    "Shipgrav.C172_up_vectors",
    "Shipgrav.C172_in_place"
   ],
   "note": ""
  },
  {
   "property": "C173",
   "status": "proved",
   "theorems": [
    "Shipgrav.C173_first",
    "Shipgrav.C173_second"
   ],
   "note": ""
  }
 ]
}