{
 "claims": [
  {
   "property": "C01",
   "status": "proved",
   "theorems": [
    "Grib.Props.C01_grib_int_is_sign_magnitude",
    "Grib.Props.C01_as_grib_int_is_sign_magnitude",
    "Grib.Props.C01_other_lengths",
    "Grib.Props.C01_range",
    "Grib.Props.C01_injective_up_to_zero",
    "Grib.Props.C01_sign_bit_negates"
   ],
   "note": ""
  },
  {
   "property": "C02",
   "status": "proved",
   "theorems": [
    "Grib.Props.C02_nth_call",
    "Grib.Props.C02_drain",
    "Grib.Props.C02_any_width",
    "Grib.Props.C02_offset_outside",
    "Grib.Props.C02_width_zero_never_ends"
   ],
   "note": ""
  },
  {
   "property": "C03",
   "status": "proved",
   "theorems": [
    "Grib.Props.C03_reported_is_first",
    "Grib.Props.C03_search"
   ],
   "note": "success case for all schedules; completeness for schedules whose reads deliver >= 16 octets when available (cursor, file)"
  },
  {
   "property": "C04",
   "status": "proved",
   "theorems": [
    "Grib.Props.C04_faithful",
    "Grib.Props.C04_opened"
   ],
   "note": "for all schedules of short reads"
  },
  {
   "property": "C05",
   "status": "proved",
   "theorems": [
    "Grib.Props.C05_tiles"
   ],
   "note": "for all schedules of short reads"
  },
  {
   "property": "C06",
   "status": "partial",
   "theorems": [
    "Grib.Props.C06_total_length_fails",
    "Grib.Props.C06_short_section_fails",
    "Grib.Props.C06_empty_bitmap_fails",
    "Grib.Props.C06_large_section_fails",
    "Grib.Props.C06_only_bad_lengths_partial"
   ],
   "note": "false of the code: four witnesses of panics are proved (_fails); proved: a panic happens only at such a senseless length reached by walking the sections; C59 gives the exact condition"
  },
  {
   "property": "C07",
   "status": "partial",
   "theorems": [
    "Grib.Props.C07_short_read_fails",
    "Grib.Props.C07_split_header_fails",
    "Grib.Props.C07_benign_partial"
   ],
   "note": "false of the code: witnesses with short reads are proved (_fails); proved: any schedule whose short reads deliver at least 16 octets gives the same result as a cursor"
  },
  {
   "property": "C08",
   "status": "proved",
   "theorems": [
    "Grib.Props.C08_failure_reported",
    "Grib.Props.C08_success_means_no_failure"
   ],
   "note": ""
  },
  {
   "property": "C09",
   "status": "proved",
   "theorems": [
    "Grib.Props.C09_cut_detected",
    "Grib.Props.C09_cut_early"
   ],
   "note": "for every reader without failures whose short reads deliver at least 16 octets"
  },
  {
   "property": "C10",
   "status": "proved",
   "theorems": [
    "Grib.Props.C10_write_then_open"
   ],
   "note": "for every reader without failures whose short reads deliver at least 16 octets"
  },
  {
   "property": "C11",
   "status": "proved",
   "theorems": [
    "Grib.Props.C11_by_value",
    "Grib.Props.C11_by_index",
    "Grib.Props.C11_first_offender",
    "Grib.Props.C11_no_panic"
   ],
   "note": ""
  },
  {
   "property": "C12",
   "status": "proved",
   "theorems": [
    "Grib.Props.C12_kinds"
   ],
   "note": ""
  },
  {
   "property": "C13",
   "status": "proved",
   "theorems": [
    "Grib.Props.C13_before_error",
    "Grib.Props.C13_numbering"
   ],
   "note": ""
  },
  {
   "property": "C14",
   "status": "proved",
   "theorems": [
    "Grib.Props.C14_most_recent",
    "Grib.Props.C14_listing_by_value",
    "Grib.Props.C14_listing_by_index"
   ],
   "note": ""
  },
  {
   "property": "C15",
   "status": "proved",
   "theorems": [
    "Grib.Props.C15_over_after_error",
    "Grib.Props.C15_prefix_unaffected",
    "Grib.Props.C15_read_error_reported",
    "Grib.Props.C15_first_problem"
   ],
   "note": ""
  },
  {
   "property": "C16",
   "status": "proved",
   "theorems": [
    "Grib.Props.C16_streams_agree",
    "Grib.Props.C16_recorded"
   ],
   "note": ""
  },
  {
   "property": "C17",
   "status": "proved",
   "theorems": [
    "Grib.Props.C17_parameter",
    "Grib.Props.C17_accessors"
   ],
   "note": ""
  },
  {
   "property": "C18",
   "status": "partial",
   "theorems": [
    "Grib.Props.C18_loop",
    "Grib.Props.C18_size_hint",
    "Grib.Props.C18_nth_fresh_partial",
    "Grib.Props.C18_nth_is_absolute",
    "Grib.Props.C18_nth_fails",
    "Grib.Props.C18_size_hint_fails",
    "Grib.Props.C18_collect_fails"
   ],
   "note": "loop and size_hint proved; false of the code in other respects: nth counts from the start, size_hint panics after nth beyond the end, two submessages cannot be alive at once (_fails)"
  },
  {
   "property": "C19",
   "status": "proved",
   "theorems": [
    "Grib.Props.C19_templates"
   ],
   "note": "for every hash iteration order"
  },
  {
   "property": "C20",
   "status": "proved",
   "theorems": [
    "Grib.Props.C20_values",
    "Grib.Props.C20_exact",
    "Grib.Props.C20_constant",
    "Grib.Props.C20_field_type",
    "Grib.Props.C20_wide",
    "Grib.Props.C20_short_section_panics"
   ],
   "note": "operations of the formula in order for any float operations, value in exact arithmetic; widths up to 32 bits"
  },
  {
   "property": "C21",
   "status": "proved",
   "theorems": [
    "Grib.Props.C21_pack_read",
    "Grib.Props.C21_decode"
   ],
   "note": ""
  },
  {
   "property": "C22",
   "status": "partial",
   "theorems": [
    "Grib.Props.C22_padding_bits_fails",
    "Grib.Props.C22_bitmap_padding_fails",
    "Grib.Props.C22_count_partial",
    "Grib.Props.C22_no_bitmap_partial",
    "Grib.Props.C22_exact_values_partial",
    "Grib.Props.C22_initial_size_hint",
    "Grib.Props.C22_size_hint_fails"
   ],
   "note": "false of the code: surplus padding values are not dropped and size_hint is wrong in places (_fails); proved: bounds, and equality when the counts are consistent; C62 has the exact count"
  },
  {
   "property": "C23",
   "status": "proved",
   "theorems": [
    "Grib.Props.C23_points",
    "Grib.Props.C23_short_bitmap",
    "Grib.Props.C23_too_few_values_not_reported"
   ],
   "note": "while values last; a shortage of values ends the sequence silently (C23_too_few_values_not_reported)"
  },
  {
   "property": "C24",
   "status": "proved",
   "theorems": [
    "Grib.Props.C24_indicator"
   ],
   "note": ""
  },
  {
   "property": "C25",
   "status": "partial",
   "theorems": [
    "Grib.Props.C25_runs_partial",
    "Grib.Props.C25_round_trip_partial",
    "Grib.Props.C25_octet_wide",
    "Grib.Props.C25_padding_fails"
   ],
   "note": "false for widths below 8: padding bits decode as extra levels (C25_padding_fails); proved when the integers fill the octets, in particular for all widths of 8 bits or more; C67 has exactly when it holds"
  },
  {
   "property": "C26",
   "status": "partial",
   "theorems": [
    "Grib.Props.C26_unpack",
    "Grib.Props.C26_first_not_level",
    "Grib.Props.C26_no_panic_partial",
    "Grib.Props.C26_level_not_in_table",
    "Grib.Props.C26_never_ends_fails",
    "Grib.Props.C26_width_panics_fails",
    "Grib.Props.C26_maximum_panics_fails",
    "Grib.Props.C26_short_section_panics_fails",
    "Grib.Props.C26_overflow_panics_fails"
   ],
   "note": "false of the code: panics and non-termination (_fails); proved: exact characterisation of the rejected inputs; C67 has every outcome"
  },
  {
   "property": "C27",
   "status": "proved",
   "theorems": [
    "Grib.Props.C27_values",
    "Grib.Props.C27_position",
    "Grib.Props.C27_round_trip",
    "Grib.Props.C27_no_groups_panics",
    "Grib.Props.C27_short_section5_panics",
    "Grib.Props.C27_short_section7_panics"
   ],
   "note": "for all consistent layouts; panics on inconsistent ones (_panics)"
  },
  {
   "property": "C28",
   "status": "proved",
   "theorems": [
    "Grib.Props.C28_point",
    "Grib.Props.C28_constant_group",
    "Grib.Props.C28_decoded"
   ],
   "note": "NaN in exact arithmetic"
  },
  {
   "property": "C29",
   "status": "proved",
   "theorems": [
    "Grib.Props.C29_order1",
    "Grib.Props.C29_order2",
    "Grib.Props.C29_round_trip1",
    "Grib.Props.C29_round_trip2",
    "Grib.Props.C29_order2_bound"
   ],
   "note": "order 2 for values whose doubles fit 32-bit integers (C29_order2_bound shows the bound is needed)"
  },
  {
   "property": "C30",
   "status": "proved",
   "theorems": [
    "Grib.Props.C30_dispatch",
    "Grib.Props.C30_unsupported",
    "Grib.Props.C30_refused",
    "Grib.Props.C30_order_refused",
    "Grib.Props.C30_constant_images",
    "Grib.Props.C30_png_values"
   ],
   "note": ""
  },
  {
   "property": "C31",
   "status": "proved",
   "theorems": [
    "Grib.Props.C31_order",
    "Grib.Props.C31_kinds"
   ],
   "note": ""
  },
  {
   "property": "C32",
   "status": "partial",
   "theorems": [
    "Grib.Props.C32_once_partial",
    "Grib.Props.C32_hint_partial",
    "Grib.Props.C32_no_lines",
    "Grib.Props.C32_empty_lines_fails"
   ],
   "note": "for all grids with rows and columns; false for empty lines: the iterator never stops (C32_empty_lines_fails)"
  },
  {
   "property": "C33",
   "status": "partial",
   "theorems": [
    "Grib.Props.C33_points",
    "Grib.Props.C33_latitudes_partial",
    "Grib.Props.C33_longitudes_partial",
    "Grib.Props.C33_longitudes_turn_partial",
    "Grib.Props.C33_single_row_fails",
    "Grib.Props.C33_single_row_nan",
    "Grib.Props.C33_full_circle_fails"
   ],
   "note": "operations for any float operations, values in exact arithmetic; false for a single row or column (not a number) and for equal end longitudes scanned eastwards (_fails)"
  },
  {
   "property": "C34",
   "status": "partial",
   "theorems": [
    "Grib.Props.C34_gaussian_partial",
    "Grib.Props.C34_accepts_partial",
    "Grib.Props.C34_range",
    "Grib.Props.C34_overflow_fails",
    "Grib.Props.C34_empty_fails",
    "Grib.Props.C34_single_row_fails"
   ],
   "note": "acceptance is exact for non-empty grids with differences that fit 32 bits; false of the code otherwise: panics, and single rows are refused (_fails); C63 has every outcome"
  },
  {
   "property": "C35",
   "status": "partial",
   "theorems": [
    "Grib.Props.C35_bounded",
    "Grib.Props.C35_converged",
    "Grib.Props.C35_newton",
    "Grib.Props.C35_latitudes",
    "Grib.Props.C35_grid",
    "Grib.Props.C35_overflow_fails",
    "Grib.Props.C35_total_partial",
    "Grib.Props.C35_subset_fails"
   ],
   "note": "bounded, converged, count, order, Newton step of the Legendre polynomial proved; convergence of the floating-point search to distinct roots is not; panics for large numbers and ignores N (_fails); C65 proves convergence to the zeros in exact real arithmetic, C87 that in double precision a search that ends finds its own zero"
  },
  {
   "property": "C36",
   "status": "partial",
   "theorems": [
    "Grib.Props.C36_latlon",
    "Grib.Props.C36_gaussian",
    "Grib.Props.C36_polar",
    "Grib.Props.C36_lambert",
    "Grib.Props.C36_refused",
    "Grib.Props.C36_short_fails",
    "Grib.Props.C36_total_partial"
   ],
   "note": "fields and refusals proved; short sections panic (C36_short_fails); C63 has every outcome"
  },
  {
   "property": "C37",
   "status": "proved",
   "theorems": [
    "Grib.Props.C37_ij",
    "Grib.Props.C37_ij_count",
    "Grib.Props.C37_empty_fails",
    "Grib.Props.C37_latlons"
   ],
   "note": "for an empty grid the check passes but iteration does not stop (C37_empty_fails)"
  },
  {
   "property": "C38",
   "status": "proved",
   "theorems": [
    "Grib.Props.C38_identification",
    "Grib.Props.C38_grid_definition",
    "Grib.Props.C38_product_definition",
    "Grib.Props.C38_representation",
    "Grib.Props.C38_indicator",
    "Grib.Props.C38_short_body_is_error"
   ],
   "note": ""
  },
  {
   "property": "C39",
   "status": "partial",
   "theorems": [
    "Grib.Props.C39_parameter",
    "Grib.Props.C39_generating_process_partial",
    "Grib.Props.C39_generating_process_fails",
    "Grib.Props.C39_forecast_time_partial",
    "Grib.Props.C39_forecast_time_fails",
    "Grib.Props.C39_template_44_fails",
    "Grib.Props.C39_fixed_surfaces_partial",
    "Grib.Props.C39_fixed_surfaces_fails",
    "Grib.Props.C39_no_overlap"
   ],
   "note": "parameter proved; generating process except templates 47, 83, 254; forecast time except 44; panics on short sections (_fails); C64 has exactly which files"
  },
  {
   "property": "C40",
   "status": "proved",
   "theorems": [
    "Grib.Props.C40_code_injective",
    "Grib.Props.C40_code_octets",
    "Grib.Props.C40_identical_iff"
   ],
   "note": ""
  },
  {
   "property": "C41",
   "status": "proved",
   "theorems": [
    "Grib.Props.C41_missing_iff",
    "Grib.Props.C41_value",
    "Grib.Props.C41_time_unit"
   ],
   "note": "value with exact arithmetic"
  },
  {
   "property": "C42",
   "status": "proved",
   "theorems": [
    "Grib.C42_lookup",
    "Grib.C42_described",
    "Grib.C42_own_array",
    "Grib.C42_unsupported",
    "Grib.C42_display",
    "Grib.C42_reserved_fails",
    "Grib.Cli.C42_numbers",
    "Grib.Cli.C42_parameter_text"
   ],
   "note": "a reserved code before the last entry looks up as an empty text rather than unimplemented (C42_reserved_fails)"
  },
  {
   "property": "C43",
   "status": "partial",
   "theorems": [
    "Grib.Props.C43_radii_partial",
    "Grib.Props.C43_reserved",
    "Grib.Props.C43_fails"
   ],
   "note": "false of the code for scale factors other than 0 (C43_fails)"
  },
  {
   "property": "C44",
   "status": "proved",
   "theorems": [
    "Grib.C44_aligned",
    "Grib.C44_contiguous",
    "Grib.C44_sparse_fails",
    "Grib.C44_reversed_fails",
    "Grib.C44_column",
    "Grib.C44_grouping",
    "Grib.C44_interleaved_fails",
    "Grib.C44_subtitle",
    "Grib.C44_names",
    "Grib.C44_names_spelled",
    "Grib.C44_common_names",
    "Grib.C44_common_rows"
   ],
   "note": "sparse tables are given up, reversed ranges panic, interleaved categories keep the last group (_fails)"
  },
  {
   "property": "C45",
   "status": "proved",
   "theorems": [
    "Grib.C45_remapper",
    "Grib.C45_variants",
    "Grib.C45_try_from",
    "Grib.C45_code",
    "Grib.C45_identifier",
    "Grib.C45_merged_fails",
    "Grib.C45_repeated_fails",
    "Grib.C45_centres_fails",
    "Grib.C45_documentation",
    "Grib.C45_file"
   ],
   "note": "repeated lines, two centres sharing a local code and names differing in - and _ are witnesses of failure outside the hypothesis (_fails)"
  },
  {
   "property": "C46",
   "status": "proved",
   "theorems": [
    "Grib.Cli.C46_accepts",
    "Grib.Cli.C46_rejects",
    "Grib.Cli.C46_overflow_fails",
    "Grib.Cli.C46_round_trip",
    "Grib.Cli.C46_distinct",
    "Grib.Cli.C46_selects",
    "Grib.Cli.C46_absent"
   ],
   "note": "numbers that do not fit a machine word panic (C46_overflow_fails)"
  },
  {
   "property": "C47",
   "status": "proved",
   "theorems": [
    "Grib.Props.C47_stream",
    "Grib.Props.C47_concatenation",
    "Grib.Props.C47_ceiling",
    "Grib.Props.C47_errors",
    "Grib.Props.C47_values",
    "Grib.Props.C47_subsampled_fails",
    "Grib.Props.C47_png",
    "Grib.Props.C47_outcome"
   ],
   "note": "OpenJPEG is an arbitrary interactive program"
  },
  {
   "property": "C48",
   "status": "proved",
   "theorems": [
    "Grib.Props.C48_search_terminates",
    "Grib.Props.C48_sections_bounded"
   ],
   "note": "termination is non-exhaustion of the explicit fuel"
  },
  {
   "property": "C49",
   "status": "proved",
   "theorems": [
    "Grib.Props.C49_own_sections",
    "Grib.Props.C49_written_file",
    "Grib.Props.C49_simple"
   ],
   "note": ""
  },
  {
   "property": "C50",
   "status": "proved",
   "theorems": [
    "Grib.Props.C50_any_history"
   ],
   "note": ""
  },
  {
   "property": "C51",
   "status": "proved",
   "theorems": [
    "Grib.Props.C51_lambert",
    "Grib.Props.C51_polar",
    "Grib.Props.C51_direction",
    "Grib.Props.C51_refused",
    "Grib.Props.C51_bipolar_ignored_fails"
   ],
   "note": "the proj library is an arbitrary pointwise projection; a bipolar flag is ignored (C51_bipolar_ignored_fails)"
  },
  {
   "property": "C52",
   "status": "partial",
   "theorems": [
    "Grib.Cli.C52_prefix",
    "Grib.Cli.C52_complete",
    "Grib.Cli.C52_success_partial",
    "Grib.Cli.C52_silent_loss_fails",
    "Grib.Cli.C52_octets"
   ],
   "note": "false of the code: a failing final flush is ignored and success reported (C52_silent_loss_fails); proved: prefix always, complete on benign schedules, complete on success when the buffer was flushed"
  },
  {
   "property": "C53",
   "status": "proved",
   "theorems": [
    "Grib.Cli.C53_text",
    "Grib.Cli.C53_text_succeeds",
    "Grib.Cli.C53_binary",
    "Grib.Cli.C53_no_such_index",
    "Grib.Cli.C53_binary_fails"
   ],
   "note": "coordinates that panic also stop the binary export (C53_binary_fails)"
  },
  {
   "property": "C54",
   "status": "proved",
   "theorems": [
    "Grib.Cli.C54_values",
    "Grib.Cli.C54_text",
    "Grib.Cli.C54_describe_panics_iff",
    "Grib.Cli.C54_list_row",
    "Grib.Cli.C54_list_fails"
   ],
   "note": "list panics when more values are stated than points (C54_list_fails)"
  },
  {
   "property": "C55",
   "status": "proved",
   "theorems": [
    "Grib.Cli.C55_blocks",
    "Grib.Cli.C55_count",
    "Grib.Cli.C55_succeeds"
   ],
   "note": "chrono decides which reference times are valid (parameter)"
  },
  {
   "property": "C56",
   "status": "proved",
   "theorems": [
    "Grib.Cli.C56_hex",
    "Grib.Cli.C56_sections",
    "Grib.Cli.C56_submessages",
    "Grib.Cli.C56_cells",
    "Grib.Cli.C56_templates"
   ],
   "note": ""
  },
  {
   "property": "C57",
   "status": "partial",
   "theorems": [
    "Grib.Cli.C57_list",
    "Grib.Cli.C57_dump_fails",
    "Grib.Cli.C57_inspect",
    "Grib.Cli.C57_inspect_fails",
    "Grib.Cli.C57_decode"
   ],
   "note": "exact for list, decode with known coordinates, inspect without submessages; wrong for list --dump and inspect with submessages (_fails)"
  },
  {
   "property": "C58",
   "status": "proved",
   "theorems": [
    "Grib.Props.C58_ref_time",
    "Grib.Props.C58_order",
    "Grib.Props.C58_submessage"
   ],
   "note": "chrono modelled after its documentation"
  },
  {
   "property": "C59",
   "status": "proved",
   "theorems": [
    "Grib.Props.C59_opens_iff",
    "Grib.Props.C59_panics_iff",
    "Grib.Props.C59_unique"
   ],
   "note": "for readers without failures whose short reads deliver at least 16 octets"
  },
  {
   "property": "C60",
   "status": "proved",
   "theorems": [
    "Grib.Props.C60_reference",
    "Grib.Props.C60_reference_total",
    "Grib.Props.C60_constant_sign",
    "Grib.Props.C60_nan",
    "Grib.Props.C60_levels",
    "Grib.Props.C60_same_shape",
    "Grib.Props.C60_close",
    "Grib.Props.C60_order",
    "Grib.Props.C60_no_rounding",
    "Grib.Props.C60_powers",
    "Grib.Props.C60_large_exponent_fails",
    "Grib.Props.C60_small_exponent_fails"
   ],
   "note": "IEEE-754 arithmetic on values; powi is a parameter with a stated precision, compiler-rt evaluated over the whole stated ranges; outside: NaN instead of R for E >= 128, 0 instead of 2^E for E < -127 (_fails)"
  },
  {
   "property": "C61",
   "status": "proved",
   "theorems": [
    "Grib.Props.C61_latitudes",
    "Grib.Props.C61_latitude_order",
    "Grib.Props.C61_longitudes",
    "Grib.Props.C61_gaussian_longitudes",
    "Grib.Props.C61_points",
    "Grib.Props.C61_distinct_rows",
    "Grib.Props.C61_longitude_order",
    "Grib.Props.C61_ranges",
    "Grib.Props.C61_collapse_fails",
    "Grib.Props.C61_single_line"
   ],
   "note": "IEEE-754 single precision as in C60 (no powers involved); single rows and columns and the eastward full circle are excluded, see C33"
  },
  {
   "property": "C62",
   "status": "proved",
   "theorems": [
    "Grib.Props.C62_items",
    "Grib.Props.C62_panics",
    "Grib.Props.C62_exact_count",
    "Grib.Props.C62_simple",
    "Grib.Props.C62_hint",
    "Grib.Props.C62_not_fused"
   ],
   "note": "states exactly when the count deviates from the number of points (C22)"
  },
  {
   "property": "C63",
   "status": "proved",
   "theorems": [
    "Grib.Props.C63_latlon",
    "Grib.Props.C63_gaussian",
    "Grib.Props.C63_lambert",
    "Grib.Props.C63_polar",
    "Grib.Props.C63_definition",
    "Grib.Props.C63_octets",
    "Grib.Props.C63_order",
    "Grib.Props.C63_coordinates",
    "Grib.Props.C63_submessage",
    "Grib.Props.C63_without_projections"
   ],
   "note": "panics are those of checked (debug) arithmetic; collecting points that never end is modelled as a panic"
  },
  {
   "property": "C64",
   "status": "proved",
   "theorems": [
    "Grib.Cli.C64_time",
    "Grib.Cli.C64_surfaces",
    "Grib.Cli.C64_others",
    "Grib.Cli.C64_describe",
    "Grib.Cli.C64_grid_type",
    "Grib.Cli.C64_list_row",
    "Grib.Cli.C64_list",
    "Grib.Cli.C64_dump"
   ],
   "note": "Equivalences in terms of the octets; complements C39, C54 and C63, whose failures they delimit exactly."
  },
  {
   "property": "C65",
   "status": "proved",
   "theorems": [
    "Grib.Props.C65_zeros",
    "Grib.Props.C65_search",
    "Grib.Props.C65_latitudes",
    "Grib.Props.C65_grid"
   ],
   "note": "Exact real arithmetic; C87 is the same with the rounding errors of f64."
  },
  {
   "property": "C66",
   "status": "proved",
   "theorems": [
    "Grib.Cli.C66_time",
    "Grib.Cli.C66_time_description",
    "Grib.Cli.C66_unit",
    "Grib.Cli.C66_surface",
    "Grib.Cli.C66_grid_type",
    "Grib.Cli.C66_cells",
    "Grib.Cli.C66_line",
    "Grib.Cli.C66_parts"
   ],
   "note": "Texts of code tables are parameters (C42, C44)."
  },
  {
   "property": "C67",
   "status": "proved",
   "theorems": [
    "Grib.Props.C67_outcome",
    "Grib.Props.C67_ends",
    "Grib.Props.C67_round_trip"
   ],
   "note": "Complements C25 and C26, which are false of the code as stated.  Memory exhaustion below the address space limit is not modelled."
  },
  {
   "property": "C68",
   "status": "proved",
   "theorems": [
    "Grib.Props.C68_outcome2",
    "Grib.Props.C68_outcome3",
    "Grib.Props.C68_all2",
    "Grib.Props.C68_all3",
    "Grib.Props.C68_as_stored"
   ],
   "note": "Complements C27 to C30, which are about data that a correct packer writes."
  },
  {
   "property": "C69",
   "status": "proved",
   "theorems": [
    "Grib.Props.C69_simple",
    "Grib.Props.C69_png",
    "Grib.Props.C69_jpeg",
    "Grib.Props.C69_values",
    "Grib.Props.C69_points",
    "Grib.Props.C69_submessage",
    "Grib.Props.C69_errors"
   ],
   "note": "The cases of templates 5.2, 5.3 and 5.200 are those of C68 and C67.  What the png crate and OpenJPEG make of section 7 is a parameter (C47 for the stream handed to OpenJPEG)."
  },
  {
   "property": "C70",
   "status": "proved",
   "theorems": [
    "Grib.Props.C70_opened",
    "Grib.Props.C70_reachable",
    "Grib.Props.C70_prefix",
    "Grib.Props.C70_panics",
    "Grib.Props.C70_decoded"
   ],
   "note": "What a disturbed reader can make of the data, exactly; C07 keeps the stronger wish (the undisturbed result always), which is false."
  },
  {
   "property": "C71",
   "status": "proved",
   "theorems": [
    "Grib.Props.C71_surface_value",
    "Grib.Props.C71_powers",
    "Grib.Props.C71_surface_missing",
    "Grib.Props.C71_surface_distinct",
    "Grib.Props.C71_scaling_fails",
    "Grib.Props.C71_degrees",
    "Grib.Props.C71_lambert",
    "Grib.Props.C71_polar",
    "Grib.Props.C71_radii"
   ],
   "note": "IEEE-754 binary64 with round to nearest even; the powers (powi, powf) are parameters with a bound on their error, and compiler-rt's powi is shown to meet it. PROJ and the trigonometric conversions are parameters."
  },
  {
   "property": "C72",
   "status": "proved",
   "theorems": [
    "Grib.Props.C72_session",
    "Grib.Props.C72_after_iter",
    "Grib.Props.C72_after_nth",
    "Grib.Props.C72_copy",
    "Grib.Props.C72_kept"
   ],
   "note": "What the iterators do, exactly, for every history; C18 keeps the stronger wish for nth and size_hint, which is false. The program is assumed to go on after a panic (catch_unwind)."
  },
  {
   "property": "C73",
   "status": "proved",
   "theorems": [
    "Grib.Cli.C73_export",
    "Grib.Cli.C73_success_iff",
    "Grib.Cli.C73_silent_loss_iff",
    "Grib.Cli.C73_small_always_succeeds"
   ],
   "note": "What the export does, exactly; C52 keeps the stronger wish (failures are always reported), which is false. Models BufWriter of std with its default capacity; ErrorKind::Interrupted is not modelled."
  },
  {
   "property": "C74",
   "status": "proved",
   "theorems": [
    "Grib.Cli.C74_list",
    "Grib.Cli.C74_dump",
    "Grib.Cli.C74_dump_pager",
    "Grib.Cli.C74_inspect_text",
    "Grib.Cli.C74_inspect",
    "Grib.Cli.C74_inspect_pager",
    "Grib.Cli.C74_info",
    "Grib.Cli.C74_time",
    "Grib.Cli.C74_decode",
    "Grib.Cli.C74_headers",
    "Grib.Cli.C74_inspect_line",
    "Grib.Cli.C74_info_fields"
   ],
   "note": "What is printed and announced, exactly; C57 keeps the wish that the announced number is right, which is false. Colours and the terminal's line wrapping are not modelled; float formatting is a parameter; chrono's Display is modelled after its documentation."
  },
  {
   "property": "C75",
   "status": "proved",
   "theorems": [
    "Grib.Props.C75_calls",
    "Grib.Props.C75_stops",
    "Grib.Props.C75_latlon",
    "Grib.Props.C75_gaussian"
   ],
   "note": "What the iterators do, exactly; C32 keeps the wish that they always stop, which is false."
  },
  {
   "property": "C76",
   "status": "proved",
   "theorems": [
    "Grib.Props.C76_right_iff",
    "Grib.Props.C76_gaussian_iff",
    "Grib.Props.C76_full_circle"
   ],
   "note": "Exact arithmetic; C33 keeps the wish that coordinates are always right, which is false; C61 has single precision."
  },
  {
   "property": "C77",
   "status": "proved",
   "theorems": [
    "Grib.Props.C77_sections",
    "Grib.Props.C77_opens_iff",
    "Grib.Props.C77_listing",
    "Grib.Props.C77_decoding",
    "Grib.Props.C77_panics",
    "Grib.Props.C77_junction"
   ],
   "note": "What the octets say at a place is carried over to the joined file; the converse uses that the walk through a file has no choice."
  },
  {
   "property": "C78",
   "status": "proved",
   "theorems": [
    "Grib.Props.C78_locality",
    "Grib.Props.C78_headers"
   ],
   "note": ""
  },
  {
   "property": "C79",
   "status": "proved",
   "theorems": [
    "Grib.Props.C79_opening",
    "Grib.Props.C79_decoding"
   ],
   "note": ""
  },
  {
   "property": "C80",
   "status": "proved",
   "theorems": [
    "Grib.Props.C80_opening",
    "Grib.Props.C80_opening_any",
    "Grib.Props.C80_decoding"
   ],
   "note": "std's BufReader is not modelled: calls are those made to the object given to the library."
  },
  {
   "property": "C81",
   "status": "proved",
   "theorems": [
    "Grib.Props.C81_written_fields",
    "Grib.Props.C81_exact",
    "Grib.Props.C81_every_sequence",
    "Grib.Props.C81_single"
   ],
   "note": "Complex packings are written with one group per point; arbitrary groups are C27 to C29. The surplus values behind a bitmap are those of C22."
  },
  {
   "property": "C82",
   "status": "proved",
   "theorems": [
    "Grib.Props.C82_same",
    "Grib.Props.C82_success",
    "Grib.Props.C82_ends",
    "Grib.Props.C82_panics",
    "Grib.Props.C82_error",
    "Grib.Props.C82_faithful",
    "Grib.Props.C82_overlap",
    "Grib.Props.C82_still_panics",
    "Grib.Props.C82_no_panic",
    "Grib.Props.C82_endless_stream"
   ],
   "note": "Data of 2^63 octets or more are excluded. The allocation of a buffer of less than 2^63 octets is taken to succeed."
  },
  {
   "property": "C83",
   "status": "proved",
   "theorems": [
    "Grib.Props.C83_same",
    "Grib.Props.C83_points_before_panic",
    "Grib.Props.C83_submessage",
    "Grib.Props.C83_values",
    "Grib.Props.C83_order1",
    "Grib.Props.C83_order2",
    "Grib.Props.C83_no_groups",
    "Grib.Props.C83_doubles",
    "Grib.Props.C83_zero_missing_fails",
    "Grib.Props.C83_sixteen_bits_fails",
    "Grib.Props.C83_greatest_maximum",
    "Grib.Props.C83_never_ends",
    "Grib.Props.C83_short_section7",
    "Grib.Props.C83_overlap_panics",
    "Grib.Props.C83_size_hint",
    "Grib.Props.C83_jpeg",
    "Grib.Props.C83_jpeg_large_fails"
   ],
   "note": "The claims about values beyond a debug build's panic are for complex packing whose sizes fit (Rel.Fits); for run lengths they are witnesses. The JPEG 2000 and PNG decoders are parameters."
  },
  {
   "property": "C84",
   "status": "proved",
   "theorems": [
    "Grib.Props.C84_rows_double",
    "Grib.Props.C84_same",
    "Grib.Props.C84_index_iterator",
    "Grib.Props.C84_order",
    "Grib.Props.C84_hint_fails",
    "Grib.Props.C84_latlon",
    "Grib.Props.C84_gaussian",
    "Grib.Props.C84_panics",
    "Grib.Props.C84_empty_fails",
    "Grib.Props.C84_no_rows",
    "Grib.Props.C84_longitudes_fails",
    "Grib.Props.C84_rows",
    "Grib.Props.C84_submessages",
    "Grib.Props.C84_list_dump",
    "Grib.Props.C84_list_lines"
   ],
   "note": "That multiples of 2^21 rows are refused is for exact arithmetic, with division by zero not a number. Projected grids are those of the debug model (their index iterator has no overflow, C84_index_iterator). Memory is not modelled: 2^32 coordinates are 16 GiB."
  },
  {
   "property": "C85",
   "status": "proved",
   "theorems": [
    "Grib.Props.C85_same",
    "Grib.Props.C85_opening_any",
    "Grib.Props.C85_opening",
    "Grib.Props.C85_amplified",
    "Grib.Props.C85_decoding",
    "Grib.Props.C85_runs"
   ],
   "note": "Buffers for octets of the file and the decoder's own; the vectors of sections and submessages and what decoding of complex packing collects are not counted. The code reads lazily and stops at the first error, so that when opening fails it requests a prefix of the buffers counted."
  },
  {
   "property": "C86",
   "status": "proved",
   "theorems": [
    "Grib.Cli.C86_open",
    "Grib.Cli.C86_list",
    "Grib.Cli.C86_list_missing_fails",
    "Grib.Cli.C86_text",
    "Grib.Cli.C86_binary",
    "Grib.Cli.C86_program",
    "Grib.Cli.C86_text_fails",
    "Grib.Cli.C86_list_example"
   ],
   "note": "C86_text_fails and C86_list_example: a file on which a debug build panics and a release build prints longitudes that are not in the file, and one for which `list` shows 4294967295 missing points of 4."
  },
  {
   "property": "C87",
   "status": "proved",
   "theorems": [
    "Grib.Props.C87_latitudes",
    "Grib.Props.C87_one_row",
    "Grib.Props.C87_grid"
   ],
   "note": "That every search ends in double precision is not claimed (and is not part of the statement): the tolerance of the code, 2^-52, is below the provable bound for the rounding errors of a step. A simulation of the loop in C with the same operations ends for all n up to 2600, with at most 4 evaluations."
  },
  {
   "property": "C88",
   "status": "proved",
   "theorems": [
    "Grib.Props.C88_opens",
    "Grib.Props.C88_follows",
    "Grib.Props.C88_only",
    "Grib.Props.C88_payload",
    "Grib.Props.C88_ends",
    "Grib.Props.C88_wrapped",
    "Grib.Props.C88_panics"
   ],
   "note": "Arithmetic of a debug build. Allocation of up to 2^31 - 1 octets is taken to succeed."
  },
  {
   "property": "C89",
   "status": "proved",
   "theorems": [
    "Grib.Demo.C89_palette",
    "Grib.Demo.C89_not_numbers",
    "Grib.Demo.C89_missing_fails",
    "Grib.Demo.C89_picture",
    "Grib.Demo.C89_rows",
    "Grib.Demo.C89_listing_panics",
    "Grib.Demo.C89_dropped",
    "Grib.Demo.C89_right_iff",
    "Grib.Demo.C89_bitmap_fails",
    "Grib.Demo.C89_columns_fails"
   ],
   "note": "The constructor of ImageData follows the HTML standard (external code); 64-bit usize as in the rest of the model; HTML and events are not modelled."
  },
  {
   "property": "C90",
   "status": "proved",
   "theorems": [
    "Grib.Props.C90_follows",
    "Grib.Props.C90_points_before_panic",
    "Grib.Props.C90_values",
    "Grib.Props.C90_same",
    "Grib.Props.C90_refused",
    "Grib.Props.C90_submessage",
    "Grib.Props.C90_grid_follows",
    "Grib.Props.C90_ij",
    "Grib.Props.C90_gaussian_rows",
    "Grib.Props.C90_latlons",
    "Grib.Props.C90_run_length_fails",
    "Grib.Props.C90_group_fails",
    "Grib.Props.C90_bitmap_fails",
    "Grib.Props.C90_count_fails",
    "Grib.Props.C90_gaussian_fails"
   ],
   "note": "Growing a vector is a parameter: it succeeds up to 2^30 octets and never beyond 2^31 - 1. Running out of memory is not modelled. Witnesses for each limit are among the theorems; 813 rows exclude common Gaussian grids such as F640."
  },
  {
   "property": "C91",
   "status": "proved",
   "theorems": [
    "Grib.Examples.C91_find",
    "Grib.Examples.C91_list",
    "Grib.Examples.C91_pulled",
    "Grib.Examples.C91_decode",
    "Grib.Examples.C91_decode_errors",
    "Grib.Examples.C91_check",
    "Grib.Examples.C91_check_files",
    "Grib.Examples.C91_unopened",
    "Grib.Examples.C91_open_panics",
    "Grib.Examples.C91_arguments",
    "Grib.Examples.C91_list_satellite"
   ],
   "note": "Opening files by name, failures of standard output and the usage message are not modelled."
  },
  {
   "property": "C92",
   "status": "proved",
   "theorems": [
    "Grib.Cli.C92_decode",
    "Grib.Cli.C92_export",
    "Grib.Cli.C92_list",
    "Grib.Cli.C92_list_status",
    "Grib.Cli.C92_inspect",
    "Grib.Cli.C92_info",
    "Grib.Cli.C92_unopened",
    "Grib.Cli.C92_silent",
    "Grib.Cli.C92_messages"
   ],
   "note": "Parsing of the command line, opening and creating files by name, failures of standard output, colours and the pager are not modelled; a panic is status 101 as the standard runtime does."
  },
  {
   "property": "C93",
   "status": "proved",
   "theorems": [
    "Grib.Props.C93_same",
    "Grib.Props.C93_opens_iff",
    "Grib.Props.C93_opens_64",
    "Grib.Props.C93_ends",
    "Grib.Props.C93_panics",
    "Grib.Props.C93_errors",
    "Grib.Props.C93_overlap",
    "Grib.Props.C93_short_section"
   ],
   "note": "Running out of memory below the limit of 2^31 octets per buffer is not modelled."
  },
  {
   "property": "C94",
   "status": "proved",
   "theorems": [
    "Grib.Props.C94_same",
    "Grib.Props.C94_points_before_panic",
    "Grib.Props.C94_values",
    "Grib.Props.C94_release",
    "Grib.Props.C94_run_length",
    "Grib.Props.C94_submessage",
    "Grib.Props.C94_grids",
    "Grib.Props.C94_order",
    "Grib.Props.C94_count",
    "Grib.Props.C94_count_fails",
    "Grib.Props.C94_latlon",
    "Grib.Props.C94_gaussian",
    "Grib.Props.C94_rows",
    "Grib.Props.C94_group_fails"
   ],
   "note": "Growing vectors are a parameter of which only is assumed that 2^30 octets are always possible and 2^31 never."
  },
  {
   "property": "C95",
   "status": "proved",
   "theorems": [
    "Grib.Demo.C95_dropped",
    "Grib.Demo.C95_row",
    "Grib.Demo.C95_listing",
    "Grib.Demo.C95_picture",
    "Grib.Demo.C95_jpeg",
    "Grib.Demo.C95_same",
    "Grib.Demo.C95_jpeg_fails",
    "Grib.Demo.C95_missing_fails"
   ],
   "note": "HTML, events and the canvas are not modelled. Growing vectors are a parameter of which only is assumed that 2^30 octets are always possible and 2^31 never."
  },
  {
   "property": "C96",
   "status": "proved",
   "theorems": [
    "Grib.Msg.C96_same",
    "Grib.Msg.C96_coordinates",
    "Grib.Msg.C96_errors",
    "Grib.Msg.C96_failures",
    "Grib.Msg.C96_stderr",
    "Grib.Msg.C96_info",
    "Grib.Msg.C96_date",
    "Grib.Msg.C96_warning",
    "Grib.Msg.C96_warnings",
    "Grib.Msg.C96_unexpected",
    "Grib.Msg.C96_decode",
    "Grib.Msg.C96_refuses"
   ],
   "note": "Without colours and messages of clap. The projection library is assumed to return as many points as it gets."
  },
  {
   "property": "C97",
   "status": "proved",
   "theorems": [
    "Grib.Cli.C97_points",
    "Grib.Cli.C97_decode",
    "Grib.Cli.C97_export",
    "Grib.Cli.C97_list_row",
    "Grib.Cli.C97_list",
    "Grib.Cli.C97_dump_same",
    "Grib.Cli.C97_list_status",
    "Grib.Cli.C97_info",
    "Grib.Cli.C97_inspect",
    "Grib.Cli.C97_info_inspect",
    "Grib.Cli.C97_unopened"
   ],
   "note": "Includes files that open only in a release build (because a debug build panics at a senseless section length)."
  },
  {
   "property": "C98",
   "status": "proved",
   "theorems": [
    "Grib.Msg.C98_same",
    "Grib.Msg.C98_debug",
    "Grib.Msg.C98_coordinates",
    "Grib.Msg.C98_refuses",
    "Grib.Msg.C98_stderr",
    "Grib.Msg.C98_info",
    "Grib.Msg.C98_warnings",
    "Grib.Msg.C98_unexpected",
    "Grib.Msg.C98_decode",
    "Grib.Msg.C98_latitudes_fails"
   ],
   "note": "`C98_latitudes_fails` shows the wrong message. The statement about exit statuses rests on C97; texts of the operating system, of the PNG decoder and of the projection library are parameters."
  }
 ]
}