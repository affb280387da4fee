{
 "claims": [
  {
   "property": "C01",
   "status": "proved",
   "theorems": [
    "Rfc5322.Props.C01_empty_address_list",
    "Rfc5322.Props.C01_empty_date"
   ],
   "note": ""
  },
  {
   "property": "C02",
   "status": "proved",
   "theorems": [
    "Rfc5322.Props.C02_addresses_never_panic",
    "Rfc5322.Props.C02_dates_never_panic"
   ],
   "note": ""
  },
  {
   "property": "C03",
   "status": "proved",
   "theorems": [
    "Rfc5322.Props.C03_addresses_result_or_error",
    "Rfc5322.Props.C03_dates_result_or_error",
    "Rfc5322.Props.C03_address_trees_never_fail",
    "Rfc5322.Props.C03_date_trees_never_fail"
   ],
   "note": ""
  },
  {
   "property": "C04",
   "status": "proved",
   "theorems": [
    "Rfc5322.Props.C04_accepts_exactly_the_address_lists",
    "Rfc5322.Props.C04_acceptance_is_absolute"
   ],
   "note": ""
  },
  {
   "property": "C05",
   "status": "proved",
   "theorems": [
    "Rfc5322.Props.C05_accepts_exactly_the_date_times"
   ],
   "note": ""
  },
  {
   "property": "C06",
   "status": "proved",
   "theorems": [
    "Rfc5322.Props.C06_addresses_are_a_reading"
   ],
   "note": ""
  },
  {
   "property": "C07",
   "status": "proved",
   "theorems": [
    "Rfc5322.Props.C07_predictor_irrelevant",
    "Rfc5322.Props.C07_addresses_prefer_earlier_alternatives",
    "Rfc5322.Props.C07_dates_prefer_earlier_alternatives"
   ],
   "note": ""
  },
  {
   "property": "C08",
   "status": "proved",
   "theorems": [
    "Rfc5322.Props.C08_astral_characters_are_ignored",
    "Rfc5322.Props.C08_inserting_one"
   ],
   "note": ""
  },
  {
   "property": "C09",
   "status": "proved",
   "theorems": [
    "Rfc5322.Props.C09_reading_is_total_and_unique",
    "Rfc5322.Props.C09_well_formed",
    "Rfc5322.Props.C09_only_the_text_counts"
   ],
   "note": ""
  },
  {
   "property": "C10",
   "status": "proved",
   "theorems": [
    "Rfc5322.Props.C10_bare_address_verbatim"
   ],
   "note": ""
  },
  {
   "property": "C11",
   "status": "proved",
   "theorems": [
    "Rfc5322.Props.C11_atoms_joined_by_spaces",
    "Rfc5322.Props.C11_words_in_general"
   ],
   "note": ""
  },
  {
   "property": "C12",
   "status": "proved",
   "theorems": [
    "Rfc5322.Props.C12_quoted_names",
    "Rfc5322.Props.C12_any_quoted_string"
   ],
   "note": ""
  },
  {
   "property": "C13",
   "status": "proved",
   "theorems": [
    "Rfc5322.Props.C13_lists_in_order",
    "Rfc5322.Props.C13_on_its_own",
    "Rfc5322.Props.C13_concatenation"
   ],
   "note": ""
  },
  {
   "property": "C14",
   "status": "proved",
   "theorems": [
    "Rfc5322.Props.C14_leading_commas",
    "Rfc5322.Props.C14_empty_items",
    "Rfc5322.Props.C14_trailing_semicolon"
   ],
   "note": ""
  },
  {
   "property": "C15",
   "status": "proved",
   "theorems": [
    "Rfc5322.Props.C15_groups_are_flattened",
    "Rfc5322.Props.C15_semicolon_optional",
    "Rfc5322.Props.C15_group_name_is_irrelevant",
    "Rfc5322.Props.C15_groups_in_lists"
   ],
   "note": ""
  },
  {
   "property": "C16",
   "status": "proved",
   "theorems": [
    "Rfc5322.Props.C16_bare",
    "Rfc5322.Props.C16_angle"
   ],
   "note": ""
  },
  {
   "property": "C17",
   "status": "proved",
   "theorems": [
    "Rfc5322.Props.C17_routes_are_ignored"
   ],
   "note": ""
  },
  {
   "property": "C18",
   "status": "proved",
   "theorems": [
    "Rfc5322.Props.C18_ports",
    "Rfc5322.Props.C18_literals"
   ],
   "note": ""
  },
  {
   "property": "C19",
   "status": "proved",
   "theorems": [
    "Rfc5322.Props.C19_null_address"
   ],
   "note": ""
  },
  {
   "property": "C20",
   "status": "proved",
   "theorems": [
    "Rfc5322.Props.C20_encoded_words"
   ],
   "note": ""
  },
  {
   "property": "C21",
   "status": "proved",
   "theorems": [
    "Rfc5322.Props.C21_plain_words_are_rejected"
   ],
   "note": ""
  },
  {
   "property": "C22",
   "status": "proved",
   "theorems": [
    "Rfc5322.Props.C22_line_ends_in_addresses",
    "Rfc5322.Props.C22_addresses_ending_in_a_line_end",
    "Rfc5322.Props.C22_line_ends_in_dates",
    "Rfc5322.Props.C22_dates_ending_in_a_line_end"
   ],
   "note": ""
  },
  {
   "property": "C23",
   "status": "proved",
   "theorems": [
    "Rfc5322.Props.C23_results_are_subsequences"
   ],
   "note": ""
  },
  {
   "property": "C24",
   "status": "proved",
   "theorems": [
    "Rfc5322.Props.C24_shape_of_addresses"
   ],
   "note": ""
  },
  {
   "property": "C25",
   "status": "proved",
   "theorems": [
    "Rfc5322.Props.C25_number_of_results",
    "Rfc5322.Props.C25_at_least_one"
   ],
   "note": ""
  },
  {
   "property": "C26",
   "status": "proved",
   "theorems": [
    "Rfc5322.Props.C26_no_angle_no_name"
   ],
   "note": ""
  },
  {
   "property": "C27",
   "status": "proved",
   "theorems": [
    "Rfc5322.Props.C27_quoted_local_parts",
    "Rfc5322.Props.C27_no_trailing_space",
    "Rfc5322.Props.C27_not_idempotent",
    "Rfc5322.Props.C27_injection"
   ],
   "note": ""
  },
  {
   "property": "C28",
   "status": "proved",
   "theorems": [
    "Rfc5322.Props.C28_where_bytes_come_from",
    "Rfc5322.Props.C28_no_line_breaks_in_results",
    "Rfc5322.Props.C28_folding_is_kept"
   ],
   "note": ""
  },
  {
   "property": "C29",
   "status": "proved",
   "theorems": [
    "Rfc5322.Props.C29_one_reading",
    "Rfc5322.Props.C29_result_is_the_reading",
    "Rfc5322.Props.C29_success_has_a_reading"
   ],
   "note": ""
  },
  {
   "property": "C30",
   "status": "proved",
   "theorems": [
    "Rfc5322.Props.C30_canonical_dates_round_trip"
   ],
   "note": ""
  },
  {
   "property": "C31",
   "status": "proved",
   "theorems": [
    "Rfc5322.Props.C31_any_day_name",
    "Rfc5322.Props.C31_day_name_removed",
    "Rfc5322.Props.C31_day_name_added"
   ],
   "note": ""
  },
  {
   "property": "C32",
   "status": "proved",
   "theorems": [
    "Rfc5322.Props.C32_seconds_default",
    "Rfc5322.Props.C32_zone_default"
   ],
   "note": ""
  },
  {
   "property": "C33",
   "status": "proved",
   "theorems": [
    "Rfc5322.Props.C33_two_digit_years",
    "Rfc5322.Props.C33_four_digit_years",
    "Rfc5322.Props.C33_only_the_year_modulo_100"
   ],
   "note": ""
  },
  {
   "property": "C34",
   "status": "proved",
   "theorems": [
    "Rfc5322.Props.C34_numeric_zones"
   ],
   "note": ""
  },
  {
   "property": "C35",
   "status": "proved",
   "theorems": [
    "Rfc5322.Props.C35_named_zones",
    "Rfc5322.Props.C35_other_zones_are_errors"
   ],
   "note": ""
  },
  {
   "property": "C36",
   "status": "proved",
   "theorems": [
    "Rfc5322.Props.C36_letter_case",
    "Rfc5322.Props.C36_names_in_any_case"
   ],
   "note": ""
  },
  {
   "property": "C37",
   "status": "proved",
   "theorems": [
    "Rfc5322.Props.C37_out_of_range_fields_count_on"
   ],
   "note": ""
  },
  {
   "property": "C38",
   "status": "proved",
   "theorems": [
    "Rfc5322.Props.C38_comments_are_invisible"
   ],
   "note": ""
  },
  {
   "property": "C39",
   "status": "proved",
   "theorems": [
    "Rfc5322.Props.C39_calendar_arithmetic",
    "Rfc5322.Props.C39_counting",
    "Rfc5322.Props.C39_any_date"
   ],
   "note": ""
  },
  {
   "property": "C40",
   "status": "proved",
   "theorems": [
    "Rfc5322.Props.C40_address_calls_are_independent",
    "Rfc5322.Props.C40_date_calls_are_independent"
   ],
   "note": ""
  },
  {
   "property": "C41",
   "status": "proved",
   "theorems": [
    "Rfc5322.Props.C41_one_result_per_item",
    "Rfc5322.Props.C41_empty_items_and_semicolons"
   ],
   "note": ""
  },
  {
   "property": "C42",
   "status": "proved",
   "theorems": [
    "Rfc5322.Props.C42_utf8_names"
   ],
   "note": ""
  },
  {
   "property": "C43",
   "status": "proved",
   "theorems": [
    "Rfc5322.Props.C43_names_are_arbitrary"
   ],
   "note": ""
  },
  {
   "property": "C44",
   "status": "proved",
   "theorems": [
    "Rfc5322.Props.C44_latin1",
    "Rfc5322.Props.C44_ascii",
    "Rfc5322.Props.C44_other_charsets",
    "Rfc5322.Props.C44_undecodable"
   ],
   "note": ""
  },
  {
   "property": "C45",
   "status": "proved",
   "theorems": [
    "Rfc5322.Props.C45_decoder_only_sees_encoded_words",
    "Rfc5322.Props.C45_no_encoded_word",
    "Rfc5322.Props.C45_known_charsets"
   ],
   "note": ""
  },
  {
   "property": "C46",
   "status": "proved",
   "theorems": [
    "Rfc5322.Props.C46_string_is_read_back",
    "Rfc5322.Props.C46_read_back_exact",
    "Rfc5322.Props.C46_lists_are_read_back",
    "Rfc5322.Props.C46_results_are_read_back"
   ],
   "note": ""
  },
  {
   "property": "C47",
   "status": "proved",
   "theorems": [
    "Rfc5322.Props.C47_items_are_independent",
    "Rfc5322.Props.C47_one_bad_item",
    "Rfc5322.Props.C47_items_together",
    "Rfc5322.Props.C47_concatenation"
   ],
   "note": ""
  },
  {
   "property": "C48",
   "status": "proved",
   "theorems": [
    "Rfc5322.Props.C48_everything_is_closed",
    "Rfc5322.Props.C48_pieces_are_closed"
   ],
   "note": ""
  },
  {
   "property": "C49",
   "status": "proved",
   "theorems": [
    "Rfc5322.Props.C49_obsolete_local_parts",
    "Rfc5322.Props.C49_in_angle_brackets",
    "Rfc5322.Props.C49_addresses_are_arbitrary"
   ],
   "note": ""
  },
  {
   "property": "C50",
   "status": "proved",
   "theorems": [
    "Rfc5322.Props.C50_punctuated_names",
    "Rfc5322.Props.C50_abbreviated_names",
    "Rfc5322.Props.C50_abbreviated_group_names"
   ],
   "note": ""
  },
  {
   "property": "C51",
   "status": "proved",
   "theorems": [
    "Rfc5322.Props.C51_addresses_in_any_schedule",
    "Rfc5322.Props.C51_steady_reader",
    "Rfc5322.Props.C51_outcome_in_any_schedule",
    "Rfc5322.Props.C51_dates_are_atomic",
    "Rfc5322.Props.C51_every_call_returns",
    "Rfc5322.Props.C51_not_atomic"
   ],
   "note": ""
  },
  {
   "property": "C52",
   "status": "proved",
   "theorems": [
    "Rfc5322.Props.C52_work_is_linear",
    "Rfc5322.Props.C52_work_until_return",
    "Rfc5322.Props.C52_done_after",
    "Rfc5322.Props.C52_executions_exist"
   ],
   "note": ""
  },
  {
   "property": "C53",
   "status": "proved",
   "theorems": [
    "Rfc5322.Props.C53_recursion_depth",
    "Rfc5322.Props.C53_no_parentheses"
   ],
   "note": ""
  },
  {
   "property": "C54",
   "status": "proved",
   "theorems": [
    "Rfc5322.Props.C54_result_size",
    "Rfc5322.Props.C54_result_size_any_bytes",
    "Rfc5322.Props.C54_result_size_go",
    "Rfc5322.Props.C54_number_of_addresses"
   ],
   "note": ""
  },
  {
   "property": "C55",
   "status": "proved",
   "theorems": [
    "Rfc5322.Props.C55_exactly_the_mailbox_lists",
    "Rfc5322.Props.C55_everything_else_is_an_error",
    "Rfc5322.Props.C55_one_value"
   ],
   "note": ""
  },
  {
   "property": "C56",
   "status": "proved",
   "theorems": [
    "Rfc5322.Props.C56_one_space_is_enough",
    "Rfc5322.Props.C56_equal_up_to_comments"
   ],
   "note": ""
  },
  {
   "property": "C57",
   "status": "proved",
   "theorems": [
    "Rfc5322.Props.C57_ends_do_not_matter"
   ],
   "note": ""
  },
  {
   "property": "C58",
   "status": "proved",
   "theorems": [
    "Rfc5322.Props.C58_groups_in_lists",
    "Rfc5322.Props.C58_quoted_group_names",
    "Rfc5322.Props.C58_only_commas",
    "Rfc5322.Props.C58_undisclosed_recipients"
   ],
   "note": ""
  },
  {
   "property": "C59",
   "status": "proved",
   "theorems": [
    "Rfc5322.Props.C59_networks_are_read",
    "Rfc5322.Props.C59_tokens",
    "Rfc5322.Props.C59_tokens_have_types",
    "Rfc5322.Props.C59_addresses_rejected",
    "Rfc5322.Props.C59_addresses_path",
    "Rfc5322.Props.C59_dates_rejected",
    "Rfc5322.Props.C59_dates_path"
   ],
   "note": ""
  },
  {
   "property": "C60",
   "status": "proved",
   "theorems": [
    "Rfc5322.Props.C60_functions_terminate",
    "Rfc5322.Props.C60_steps_do_not_matter",
    "Rfc5322.Props.C60_functions_follow_the_network",
    "Rfc5322.Props.C60_addresses",
    "Rfc5322.Props.C60_dates"
   ],
   "note": ""
  },
  {
   "property": "C61",
   "status": "proved",
   "theorems": [
    "Rfc5322.Props.C61_addresses",
    "Rfc5322.Props.C61_dates",
    "Rfc5322.Props.C61_addresses_language",
    "Rfc5322.Props.C61_dates_language",
    "Rfc5322.Props.C61_same_everywhere",
    "Rfc5322.Props.C61_same_dates_everywhere"
   ],
   "note": ""
  },
  {
   "property": "C62",
   "status": "proved",
   "theorems": [
    "Rfc5322.Props.C62_nothing_changes",
    "Rfc5322.Props.C62_results_are_new",
    "Rfc5322.Props.C62_results_last",
    "Rfc5322.Props.C62_nothing_shared",
    "Rfc5322.Props.C62_results_may_be_changed"
   ],
   "note": ""
  },
  {
   "property": "C63",
   "status": "proved",
   "theorems": [
    "Rfc5322.Props.C63_only_own_objects",
    "Rfc5322.Props.C63_nothing_shared",
    "Rfc5322.Props.C63_no_races",
    "Rfc5322.Props.C63_others_unchanged",
    "Rfc5322.Props.C63_addresses",
    "Rfc5322.Props.C63_dates",
    "Rfc5322.Props.C63_addresses_language",
    "Rfc5322.Props.C63_dates_language",
    "Rfc5322.Props.C63_results_are_own",
    "Rfc5322.Props.C63_results_last",
    "Rfc5322.Props.C63_no_waiting",
    "Rfc5322.Props.C63_finishes",
    "Rfc5322.Props.C63_can_finish"
   ],
   "note": ""
  },
  {
   "property": "C64",
   "status": "proved",
   "theorems": [
    "Rfc5322.Props.C64_exactly_these_addresses",
    "Rfc5322.Props.C64_exactly_these_dates",
    "Rfc5322.Props.C64_rfc_addresses",
    "Rfc5322.Props.C64_rfc_dates",
    "Rfc5322.Props.C64_current_addresses",
    "Rfc5322.Props.C64_current_dates",
    "Rfc5322.Props.C64_restrictions_restrict",
    "Rfc5322.Props.C64_extensions_extend",
    "Rfc5322.Props.C64_spaced_domain",
    "Rfc5322.Props.C64_two_folds",
    "Rfc5322.Props.C64_quoted_pair_in_literal",
    "Rfc5322.Props.C64_military_zone",
    "Rfc5322.Props.C64_year_10000",
    "Rfc5322.Props.C64_year_of_three_digits",
    "Rfc5322.Props.C64_every_extension_counts",
    "Rfc5322.Props.C64_every_restriction_counts",
    "Rfc5322.Props.C64_control_character_in_literal",
    "Rfc5322.Props.C64_new_addresses",
    "Rfc5322.Props.C64_new_dates"
   ],
   "note": ""
  },
  {
   "property": "C65",
   "status": "proved",
   "theorems": [
    "Rfc5322.Props.C65_files_are_read",
    "Rfc5322.Props.C65_addresses",
    "Rfc5322.Props.C65_dates",
    "Rfc5322.Props.C65_tokens",
    "Rfc5322.Props.C65_addresses_reading",
    "Rfc5322.Props.C65_dates_reading"
   ],
   "note": ""
  },
  {
   "property": "C66",
   "status": "proved",
   "theorems": [
    "Rfc5322.Props.C66_addresses",
    "Rfc5322.Props.C66_rfc_addresses",
    "Rfc5322.Props.C66_every_address_list",
    "Rfc5322.Props.C66_rfc_dates",
    "Rfc5322.Props.C66_every_date",
    "Rfc5322.Props.C66_overlooked_quotation_mark"
   ],
   "note": ""
  },
  {
   "property": "C67",
   "status": "proved",
   "theorems": [
    "Rfc5322.Props.C67_prediction_is_smallest_alternative",
    "Rfc5322.Props.C67_no_false_alarm",
    "Rfc5322.Props.C67_predictions_end",
    "Rfc5322.Props.C67_predictions_are_alternatives",
    "Rfc5322.Props.C67_no_false_synchronisation",
    "Rfc5322.Props.C67_tables_make_no_difference",
    "Rfc5322.Props.C67_addresses",
    "Rfc5322.Props.C67_dates",
    "Rfc5322.Props.C67_runtime"
   ],
   "note": ""
  },
  {
   "property": "C68",
   "status": "proved",
   "theorems": [
    "Rfc5322.Props.C68_predictions_fit_the_next_token",
    "Rfc5322.Props.C68_functions_end",
    "Rfc5322.Props.C68_errors_are_reported",
    "Rfc5322.Props.C68_reports_are_few",
    "Rfc5322.Props.C68_addresses",
    "Rfc5322.Props.C68_dates"
   ],
   "note": ""
  },
  {
   "property": "C69",
   "status": "proved",
   "theorems": [
    "Rfc5322.Props.C69_tokens",
    "Rfc5322.Props.C69_longest_match_of_the_first_rule",
    "Rfc5322.Props.C69_characters_one_by_one"
   ],
   "note": ""
  },
  {
   "property": "C70",
   "status": "proved",
   "theorems": [
    "Rfc5322.Props.C70_scan",
    "Rfc5322.Props.C70_parse_ends",
    "Rfc5322.Props.C70_addresses",
    "Rfc5322.Props.C70_dates",
    "Rfc5322.Props.C70_same_addresses",
    "Rfc5322.Props.C70_same_dates",
    "Rfc5322.Props.C70_same_parse",
    "Rfc5322.Props.C70_history_does_not_matter",
    "Rfc5322.Props.C70_history_of_dates"
   ],
   "note": ""
  },
  {
   "property": "C71",
   "status": "proved",
   "theorems": [
    "Rfc5322.Props.C71_every_date",
    "Rfc5322.Props.C71_every_date_here",
    "Rfc5322.Props.C71_one_meaning_here",
    "Rfc5322.Props.C71_one_meaning",
    "Rfc5322.Props.C71_dates",
    "Rfc5322.Props.C71_rfc_dates",
    "Rfc5322.Props.C71_years_that_agree",
    "Rfc5322.Props.C71_nothing_but_the_century",
    "Rfc5322.Props.C71_a_century_off"
   ],
   "note": ""
  },
  {
   "property": "C72",
   "status": "proved",
   "theorems": [
    "Rfc5322.Props.C72_every_address_list",
    "Rfc5322.Props.C72_addresses",
    "Rfc5322.Props.C72_rfc_addresses",
    "Rfc5322.Props.C72_control_character"
   ],
   "note": ""
  },
  {
   "property": "C73",
   "status": "proved",
   "theorems": [
    "Rfc5322.Props.C73_addresses",
    "Rfc5322.Props.C73_rfc_addresses",
    "Rfc5322.Props.C73_with_missing_items",
    "Rfc5322.Props.C73_rfc_with_missing_items",
    "Rfc5322.Props.C73_without_encoded_words"
   ],
   "note": ""
  },
  {
   "property": "C74",
   "status": "proved",
   "theorems": [
    "Rfc5322.Props.C74_calls",
    "Rfc5322.Props.C74_rejected",
    "Rfc5322.Props.C74_dates",
    "Rfc5322.Props.C74_without_effects",
    "Rfc5322.Props.C74_no_reader",
    "Rfc5322.Props.C74_asks",
    "Rfc5322.Props.C74_known",
    "Rfc5322.Props.C74_either",
    "Rfc5322.Props.C74_determined"
   ],
   "note": ""
  },
  {
   "property": "C75",
   "status": "proved",
   "theorems": [
    "Rfc5322.Props.C75_one_date_per_instant",
    "Rfc5322.Props.C75_earlier_is_earlier",
    "Rfc5322.Props.C75_every_instant_is_a_date",
    "Rfc5322.Props.C75_text_is_the_date",
    "Rfc5322.Props.C75_format_is_read_back",
    "Rfc5322.Props.C75_offsets_with_seconds",
    "Rfc5322.Props.C75_zone_names",
    "Rfc5322.Props.C75_other_zone_names",
    "Rfc5322.Props.C75_two_digit_years",
    "Rfc5322.Props.C75_read_and_written",
    "Rfc5322.Props.C75_hundred_hours"
   ],
   "note": ""
  },
  {
   "property": "C76",
   "status": "proved",
   "theorems": [
    "Rfc5322.Props.C76_something_is_expected",
    "Rfc5322.Props.C76_reports",
    "Rfc5322.Props.C76_addresses",
    "Rfc5322.Props.C76_dates",
    "Rfc5322.Props.C76_one_line",
    "Rfc5322.Props.C76_quotes_the_text"
   ],
   "note": ""
  },
  {
   "property": "C77",
   "status": "proved",
   "theorems": [
    "Rfc5322.Props.C77_addresses",
    "Rfc5322.Props.C77_dates",
    "Rfc5322.Props.C77_error_addresses",
    "Rfc5322.Props.C77_error_dates"
   ],
   "note": ""
  },
  {
   "property": "C78",
   "status": "proved",
   "theorems": [
    "Rfc5322.Props.C78_names_differ",
    "Rfc5322.Props.C78_names_show",
    "Rfc5322.Props.C78_name_of_the_end",
    "Rfc5322.Props.C78_reports",
    "Rfc5322.Props.C78_messages",
    "Rfc5322.Props.C78_addresses",
    "Rfc5322.Props.C78_dates"
   ],
   "note": ""
  }
 ]
}