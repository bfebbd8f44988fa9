{
 "claims": [
  {
   "property": "C01",
   "status": "proved",
   "theorems": [
    "USiem.Props.C01_ipv4_round_trip",
    "USiem.Props.C01_ipv4_print_injective",
    "USiem.Props.C01_ipv4_from_bytes",
    "USiem.Props.C01_ipv4_print"
   ],
   "note": ""
  },
  {
   "property": "C02",
   "status": "proved",
   "theorems": [
    "USiem.Props.C02_ipv4_parse_total",
    "USiem.Props.C02_ipv4_accepts_quads",
    "USiem.Props.C02_ipv4_accepts_exactly",
    "USiem.Props.C02_ipv4_accepts_short_text",
    "USiem.Props.C02_ipv4_rejects_long",
    "USiem.Props.C02_is_ipv4_iff",
    "USiem.Props.C02_ipv4_value_bounded"
   ],
   "note": "Stronger expectation 'only dotted quads are accepted' is false of the code: C02_ipv4_accepts_short_text ('5' and '+1.2.3' are accepted)."
  },
  {
   "property": "C03",
   "status": "proved",
   "theorems": [
    "USiem.Props.C03_is_local_ipv4_iff"
   ],
   "note": ""
  },
  {
   "property": "C04",
   "status": "proved",
   "theorems": [
    "USiem.Props.C04_is_local_ipv6_iff"
   ],
   "note": ""
  },
  {
   "property": "C05",
   "status": "proved",
   "theorems": [
    "USiem.Props.C05_port_functions_agree",
    "USiem.Props.C05_port_parse_iff",
    "USiem.Props.C05_port_round_trip"
   ],
   "note": ""
  },
  {
   "property": "C06",
   "status": "proved",
   "theorems": [
    "USiem.Props.C06_ipv6_parse_total",
    "USiem.Props.C06_ipv6_text_total",
    "USiem.Props.C06_is_ipv6_iff",
    "USiem.Props.C06_ipv6_value_bounded",
    "USiem.Props.C06_ipv6_accepts_exactly",
    "USiem.Props.C06_ipv6_accepts_stray_colon"
   ],
   "note": ""
  },
  {
   "property": "C07",
   "status": "proved",
   "theorems": [
    "USiem.Props.C07_ipv6_round_trip_iff",
    "USiem.Props.C07_ipv6_round_trip_fails",
    "USiem.Props.C07_ipv6_print_injective"
   ],
   "note": "Stronger expectation 'for every address' is false of the code: C07_ipv6_round_trip_fails (texts of 39 characters and dotted tails are refused)."
  },
  {
   "property": "C08",
   "status": "proved",
   "theorems": [
    "USiem.Props.C08_ipv6_dotted_tail_never_accepted"
   ],
   "note": "The expectation that such texts are accepted with the IPv4 address as the low 32 bits is false for every address; this theorem is its negation at full strength."
  },
  {
   "property": "C09",
   "status": "proved",
   "theorems": [
    "USiem.Props.C09_mac48_round_trip",
    "USiem.Props.C09_mac48_round_trip_any",
    "USiem.Props.C09_mac48_accepts",
    "USiem.Props.C09_mac48_malformed_texts",
    "USiem.Props.C09_groups",
    "USiem.Props.C09_mac48_exactly"
   ],
   "note": ""
  },
  {
   "property": "C10",
   "status": "proved",
   "theorems": [
    "USiem.Props.C10_mac64_round_trip",
    "USiem.Props.C10_mac64_round_trip_any",
    "USiem.Props.C10_mac64_exactly"
   ],
   "note": ""
  },
  {
   "property": "C11",
   "status": "proved",
   "theorems": [
    "USiem.Props.C11_mac128_round_trip_any_iff",
    "USiem.Props.C11_mac128_print_truncates",
    "USiem.Props.C11_mac_str_to_u128_never_inverts",
    "USiem.Props.C11_any_groups",
    "USiem.Props.C11_any_accepts",
    "USiem.Props.C11_mac128_exactly",
    "USiem.Props.C11_any_exactly"
   ],
   "note": "Stronger expectation 'every value comes back' is false of the code: C11_mac128_print_truncates, C11_mac_str_to_u128_never_inverts."
  },
  {
   "property": "C12",
   "status": "proved",
   "theorems": [
    "USiem.Props.C12_selector_none_iff",
    "USiem.Props.C12_selector_some_iff",
    "USiem.Props.C12_selector_empty_word_matches"
   ],
   "note": ""
  },
  {
   "property": "C13",
   "status": "proved",
   "theorems": [
    "USiem.Props.C13_every_counter_linearizable",
    "USiem.Props.C13_family_reset_is_not_one_step",
    "USiem.Props.C13_concurrent_increments",
    "USiem.Props.C13_counter_since_last_reset",
    "USiem.Props.C13_concurrent_resets_linearizable",
    "USiem.Props.C13_counter_found_iff",
    "USiem.Props.C13_counter_new_panics_iff"
   ],
   "note": ""
  },
  {
   "property": "C14",
   "status": "proved",
   "theorems": [
    "USiem.Props.C14_every_gauge_linearizable",
    "USiem.Props.C14_gauge_last_set_plus_changes",
    "USiem.Props.C14_gauge_concurrent_changes",
    "USiem.Props.C14_gauge_whole_numbers_exact"
   ],
   "note": ""
  },
  {
   "property": "C15",
   "status": "proved",
   "theorems": [
    "USiem.Props.C15_comparisons",
    "USiem.Props.C15_histogram_totals",
    "USiem.Props.C15_histogram_cumulative",
    "USiem.Props.C15_histogram_bucket_le_count_always",
    "USiem.Props.C15_buckets_not_monotone_midway"
   ],
   "note": ""
  },
  {
   "property": "C16",
   "status": "proved",
   "theorems": [
    "USiem.Props.C16_get_count_is",
    "USiem.Props.C16_get_count_returns_first_bucket",
    "USiem.Props.C16_get_count_wrong",
    "USiem.Props.C16_get_count_decreasing"
   ],
   "note": "Stronger expectation 'the count of the bound asked for' is false of the code with increasing bounds: C16_get_count_wrong."
  },
  {
   "property": "C17",
   "status": "proved",
   "theorems": [
    "USiem.Props.C17_combinations_sound",
    "USiem.Props.C17_combinations_equal_sizes",
    "USiem.Props.C17_combinations_empty",
    "USiem.Props.C17_all_combinations_mem",
    "USiem.Props.C17_all_combinations_nodup",
    "USiem.Props.C17_combinations_wrong",
    "USiem.Props.C17_values_lost",
    "USiem.Props.C17_complete_iff"
   ],
   "note": "Stronger expectation 'always the cartesian product' is false of the code: C17_combinations_wrong (sizes 3, 3, 2). Which other size vectors happen to work is not characterised."
  },
  {
   "property": "C18",
   "status": "proved",
   "theorems": [
    "USiem.Props.C18_valid_name_iff",
    "USiem.Props.C18_valid_description_iff",
    "USiem.Props.C18_definition_new_iff",
    "USiem.Props.C18_definition_errors"
   ],
   "note": ""
  },
  {
   "property": "C19",
   "status": "proved",
   "theorems": [
    "USiem.Props.C19_series_line",
    "USiem.Props.C19_trailing_comma",
    "USiem.Props.C19_counters_lines",
    "USiem.Props.C19_gauges_lines",
    "USiem.Props.C19_counters_one_line_each",
    "USiem.Props.C19_histogram_lines",
    "USiem.Props.C19_histograms_text",
    "USiem.Props.C19_quotes_not_escaped",
    "USiem.Props.C19_description_breaks_line"
   ],
   "note": "Stronger expectation 'well-formed Prometheus text for all labels' is false of the code: C19_trailing_comma, C19_quotes_not_escaped, C19_description_breaks_line; bucket bounds are printed unquoted."
  },
  {
   "property": "C20",
   "status": "proved",
   "theorems": [
    "USiem.Props.C20_ip_map",
    "USiem.Props.C20_ip_set",
    "USiem.Props.C20_text_map",
    "USiem.Props.C20_rules",
    "USiem.Props.C20_text_set_insert",
    "USiem.Props.C20_text_map_list_insert",
    "USiem.Props.C20_empty_batch_panics"
   ],
   "note": ""
  },
  {
   "property": "C21",
   "status": "proved",
   "theorems": [
    "USiem.Props.C21_networks",
    "USiem.Props.C21_any_partition_ip_set",
    "USiem.Props.C21_any_partition_text_map",
    "USiem.Props.C21_any_partition_rules",
    "USiem.Props.C21_any_partition_networks",
    "USiem.Props.C21_ip_map",
    "USiem.Props.C21_ip_set",
    "USiem.Props.C21_text_map",
    "USiem.Props.C21_rules",
    "USiem.Props.C21_any_partition"
   ],
   "note": ""
  },
  {
   "property": "C22",
   "status": "proved",
   "theorems": [
    "USiem.Props.C22_enough_room",
    "USiem.Props.C22_enough_room_rules",
    "USiem.Props.C22_drained",
    "USiem.Props.C22_drained_rules",
    "USiem.Props.C22_waiting_insert_ends",
    "USiem.Props.C22_reader_sees_received_ip_set",
    "USiem.Props.C22_reader_sees_received_text_map",
    "USiem.Props.C22_reader_sees_received_rules",
    "USiem.Props.C22_reader_sees_received_networks",
    "USiem.Props.C22_fifo",
    "USiem.Props.C22_rules_fifo",
    "USiem.Props.C22_blocking_insert_waits",
    "USiem.Props.C22_try_insert_returns_rule",
    "USiem.Props.C22_insert_timeout",
    "USiem.Props.C22_empty_drops",
    "USiem.Props.C22_reader_sees_received"
   ],
   "note": ""
  },
  {
   "property": "C23",
   "status": "proved",
   "theorems": [
    "USiem.Props.C23_history",
    "USiem.Props.C23_apply_updates",
    "USiem.Props.C23_lookup",
    "USiem.Props.C23_longest_when_not_nested",
    "USiem.Props.C23_answer_is_a_containing_network",
    "USiem.Props.C23_not_longest",
    "USiem.Props.C23_host_networks_never_found",
    "USiem.Props.C23_zero_address_never_found",
    "USiem.Props.C23_aligned_addresses_not_found",
    "USiem.Props.C23_insert_panics_iff"
   ],
   "note": "Stronger expectation 'longest matching prefix, None only if nothing contains ip' is false of the code: C23_not_longest, C23_host_networks_never_found, C23_zero_address_never_found, C23_aligned_addresses_not_found."
  },
  {
   "property": "C24",
   "status": "proved",
   "theorems": [
    "USiem.Props.C24_lookup",
    "USiem.Props.C24_longest_when_not_nested",
    "USiem.Props.C24_slow_key_shape",
    "USiem.Props.C24_slow_key_v4_injective",
    "USiem.Props.C24_slow_key_v6_same_length",
    "USiem.Props.C24_slow_keys_collide",
    "USiem.Props.C24_slow_get_total",
    "USiem.Props.C24_slow_agrees_with_fast_v4",
    "USiem.Props.C24_slow_key_iff",
    "USiem.Props.C24_slow_lookup",
    "USiem.Props.C24_slow_loses_v6"
   ],
   "note": "Stronger expectations are false of the code: longest match (as C23), injective keys (C24_slow_keys_collide, C24_slow_loses_v6)."
  },
  {
   "property": "C25",
   "status": "proved",
   "theorems": [
    "USiem.Props.C25_lookup",
    "USiem.Props.C25_same_day",
    "USiem.Props.C25_after_first_day",
    "USiem.Props.C25_sound",
    "USiem.Props.C25_first_day_lost",
    "USiem.Props.C25_before_epoch_lost"
   ],
   "note": "Stronger expectation 'exactly the entries that contain t' is false of the code: C25_first_day_lost, C25_before_epoch_lost."
  },
  {
   "property": "C26",
   "status": "proved",
   "theorems": [
    "USiem.Props.C26_history",
    "USiem.Props.C26_get_or_default",
    "USiem.Props.C26_none_iff_unknown",
    "USiem.Props.C26_language_codes",
    "USiem.Props.C26_language_other",
    "USiem.Props.C26_language_names"
   ],
   "note": ""
  },
  {
   "property": "C27",
   "status": "proved",
   "theorems": [
    "USiem.C27_history",
    "USiem.C27_subset",
    "USiem.C27_types",
    "USiem.C27_accessors",
    "USiem.C27_new"
   ],
   "note": ""
  },
  {
   "property": "C28",
   "status": "proved",
   "theorems": [
    "USiem.C28_ip_map",
    "USiem.C28_ip_map_list",
    "USiem.C28_text_map",
    "USiem.C28_ip_set",
    "USiem.C28_text_set",
    "USiem.C28_text_map_list",
    "USiem.C28_ip_net",
    "USiem.C28_geoip_inverted",
    "USiem.C28_geoip_disagrees",
    "USiem.C28_open_geoip",
    "USiem.C28_open_i18n",
    "USiem.C28_custom_map_ip_net",
    "USiem.C28_custom_map_text",
    "USiem.C28_custom_map_text_list",
    "USiem.C28_custom_ip_list",
    "USiem.C28_custom_ip_map",
    "USiem.C28_custom_text_list",
    "USiem.C28_identity"
   ],
   "note": "For geo-IP the expectation is false of the code: C28_geoip_disagrees (the test in dataset/mod.rs is inverted)."
  },
  {
   "property": "C29",
   "status": "proved",
   "theorems": [
    "USiem.Props.C29_condition",
    "USiem.Props.C29_unimplemented_panics",
    "USiem.Props.C29_matches_iff",
    "USiem.Props.C29_answers",
    "USiem.Props.C29_rule_panics",
    "USiem.Props.C29_trigger_list_ignored",
    "USiem.Props.C29_null_value_is_not_null",
    "USiem.Props.C29_operator_eq_refl"
   ],
   "note": "Stronger expectation 'evaluating a rule always yields an answer' is false of the code: C29_unimplemented_panics, C29_rule_panics."
  },
  {
   "property": "C30",
   "status": "proved",
   "theorems": [
    "USiem.C30_plain",
    "USiem.C30_trailing",
    "USiem.C30_leading",
    "USiem.C30_both",
    "USiem.C30_disagrees",
    "USiem.C30_only_stars",
    "USiem.C30_cases",
    "USiem.C30_other",
    "USiem.C30_modifiers",
    "USiem.C30_text_modifiers",
    "USiem.C30_unknown_modifier",
    "USiem.C30_printing",
    "USiem.C30_printed_form",
    "USiem.C30_field_value",
    "USiem.C30_any_values",
    "USiem.C30_any_value"
   ],
   "note": "Stronger expectation '*pat is ends-with pat and *pat* is contains pat' is false of the code: C30_leading, C30_both, C30_disagrees."
  },
  {
   "property": "C31",
   "status": "proved",
   "theorems": [
    "USiem.C31_split",
    "USiem.C31_edge",
    "USiem.C31_unique",
    "USiem.C31_concat"
   ],
   "note": ""
  },
  {
   "property": "C32",
   "status": "proved",
   "theorems": [
    "USiem.C32_call",
    "USiem.C32_start",
    "USiem.C32_progress",
    "USiem.C32_words",
    "USiem.C32_quoted",
    "USiem.C32_deterministic",
    "USiem.C32_never_stuck",
    "USiem.C32_ends",
    "USiem.C32_illegal_forever",
    "USiem.C32_eof_forever",
    "USiem.C32_disagrees"
   ],
   "note": "Stronger expectation 'EOF is always reached and only at the end' is false of the code: C32_illegal_forever, C32_disagrees (an embedded character 0 gives EOF early)."
  },
  {
   "property": "C33",
   "status": "proved",
   "theorems": [
    "USiem.C33_order",
    "USiem.C33_after_end",
    "USiem.C33_runs_as_duplicate",
    "USiem.C33_stop",
    "USiem.C33_error",
    "USiem.C33_forward",
    "USiem.C33_output",
    "USiem.C33_no_loss",
    "USiem.C33_ok",
    "USiem.C33_tick_times",
    "USiem.C33_ticks_seen",
    "USiem.C33_first_tick",
    "USiem.C33_progress",
    "USiem.C33_self_deadlock",
    "USiem.C33_given_channels",
    "USiem.C33_new_stuck",
    "USiem.C33_stop_obeyed",
    "USiem.C33_reader_gone",
    "USiem.C33_state"
   ],
   "note": ""
  },
  {
   "property": "C34",
   "status": "proved",
   "theorems": [
    "USiem.C34_log",
    "USiem.C34_direct",
    "USiem.C34_new_and_set_level",
    "USiem.C34_max_level",
    "USiem.C34_try_send",
    "USiem.C34_send",
    "USiem.C34_send_timeout",
    "USiem.C34_history",
    "USiem.C34_bounded",
    "USiem.C34_uninitialized",
    "USiem.C34_threads",
    "USiem.C34_level_valid"
   ],
   "note": ""
  },
  {
   "property": "C35",
   "status": "proved",
   "theorems": [
    "USiem.C35_clone",
    "USiem.C35_new_apart",
    "USiem.C35_value_absent",
    "USiem.C35_value_replaced",
    "USiem.C35_value_first",
    "USiem.C35_file_absent",
    "USiem.C35_file_last",
    "USiem.C35_range",
    "USiem.C35_range_to_end",
    "USiem.C35_range_safe",
    "USiem.C35_range_write",
    "USiem.C35_write_results",
    "USiem.C35_dummy"
   ],
   "note": "Stronger expectation 'any range of the file can be read, a range write touches only the range' is false of the code: C35_range_to_end, C35_range_write."
  },
  {
   "property": "C36",
   "status": "proved",
   "theorems": [
    "USiem.C36_result_round_trip",
    "USiem.C36_result_reads_exactly",
    "USiem.C36_get_type",
    "USiem.C36_kinds_distinguishable",
    "USiem.C36_same_kind_same_tag",
    "USiem.C36_task_class",
    "USiem.C36_task_class_text"
   ],
   "note": ""
  },
  {
   "property": "C37",
   "status": "proved",
   "theorems": [
    "USiem.Props.C37_history_total",
    "USiem.Props.C37_last_write",
    "USiem.Props.C37_untouched",
    "USiem.Props.C37_typed_getters",
    "USiem.Props.C37_ip_getter",
    "USiem.Props.C37_stale_after_field_mut",
    "USiem.Props.C37_read_then_assigned",
    "USiem.Props.C37_has_field_iff"
   ],
   "note": "Stronger expectation including field_mut/iter_mut is false of the code: C37_stale_after_field_mut, C37_read_then_assigned."
  },
  {
   "property": "C38",
   "status": "proved",
   "theorems": [
    "USiem.Props.C38_ip_fields_in_general",
    "USiem.Props.C38_ip_fields_are",
    "USiem.Props.C38_ip_fields_current",
    "USiem.Props.C38_overwritten_still_listed",
    "USiem.Props.C38_schema_hides_addresses",
    "USiem.Props.C38_assigned_not_listed"
   ],
   "note": "Stronger expectation 'exactly the fields currently holding an address, always' is false of the code: C38_overwritten_still_listed, C38_schema_hides_addresses, C38_assigned_not_listed."
  },
  {
   "property": "C39",
   "status": "proved",
   "theorems": [
    "USiem.Props.C39_common_tags_distinct",
    "USiem.Props.C39_common_tags",
    "USiem.Props.C39_common_tags_separate",
    "USiem.Props.C39_tags_are",
    "USiem.Props.C39_has_tag",
    "USiem.Props.C39_uppercase_tag_not_found",
    "USiem.Props.C39_tags_mirrored"
   ],
   "note": "Stronger expectation 'has_tag finds a tag as it was added' is false of the code: C39_uppercase_tag_not_found."
  },
  {
   "property": "C40",
   "status": "proved",
   "theorems": [
    "USiem.Props.C40_timestamps",
    "USiem.Props.C40_inserted_date",
    "USiem.Props.C40_set_created_reads_zero",
    "USiem.Props.C40_reads_field"
   ],
   "note": "Stronger expectation 'event_created returns what set_event_created set' is false of the code: C40_set_created_reads_zero."
  },
  {
   "property": "C41",
   "status": "proved",
   "theorems": [
    "USiem.Props.C41_reflexive",
    "USiem.Props.C41_textual_iff",
    "USiem.Props.C41_other_iff",
    "USiem.Props.C41_equivalence",
    "USiem.Props.C41_cross",
    "USiem.Props.C41_symmetric_iff",
    "USiem.Props.C41_not_symmetric",
    "USiem.Props.C41_not_transitive",
    "USiem.Props.C41_equal_hash",
    "USiem.Props.C41_equal_but_hash_differs"
   ],
   "note": "Stronger expectation 'an equivalence consistent with Hash' is false of the code: C41_not_symmetric, C41_not_transitive, C41_equal_but_hash_differs."
  },
  {
   "property": "C42",
   "status": "proved",
   "theorems": [
    "USiem.Props.C42_to_text",
    "USiem.Props.C42_numeric_domain",
    "USiem.Props.C42_i64_exact",
    "USiem.Props.C42_u64_exact",
    "USiem.Props.C42_float_truncates",
    "USiem.Props.C42_out_of_range",
    "USiem.Props.C42_f64_exact",
    "USiem.Props.C42_to_ip",
    "USiem.Props.C42_ip_text_round_trip",
    "USiem.Props.C42_to_array",
    "USiem.Props.C42_contains",
    "USiem.Props.C42_float_truncates_unsigned",
    "USiem.Props.C42_out_of_signed_range",
    "USiem.Props.C42_dates",
    "USiem.Props.C42_strict_conversions",
    "USiem.Props.C42_to_array_contents",
    "USiem.Props.C42_not_finite",
    "USiem.Props.C42_u64_saturates"
   ],
   "note": ""
  },
  {
   "property": "C43",
   "status": "proved",
   "theorems": [
    "USiem.Props.C43_from_str_total",
    "USiem.Props.C43_from_str_v4",
    "USiem.Props.C43_from_str_v6",
    "USiem.Props.C43_from_str_error",
    "USiem.Props.C43_v4_round_trip",
    "USiem.Props.C43_v6_round_trip",
    "USiem.Props.C43_print_injective",
    "USiem.Props.C43_eq_iff_print",
    "USiem.Props.C43_equals_v4",
    "USiem.Props.C43_equals_v6",
    "USiem.Props.C43_equals_printed",
    "USiem.Props.C43_octets4",
    "USiem.Props.C43_octets16",
    "USiem.Props.C43_is_local",
    "USiem.Props.C43_numbers"
   ],
   "note": ""
  },
  {
   "property": "C44",
   "status": "proved",
   "theorems": [
    "USiem.Props.C44_merge",
    "USiem.Props.C44_merge_names",
    "USiem.Props.C44_merge_idempotent",
    "USiem.Props.C44_apply",
    "USiem.Props.C44_apply_idempotent",
    "USiem.Props.C44_insert",
    "USiem.Props.C44_remove",
    "USiem.Props.C44_protected",
    "USiem.Props.C44_well_formed",
    "USiem.Props.C44_base_schema_drops_timestamps"
   ],
   "note": ""
  },
  {
   "property": "C45",
   "status": "proved",
   "theorems": [
    "USiem.C45_known",
    "USiem.C45_only",
    "USiem.C45_put",
    "USiem.C45_unknown",
    "USiem.C45_print",
    "USiem.C45_round_trip",
    "USiem.C45_equals",
    "USiem.C45_outcome_equals"
   ],
   "note": "Stronger expectation 'every method name, unknown names preserved' is false of the code: C45_put, C45_unknown, C45_print."
  },
  {
   "property": "C46",
   "status": "proved",
   "theorems": [
    "USiem.C46_assigned",
    "USiem.C46_unassigned",
    "USiem.C46_distinct",
    "USiem.C46_names",
    "USiem.C46_never"
   ],
   "note": ""
  },
  {
   "property": "C47",
   "status": "proved",
   "theorems": [
    "USiem.Props.C47_technique_parse",
    "USiem.Props.C47_technique_injective",
    "USiem.Props.C47_technique_reachable",
    "USiem.Props.C47_technique_unique_text",
    "USiem.Props.C47_tactic_parse",
    "USiem.Props.C47_tactic_injective",
    "USiem.Props.C47_tactic_names_rejected",
    "USiem.Props.C47_json_written",
    "USiem.Props.C47_json_tactic_read",
    "USiem.Props.C47_json_technique_read",
    "USiem.Props.C47_json_name_as_identifier"
   ],
   "note": ""
  },
  {
   "property": "C48",
   "status": "proved",
   "theorems": [
    "USiem.C48_firewall",
    "USiem.C48_intrusion",
    "USiem.C48_web_proxy",
    "USiem.C48_web_server",
    "USiem.C48_dns",
    "USiem.C48_dhcp",
    "USiem.C48_auth",
    "USiem.C48_event",
    "USiem.C48_firewall_keeps",
    "USiem.C48_intrusion_keeps",
    "USiem.C48_web_proxy_keeps",
    "USiem.C48_web_server_keeps",
    "USiem.C48_as_cow",
    "USiem.C48_dns_keeps",
    "USiem.C48_dns_query_data",
    "USiem.C48_dhcp_keeps",
    "USiem.C48_dhcp_mac_cut",
    "USiem.C48_auth_keeps"
   ],
   "note": "Stronger expectation 'every event can be read back' is false of the code: C48_dns_query_data, C48_dhcp_mac_cut."
  },
  {
   "property": "C49",
   "status": "proved",
   "theorems": [
    "USiem.Props.C49_text_attributes",
    "USiem.Props.C49_attribute_is_field",
    "USiem.Props.C49_attributes_independent",
    "USiem.Props.C49_new"
   ],
   "note": ""
  },
  {
   "property": "C50",
   "status": "proved",
   "theorems": [
    "USiem.C50_ends",
    "USiem.C50_kept",
    "USiem.C50_subrules",
    "USiem.C50_conditions",
    "USiem.C50_severity"
   ],
   "note": ""
  },
  {
   "property": "C51",
   "status": "proved",
   "theorems": [
    "USiem.C51_integers",
    "USiem.C51_address_never_read_back",
    "USiem.C51_call_round_trip_iff",
    "USiem.C51_response_after_json",
    "USiem.C51_response_round_trip_iff",
    "USiem.C51_new_query"
   ],
   "note": ""
  },
  {
   "property": "C52",
   "status": "proved",
   "theorems": [
    "USiem.Props.C52_field_reads_exactly",
    "USiem.C52_field_after_json",
    "USiem.C52_field_survives_iff",
    "USiem.C52_second_trip_is_stable",
    "USiem.C52_field_refuses"
   ],
   "note": ""
  },
  {
   "property": "C53",
   "status": "proved",
   "theorems": [
    "USiem.Props.C53_log_read_as",
    "USiem.C53_log_field_read",
    "USiem.C53_log_readable_iff",
    "USiem.C53_log_with_message_never_read",
    "USiem.C53_new_log_never_read",
    "USiem.C53_read_log_is_bare",
    "USiem.C53_log_read_from_objects"
   ],
   "note": ""
  },
  {
   "property": "C54",
   "status": "proved",
   "theorems": [
    "USiem.Props.C54_log_message",
    "USiem.Props.C54_alert_message",
    "USiem.C54_message_written_iff",
    "USiem.C54_notification_round_trip",
    "USiem.C54_task_round_trip",
    "USiem.C54_task_result_round_trip",
    "USiem.C54_command_round_trip_iff",
    "USiem.C54_response_after_json",
    "USiem.C54_log_and_alert_never_read"
   ],
   "note": ""
  },
  {
   "property": "C55",
   "status": "proved",
   "theorems": [
    "USiem.C55_definition_round_trip",
    "USiem.C55_unknown_key_refused",
    "USiem.C55_defaults",
    "USiem.C55_reads_exactly"
   ],
   "note": ""
  },
  {
   "property": "C56",
   "status": "proved",
   "theorems": [
    "USiem.Props.C56_prints_text",
    "USiem.Props.C56_prints_numbers",
    "USiem.Props.C56_prints_others",
    "USiem.Props.C56_user_id",
    "USiem.Props.C56_eq_ignore_case_iff",
    "USiem.Props.C56_eq_ignore_case_str_iff",
    "USiem.Props.C56_eq_ignore_case_equivalence",
    "USiem.Props.C56_contains_iff",
    "USiem.Props.C56_kinds"
   ],
   "note": ""
  },
  {
   "property": "C57",
   "status": "proved",
   "theorems": [
    "USiem.C57_operator_after_json",
    "USiem.C57_operator_survives_iff",
    "USiem.C57_bad_regex_refused",
    "USiem.C57_condition_after_json",
    "USiem.C57_condition_reads_exactly",
    "USiem.C57_rule_after_json",
    "USiem.C57_rule_survives_iff",
    "USiem.C57_rule_text_read_iff",
    "USiem.C57_dictionary_round_trip",
    "USiem.C57_dictionary_lookup",
    "USiem.C57_dictionary_language",
    "USiem.C57_operator_equality",
    "USiem.C57_comparison_equality"
   ],
   "note": ""
  },
  {
   "property": "C58",
   "status": "proved",
   "theorems": [
    "USiem.C58_written",
    "USiem.C58_not_written",
    "USiem.C58_round_trip",
    "USiem.C58_addresses_never_read",
    "USiem.C58_reads_tagged",
    "USiem.C58_v6_and_dhcp_never_read",
    "USiem.C58_direct_reading",
    "USiem.C58_direct_never_read",
    "USiem.C58_free_document",
    "USiem.C58_null_document",
    "USiem.C58_protocol",
    "USiem.C58_enumerations",
    "USiem.C58_kind_required",
    "USiem.C58_free_document_normal",
    "USiem.C58_free_document_repeated",
    "USiem.C58_array_form",
    "USiem.C58_protocol_by_number",
    "USiem.C58_default"
   ],
   "note": ""
  },
  {
   "property": "C59",
   "status": "proved",
   "theorems": [
    "USiem.C59_error_round_trip",
    "USiem.C59_error_with_log",
    "USiem.C59_error_about_log_never_read",
    "USiem.C59_written_form",
    "USiem.C59_nested_form",
    "USiem.C59_read_form",
    "USiem.C59_errors_distinguishable",
    "USiem.C59_conversions",
    "USiem.C59_conversions_survive"
   ],
   "note": ""
  },
  {
   "property": "C60",
   "status": "proved",
   "theorems": [
    "USiem.C60_moments",
    "USiem.C60_gauges_while_changing",
    "USiem.C60_every_schedule_has_an_order",
    "USiem.C60_written_at_rest",
    "USiem.C60_counters_while_changing",
    "USiem.C60_histograms_after_observations",
    "USiem.C60_histogram_torn",
    "USiem.C60_kind_members",
    "USiem.C60_definition_document"
   ],
   "note": ""
  },
  {
   "property": "C61",
   "status": "proved",
   "theorems": [
    "USiem.C61_capabilities_readable",
    "USiem.C61_use_case_read_as_definition",
    "USiem.C61_use_case_same_document_iff",
    "USiem.C61_use_case_document"
   ],
   "note": ""
  },
  {
   "property": "C62",
   "status": "proved",
   "theorems": [
    "USiem.C62_rules_same",
    "USiem.C62_networks_carry",
    "USiem.C62_calendar_same",
    "USiem.C62_translations_same",
    "USiem.C62_rules_update",
    "USiem.C62_any_network_update",
    "USiem.C62_ip_map",
    "USiem.C62_ip_map_once",
    "USiem.C62_ip_map_same",
    "USiem.C62_ip_set",
    "USiem.C62_ip_set_once",
    "USiem.C62_ip_set_same",
    "USiem.C62_text_map",
    "USiem.C62_text_map_once",
    "USiem.C62_text_map_same",
    "USiem.C62_text_set",
    "USiem.C62_rules",
    "USiem.C62_rules_own_name",
    "USiem.C62_networks_stored",
    "USiem.C62_networks",
    "USiem.C62_networks_same",
    "USiem.C62_slow_document",
    "USiem.C62_calendar",
    "USiem.C62_language_reads_exactly",
    "USiem.C62_language_round_trip",
    "USiem.C62_language_json_vs_from",
    "USiem.C62_translations_written_iff",
    "USiem.C62_translations",
    "USiem.C62_coordinate_value",
    "USiem.C62_record_round_trip",
    "USiem.C62_slow_lookup",
    "USiem.C62_ip_map_update",
    "USiem.C62_ip_set_update",
    "USiem.C62_text_map_update",
    "USiem.C62_network_update",
    "USiem.C62_update_dataset",
    "USiem.C62_update_form",
    "USiem.C62_update_contents",
    "USiem.C62_update_kinds",
    "USiem.C62_update_exists_iff",
    "USiem.C62_dataset_document"
   ],
   "note": ""
  },
  {
   "property": "C63",
   "status": "proved",
   "theorems": [
    "USiem.C63_event_fields_kept",
    "USiem.C63_event_values_fit",
    "USiem.C63_fields_filled",
    "USiem.C63_accessors",
    "USiem.C63_tags_unfit",
    "USiem.C63_base_and_default",
    "USiem.C63_flags",
    "USiem.C63_base_with_default"
   ],
   "note": ""
  },
  {
   "property": "C64",
   "status": "proved",
   "theorems": [
    "USiem.C64_fields",
    "USiem.C64_description_unique",
    "USiem.C64_names",
    "USiem.C64_members",
    "USiem.C64_once",
    "USiem.C64_gdpr",
    "USiem.C64_same"
   ],
   "note": ""
  },
  {
   "property": "C65",
   "status": "proved",
   "theorems": [
    "USiem.C65_filter",
    "USiem.C65_default_forwards",
    "USiem.C65_default_quiet",
    "USiem.C65_stop_sent",
    "USiem.C65_helper",
    "USiem.C65_can_stop",
    "USiem.C65_may_hang",
    "USiem.C65_parsers",
    "USiem.C65_schema_erases",
    "USiem.C65_generator",
    "USiem.C65_generator_text",
    "USiem.C65_generator_config"
   ],
   "note": ""
  },
  {
   "property": "C66",
   "status": "proved",
   "theorems": [
    "USiem.C66_value",
    "USiem.C66_value_unique",
    "USiem.C66_selection",
    "USiem.C66_detection",
    "USiem.C66_document",
    "USiem.C66_round_trip",
    "USiem.C66_condition_clash",
    "USiem.C66_no_null",
    "USiem.C66_bad_selection",
    "USiem.C66_no_selection",
    "USiem.C66_required",
    "USiem.C66_unknown_ignored",
    "USiem.C66_import"
   ],
   "note": ""
  },
  {
   "property": "C67",
   "status": "proved",
   "theorems": [
    "USiem.Props.C67_nearest",
    "USiem.Props.C67_overflow",
    "USiem.Props.C67_exact",
    "USiem.Props.C67_monotone",
    "USiem.Props.C67_error",
    "USiem.Props.C67_small_integers",
    "USiem.Props.C67_gauge_error",
    "USiem.Props.C67_gauge_concurrent_error",
    "USiem.Props.C67_histogram_error",
    "USiem.Props.C67_gauge_monotone",
    "USiem.Props.C67_gauge_saturates",
    "USiem.Props.C67_gauge_decimals",
    "USiem.Props.C67_gauge_029",
    "USiem.Props.C67_histogram_drift",
    "USiem.Props.C67_field_nearest",
    "USiem.Props.C67_field_collision"
   ],
   "note": ""
  },
  {
   "property": "C68",
   "status": "proved",
   "theorems": [
    "USiem.Props.C68_calendar",
    "USiem.Props.C68_text",
    "USiem.Props.C68_text_unique",
    "USiem.Props.C68_equal",
    "USiem.Props.C68_out_of_range_equal",
    "USiem.Props.C68_four_digit_years",
    "USiem.Props.C68_order",
    "USiem.Props.C68_other_kinds"
   ],
   "note": ""
  },
  {
   "property": "C69",
   "status": "proved",
   "theorems": [
    "USiem.Props.C69_reads_back",
    "USiem.Props.C69_shortest",
    "USiem.Props.C69_injective",
    "USiem.Props.C69_fifteen_digits",
    "USiem.Props.C69_same_text",
    "USiem.Props.C69_whole_numbers",
    "USiem.Props.C69_field_equality",
    "USiem.Props.C69_field_integer",
    "USiem.Props.C69_large_differs",
    "USiem.Props.C69_field_text",
    "USiem.Props.C69_field_list",
    "USiem.Props.C69_hash_whole",
    "USiem.Props.C69_hash_negative",
    "USiem.Props.C69_stored_exact",
    "USiem.Props.C69_gauge_lines",
    "USiem.Props.C69_gauge_whole",
    "USiem.Props.C69_histogram_sum",
    "USiem.Props.C69_rule_number"
   ],
   "note": ""
  },
  {
   "property": "C70",
   "status": "proved",
   "theorems": [
    "USiem.Props.C70_event_text",
    "USiem.Props.C70_event_read",
    "USiem.Props.C70_event_reads_tagged",
    "USiem.Props.C70_free_document_text",
    "USiem.Props.C70_sigma_text",
    "USiem.Props.C70_schema_text",
    "USiem.Props.C70_dataset_text",
    "USiem.Props.C70_dataset_same_text",
    "USiem.Props.C70_digits_exist",
    "USiem.Props.C70_language",
    "USiem.Props.C70_from_str",
    "USiem.Props.C70_number_exact",
    "USiem.Props.C70_number_near",
    "USiem.Props.C70_number_refused",
    "USiem.Props.C70_round_trip",
    "USiem.Props.C70_too_deep",
    "USiem.Props.C70_close",
    "USiem.Props.C70_long_float_changes",
    "USiem.Props.C70_injective",
    "USiem.Props.C70_one_line",
    "USiem.Props.C70_command_text",
    "USiem.Props.C70_response_text",
    "USiem.Props.C70_message_text",
    "USiem.Props.C70_message_round_trip",
    "USiem.Props.C70_error_text",
    "USiem.Props.C70_definition_text",
    "USiem.Props.C70_dictionary_text",
    "USiem.Props.C70_rule_text",
    "USiem.Props.C70_log_line"
   ],
   "note": ""
  },
  {
   "property": "C71",
   "status": "proved",
   "theorems": [
    "USiem.Props.C71_record_document",
    "USiem.Props.C71_nearest",
    "USiem.Props.C71_overflow",
    "USiem.Props.C71_values",
    "USiem.Props.C71_exact",
    "USiem.Props.C71_same_bits",
    "USiem.Props.C71_digits_exist",
    "USiem.Props.C71_number_text",
    "USiem.Props.C71_record_text",
    "USiem.Props.C71_slow_lookup"
   ],
   "note": ""
  },
  {
   "property": "C72",
   "status": "proved",
   "theorems": [
    "USiem.Props.C72_commands",
    "USiem.Props.C72_responses",
    "USiem.Props.C72_messages",
    "USiem.Props.C72_definitions",
    "USiem.Props.C72_task_definitions",
    "USiem.Props.C72_errors",
    "USiem.Props.C72_events",
    "USiem.Props.C72_payloads",
    "USiem.Props.C72_sigma",
    "USiem.Props.C72_records",
    "USiem.Props.C72_rules",
    "USiem.Props.C72_two_operators"
   ],
   "note": ""
  },
  {
   "property": "C73",
   "status": "proved",
   "theorems": [
    "USiem.Props.C73_parserDefinition",
    "USiem.Props.C73_listedTask",
    "USiem.Props.C73_ruleDefinition",
    "USiem.Props.C73_filterEmail",
    "USiem.Props.C73_filterDomain",
    "USiem.Props.C73_filterIp",
    "USiem.Props.C73_isolateEndpoint",
    "USiem.Props.C73_isolateIp",
    "USiem.Props.C73_requirements",
    "USiem.Props.C73_useCaseDefinition",
    "USiem.Props.C73_loginUserPass",
    "USiem.Props.C73_loggedOnUser",
    "USiem.Props.C73_pagination",
    "USiem.Props.C73_queryInfo",
    "USiem.Props.C73_siemCommandHeader",
    "USiem.Props.C73_siemTask",
    "USiem.Props.C73_siemTaskResult",
    "USiem.Props.C73_commandDefinition",
    "USiem.Props.C73_datasetDefinition",
    "USiem.Props.C73_notification",
    "USiem.Props.C73_alertAggregation",
    "USiem.Props.C73_internalField",
    "USiem.Props.C73_siemAlert",
    "USiem.Props.C73_ruleState",
    "USiem.Props.C73_alertGenerator",
    "USiem.Props.C73_mitreInfo",
    "USiem.Props.C73_siemSubRule",
    "USiem.Props.C73_siemRule",
    "USiem.Props.C73_alertDictionary",
    "USiem.Props.C73_firewallEvent",
    "USiem.Props.C73_intrusionEvent",
    "USiem.Props.C73_webProxyEvent",
    "USiem.Props.C73_webServerEvent",
    "USiem.Props.C73_dnsEvent",
    "USiem.Props.C73_dhcpEvent",
    "USiem.Props.C73_localLogin",
    "USiem.Props.C73_remoteLogin",
    "USiem.Props.C73_upgradeLogin",
    "USiem.Props.C73_validationLogin",
    "USiem.Props.C73_delegationLogin",
    "USiem.Props.C73_authEvent",
    "USiem.Props.C73_sigmaLogSource",
    "USiem.Props.C73_sigmaDocument",
    "USiem.Props.C73_geoIpInfo"
   ],
   "note": ""
  },
  {
   "property": "C74",
   "status": "proved",
   "theorems": [
    "USiem.Props.C74_answer",
    "USiem.Props.C74_kinds",
    "USiem.Props.C74_contents",
    "USiem.Props.C74_error_kinds",
    "USiem.Props.C74_event_kinds",
    "USiem.Props.C74_tasks",
    "USiem.Props.C74_task_data",
    "USiem.Props.C74_address",
    "USiem.Props.C74_command",
    "USiem.Props.C74_response",
    "USiem.Props.C74_message",
    "USiem.Props.C74_parsing_error",
    "USiem.Props.C74_error"
   ],
   "note": ""
  },
  {
   "property": "C75",
   "status": "proved",
   "theorems": [
    "USiem.Props.C75_parserDefinition",
    "USiem.Props.C75_listedTask",
    "USiem.Props.C75_ruleDefinition",
    "USiem.Props.C75_filterEmail",
    "USiem.Props.C75_filterDomain",
    "USiem.Props.C75_filterIp",
    "USiem.Props.C75_isolateEndpoint",
    "USiem.Props.C75_isolateIp",
    "USiem.Props.C75_requirements",
    "USiem.Props.C75_useCaseDefinition",
    "USiem.Props.C75_loginUserPass",
    "USiem.Props.C75_loggedOnUser",
    "USiem.Props.C75_pagination",
    "USiem.Props.C75_queryInfo",
    "USiem.Props.C75_siemCommandHeader",
    "USiem.Props.C75_siemTask",
    "USiem.Props.C75_siemTaskResult",
    "USiem.Props.C75_commandDefinition",
    "USiem.Props.C75_datasetDefinition",
    "USiem.Props.C75_notification",
    "USiem.Props.C75_alertAggregation",
    "USiem.Props.C75_siemAlert",
    "USiem.Props.C75_ruleState",
    "USiem.Props.C75_alertGenerator",
    "USiem.Props.C75_mitreInfo",
    "USiem.Props.C75_siemSubRule",
    "USiem.Props.C75_siemRule",
    "USiem.Props.C75_alertDictionary",
    "USiem.Props.C75_firewallEvent",
    "USiem.Props.C75_intrusionEvent",
    "USiem.Props.C75_webProxyEvent",
    "USiem.Props.C75_webServerEvent",
    "USiem.Props.C75_dnsEvent",
    "USiem.Props.C75_dhcpEvent",
    "USiem.Props.C75_authEvent",
    "USiem.Props.C75_logins"
   ],
   "note": ""
  },
  {
   "property": "C76",
   "status": "proved",
   "theorems": [
    "USiem.Props.C76_linearizable",
    "USiem.Props.C76_no_panic",
    "USiem.Props.C76_progress",
    "USiem.Props.C76_sequential",
    "USiem.Props.C76_kept",
    "USiem.Props.C76_bystander"
   ],
   "note": ""
  },
  {
   "property": "C77",
   "status": "proved",
   "theorems": [
    "USiem.Props.C77_counters_alone",
    "USiem.Props.C77_gauges_alone",
    "USiem.Props.C77_histograms_alone",
    "USiem.Props.C77_same_family",
    "USiem.Props.C77_handles",
    "USiem.Props.C77_counters_sum",
    "USiem.Props.C77_gauges_sum",
    "USiem.Props.C77_histograms_totals",
    "USiem.Props.C77_conversions",
    "USiem.Props.C77_one_kind",
    "USiem.Props.C77_single_new",
    "USiem.Props.C77_default_bounds",
    "USiem.Props.C77_default_is_withLe"
   ],
   "note": ""
  },
  {
   "property": "C78",
   "status": "proved",
   "theorems": [
    "USiem.Props.C78_text",
    "USiem.Props.C78_unsigned",
    "USiem.Props.C78_signed",
    "USiem.Props.C78_float",
    "USiem.Props.C78_address",
    "USiem.Props.C78_texts",
    "USiem.Props.C78_injective"
   ],
   "note": ""
  },
  {
   "property": "C79",
   "status": "proved",
   "theorems": [
    "USiem.Props.C79_firewall",
    "USiem.Props.C79_intrusion",
    "USiem.Props.C79_web_proxy",
    "USiem.Props.C79_web_server",
    "USiem.Props.C79_dns",
    "USiem.Props.C79_dhcp",
    "USiem.Props.C79_login",
    "USiem.Props.C79_dataset_definition",
    "USiem.Props.C79_command_definition",
    "USiem.Props.C79_task_definition",
    "USiem.Props.C79_capabilities",
    "USiem.Props.C79_metric_definition"
   ],
   "note": ""
  },
  {
   "property": "C80",
   "status": "proved",
   "theorems": [
    "USiem.Props.C80_records",
    "USiem.Props.C80_lookup",
    "USiem.Props.C80_there_was_inserted",
    "USiem.Props.C80_flushed_survives",
    "USiem.Props.C80_crash_loses_the_end",
    "USiem.Props.C80_nothing_invented",
    "USiem.Props.C80_v4_contains",
    "USiem.Props.C80_bad_length_panics",
    "USiem.Props.C80_reliable",
    "USiem.Props.C80_read_errors_hidden",
    "USiem.Props.C80_write_errors_hidden"
   ],
   "note": ""
  },
  {
   "property": "C81",
   "status": "proved",
   "theorems": [
    "USiem.Props.C81_receives",
    "USiem.Props.C81_dummy_receives",
    "USiem.Props.C81_sends_at_once",
    "USiem.Props.C81_receiver_dropped",
    "USiem.Props.C81_known"
   ],
   "note": ""
  },
  {
   "property": "C82",
   "status": "proved",
   "theorems": [
    "USiem.Props.C82_read_while_observing",
    "USiem.Props.C82_written_while_observing"
   ],
   "note": ""
  },
  {
   "property": "C83",
   "status": "proved",
   "theorems": [
    "USiem.Props.C83_at_rest",
    "USiem.Props.C83_counters_while_changing",
    "USiem.Props.C83_gauges_while_changing",
    "USiem.Props.C83_histograms_while_observing",
    "USiem.Props.C83_bucket_above_count"
   ],
   "note": ""
  },
  {
   "property": "C84",
   "status": "proved",
   "theorems": [
    "USiem.Props.C84_function_types",
    "USiem.Props.C84_task_types",
    "USiem.Props.C84_dataset_types",
    "USiem.Props.C84_datasets",
    "USiem.Props.C84_levels",
    "USiem.Props.C84_languages"
   ],
   "note": ""
  },
  {
   "property": "C85",
   "status": "proved",
   "theorems": [
    "USiem.C85_entry",
    "USiem.C85_handover",
    "USiem.C85_exit",
    "USiem.C85_in_order",
    "USiem.C85_all_arrive",
    "USiem.C85_going_out",
    "USiem.C85_goes_on",
    "USiem.C85_comes_out"
   ],
   "note": ""
  },
  {
   "property": "C86",
   "status": "proved",
   "theorems": [
    "USiem.Props.C86_equal",
    "USiem.Props.C86_not_zero",
    "USiem.Props.C86_text"
   ],
   "note": ""
  },
  {
   "property": "C87",
   "status": "proved",
   "theorems": [
    "USiem.C87_shared_out",
    "USiem.C87_gathered",
    "USiem.C87_all_there",
    "USiem.C87_ends",
    "USiem.C87_going_out",
    "USiem.C87_goes_on",
    "USiem.C87_comes_out",
    "USiem.C87_duplicate"
   ],
   "note": ""
  },
  {
   "property": "C88",
   "status": "proved",
   "theorems": [
    "USiem.C88_loop",
    "USiem.C88_never_waits",
    "USiem.C88_kernel",
    "USiem.C88_reports",
    "USiem.C88_received",
    "USiem.C88_info_hides",
    "USiem.C88_lost_log"
   ],
   "note": ""
  },
  {
   "property": "C89",
   "status": "proved",
   "theorems": [
    "USiem.C89_seen",
    "USiem.C89_loops",
    "USiem.C89_never_waits",
    "USiem.C89_reports",
    "USiem.C89_kernel",
    "USiem.C89_received"
   ],
   "note": ""
  },
  {
   "property": "C90",
   "status": "proved",
   "theorems": [
    "USiem.C90_latest",
    "USiem.C90_in_order",
    "USiem.C90_current",
    "USiem.C90_given",
    "USiem.C90_prepared",
    "USiem.C90_prepared_run",
    "USiem.C90_wired",
    "USiem.C90_not_wired",
    "USiem.C90_overtaken"
   ],
   "note": ""
  }
 ]
}