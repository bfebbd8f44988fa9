# Axioms each property theorem depends on

Generated with `#print axioms` by `tools/axioms.py`; no other axioms occur.

## no axioms (18 theorems)

C19_quotes_not_escaped, C25_first_day_lost, C25_before_epoch_lost, C26_language_other, C27_new, C30_disagrees, C30_only_stars, C34_max_level, C35_dummy, C36_task_class, C36_task_class_text, C39_common_tags_distinct, C48_as_cow, C64_members, C65_generator_text, C77_conversions, C77_one_kind, C79_metric_definition

## propext (73 theorems)

C06_ipv6_accepts_stray_colon, C07_ipv6_round_trip_fails, C09_mac48_malformed_texts, C11_mac128_print_truncates, C12_selector_empty_word_matches, C16_get_count_returns_first_bucket, C17_combinations_wrong, C18_definition_new_iff, C18_definition_errors, C20_empty_batch_panics, C22_blocking_insert_waits, C28_open_geoip, C28_open_i18n, C29_unimplemented_panics, C29_trigger_list_ignored, C29_null_value_is_not_null, C30_unknown_modifier, C30_printing, C30_printed_form, C30_field_value, C30_any_values, C30_any_value, C31_unique, C32_words, C32_quoted, C32_disagrees, C33_runs_as_duplicate, C33_stop, C33_progress, C34_threads, C35_write_results, C36_result_round_trip, C36_get_type, C36_kinds_distinguishable, C36_same_kind_same_tag, C40_reads_field, C41_other_iff, C42_to_text, C42_strict_conversions, C42_not_finite, C43_numbers, C45_known, C45_only, C45_put, C45_unknown, C45_print, C45_outcome_equals, C46_assigned, C47_tactic_parse, C47_tactic_injective, C47_tactic_names_rejected, C47_json_written, C47_json_tactic_read, C48_dns_query_data, C49_attribute_is_field, C49_attributes_independent, C49_new, C50_severity, C51_address_never_read_back, C51_new_query, C55_defaults, C56_prints_text, C56_prints_others, C56_user_id, C57_operator_equality, C58_not_written, C58_default, C59_nested_form, C59_conversions, C63_flags, C65_generator, C66_no_null, C78_injective

## Quot.sound (1 theorems)

C30_other

## Quot.sound, propext (151 theorems)

C01_ipv4_from_bytes, C09_groups, C13_family_reset_is_not_one_step, C13_counter_found_iff, C13_counter_new_panics_iff, C17_combinations_sound, C17_combinations_empty, C17_all_combinations_mem, C17_all_combinations_nodup, C18_valid_name_iff, C18_valid_description_iff, C19_description_breaks_line, C21_networks, C21_any_partition_ip_set, C21_any_partition_text_map, C21_any_partition_rules, C21_any_partition_networks, C21_ip_map, C21_ip_set, C21_text_map, C21_rules, C21_any_partition, C22_enough_room, C22_enough_room_rules, C23_not_longest, C24_slow_key_shape, C24_slow_keys_collide, C24_slow_get_total, C24_slow_loses_v6, C28_ip_map, C28_ip_map_list, C28_text_map, C28_ip_set, C28_text_set, C28_text_map_list, C28_ip_net, C28_geoip_inverted, C28_geoip_disagrees, C28_custom_map_ip_net, C28_custom_map_text, C28_custom_map_text_list, C28_custom_ip_list, C28_custom_ip_map, C28_custom_text_list, C29_condition, C30_modifiers, C30_text_modifiers, C32_progress, C33_order, C33_after_end, C33_error, C33_output, C33_tick_times, C33_ticks_seen, C33_first_tick, C33_stop_obeyed, C33_state, C34_log, C34_direct, C34_new_and_set_level, C34_try_send, C34_send, C34_send_timeout, C34_uninitialized, C34_level_valid, C35_clone, C35_new_apart, C35_range_to_end, C36_result_reads_exactly, C37_stale_after_field_mut, C37_has_field_iff, C38_overwritten_still_listed, C38_schema_hides_addresses, C38_assigned_not_listed, C39_uppercase_tag_not_found, C42_numeric_domain, C42_i64_exact, C42_u64_exact, C42_float_truncates, C42_out_of_range, C42_f64_exact, C42_to_array, C42_contains, C42_float_truncates_unsigned, C42_out_of_signed_range, C42_dates, C42_u64_saturates, C44_apply_idempotent, C44_protected, C45_round_trip, C45_equals, C46_names, C48_dhcp_mac_cut, C50_conditions, C52_field_refuses, C53_log_field_read, C53_read_log_is_bare, C54_log_message, C54_message_written_iff, C55_unknown_key_refused, C55_reads_exactly, C56_contains_iff, C56_kinds, C57_bad_regex_refused, C57_condition_reads_exactly, C57_comparison_equality, C58_written, C58_kind_required, C59_error_round_trip, C59_error_with_log, C59_written_form, C59_read_form, C59_errors_distinguishable, C59_conversions_survive, C61_use_case_document, C62_ip_set, C62_slow_document, C62_language_reads_exactly, C62_language_round_trip, C64_names, C64_gdpr, C65_default_quiet, C65_can_stop, C66_no_selection, C66_unknown_ignored, C69_hash_whole, C71_record_document, C72_two_operators, C75_logins, C76_bystander, C80_there_was_inserted, C80_flushed_survives, C80_crash_loses_the_end, C80_bad_length_panics, C80_reliable, C80_read_errors_hidden, C80_write_errors_hidden, C81_receiver_dropped, C81_known, C87_duplicate, C88_loop, C88_never_waits, C88_kernel, C89_seen, C89_loops, C89_never_waits, C89_kernel, C90_in_order, C90_prepared, C90_not_wired, C90_overtaken

## Classical.choice, Quot.sound, propext (619 theorems)

C01_ipv4_round_trip, C01_ipv4_print_injective, C01_ipv4_print, C02_ipv4_parse_total, C02_ipv4_accepts_quads, C02_ipv4_accepts_exactly, C02_ipv4_accepts_short_text, C02_ipv4_rejects_long, C02_is_ipv4_iff, C02_ipv4_value_bounded, C03_is_local_ipv4_iff, C04_is_local_ipv6_iff, C05_port_functions_agree, C05_port_parse_iff, C05_port_round_trip, C06_ipv6_parse_total, C06_ipv6_text_total, C06_is_ipv6_iff, C06_ipv6_value_bounded, C06_ipv6_accepts_exactly, C07_ipv6_round_trip_iff, C07_ipv6_print_injective, C08_ipv6_dotted_tail_never_accepted, C09_mac48_round_trip, C09_mac48_round_trip_any, C09_mac48_accepts, C09_mac48_exactly, C10_mac64_round_trip, C10_mac64_round_trip_any, C10_mac64_exactly, C11_mac128_round_trip_any_iff, C11_mac_str_to_u128_never_inverts, C11_any_groups, C11_any_accepts, C11_mac128_exactly, C11_any_exactly, C12_selector_none_iff, C12_selector_some_iff, C13_every_counter_linearizable, C13_concurrent_increments, C13_counter_since_last_reset, C13_concurrent_resets_linearizable, C14_every_gauge_linearizable, C14_gauge_last_set_plus_changes, C14_gauge_concurrent_changes, C14_gauge_whole_numbers_exact, C15_comparisons, C15_histogram_totals, C15_histogram_cumulative, C15_histogram_bucket_le_count_always, C15_buckets_not_monotone_midway, C16_get_count_is, C16_get_count_wrong, C16_get_count_decreasing, C17_combinations_equal_sizes, C17_values_lost, C17_complete_iff, C19_series_line, C19_trailing_comma, C19_counters_lines, C19_gauges_lines, C19_counters_one_line_each, C19_histogram_lines, C19_histograms_text, C20_ip_map, C20_ip_set, C20_text_map, C20_rules, C20_text_set_insert, C20_text_map_list_insert, C22_drained, C22_drained_rules, C22_waiting_insert_ends, C22_reader_sees_received_ip_set, C22_reader_sees_received_text_map, C22_reader_sees_received_rules, C22_reader_sees_received_networks, C22_fifo, C22_rules_fifo, C22_try_insert_returns_rule, C22_insert_timeout, C22_empty_drops, C22_reader_sees_received, C23_history, C23_apply_updates, C23_lookup, C23_longest_when_not_nested, C23_answer_is_a_containing_network, C23_host_networks_never_found, C23_zero_address_never_found, C23_aligned_addresses_not_found, C23_insert_panics_iff, C24_lookup, C24_longest_when_not_nested, C24_slow_key_v4_injective, C24_slow_key_v6_same_length, C24_slow_agrees_with_fast_v4, C24_slow_key_iff, C24_slow_lookup, C25_lookup, C25_same_day, C25_after_first_day, C25_sound, C26_history, C26_get_or_default, C26_none_iff_unknown, C26_language_codes, C26_language_names, C27_history, C27_subset, C27_types, C27_accessors, C28_identity, C29_matches_iff, C29_answers, C29_rule_panics, C29_operator_eq_refl, C30_plain, C30_trailing, C30_leading, C30_both, C30_cases, C31_split, C31_edge, C31_concat, C32_call, C32_start, C32_deterministic, C32_never_stuck, C32_ends, C32_illegal_forever, C32_eof_forever, C33_forward, C33_no_loss, C33_ok, C33_self_deadlock, C33_given_channels, C33_new_stuck, C33_reader_gone, C34_history, C34_bounded, C35_value_absent, C35_value_replaced, C35_value_first, C35_file_absent, C35_file_last, C35_range, C35_range_safe, C35_range_write, C37_history_total, C37_last_write, C37_untouched, C37_typed_getters, C37_ip_getter, C37_read_then_assigned, C38_ip_fields_in_general, C38_ip_fields_are, C38_ip_fields_current, C39_common_tags, C39_common_tags_separate, C39_tags_are, C39_has_tag, C39_tags_mirrored, C40_timestamps, C40_inserted_date, C40_set_created_reads_zero, C41_reflexive, C41_textual_iff, C41_equivalence, C41_cross, C41_symmetric_iff, C41_not_symmetric, C41_not_transitive, C41_equal_hash, C41_equal_but_hash_differs, C42_to_ip, C42_ip_text_round_trip, C42_to_array_contents, C43_from_str_total, C43_from_str_v4, C43_from_str_v6, C43_from_str_error, C43_v4_round_trip, C43_v6_round_trip, C43_print_injective, C43_eq_iff_print, C43_equals_v4, C43_equals_v6, C43_equals_printed, C43_octets4, C43_octets16, C43_is_local, C44_merge, C44_merge_names, C44_merge_idempotent, C44_apply, C44_insert, C44_remove, C44_well_formed, C44_base_schema_drops_timestamps, C46_unassigned, C46_distinct, C46_never, C47_technique_parse, C47_technique_injective, C47_technique_reachable, C47_technique_unique_text, C47_json_technique_read, C47_json_name_as_identifier, C48_firewall, C48_intrusion, C48_web_proxy, C48_web_server, C48_dns, C48_dhcp, C48_auth, C48_event, C48_firewall_keeps, C48_intrusion_keeps, C48_web_proxy_keeps, C48_web_server_keeps, C48_dns_keeps, C48_dhcp_keeps, C48_auth_keeps, C49_text_attributes, C50_ends, C50_kept, C50_subrules, C51_integers, C51_call_round_trip_iff, C51_response_after_json, C51_response_round_trip_iff, C52_field_reads_exactly, C52_field_after_json, C52_field_survives_iff, C52_second_trip_is_stable, C53_log_read_as, C53_log_readable_iff, C53_log_with_message_never_read, C53_new_log_never_read, C53_log_read_from_objects, C54_alert_message, C54_notification_round_trip, C54_task_round_trip, C54_task_result_round_trip, C54_command_round_trip_iff, C54_response_after_json, C54_log_and_alert_never_read, C55_definition_round_trip, C56_prints_numbers, C56_eq_ignore_case_iff, C56_eq_ignore_case_str_iff, C56_eq_ignore_case_equivalence, C57_operator_after_json, C57_operator_survives_iff, C57_condition_after_json, C57_rule_after_json, C57_rule_survives_iff, C57_rule_text_read_iff, C57_dictionary_round_trip, C57_dictionary_lookup, C57_dictionary_language, C58_round_trip, C58_addresses_never_read, C58_reads_tagged, C58_v6_and_dhcp_never_read, C58_direct_reading, C58_direct_never_read, C58_free_document, C58_null_document, C58_protocol, C58_enumerations, C58_free_document_normal, C58_free_document_repeated, C58_array_form, C58_protocol_by_number, C59_error_about_log_never_read, C60_moments, C60_gauges_while_changing, C60_every_schedule_has_an_order, C60_written_at_rest, C60_counters_while_changing, C60_histograms_after_observations, C60_histogram_torn, C60_kind_members, C60_definition_document, C61_capabilities_readable, C61_use_case_read_as_definition, C61_use_case_same_document_iff, C62_rules_same, C62_networks_carry, C62_calendar_same, C62_translations_same, C62_rules_update, C62_any_network_update, C62_ip_map, C62_ip_map_once, C62_ip_map_same, C62_ip_set_once, C62_ip_set_same, C62_text_map, C62_text_map_once, C62_text_map_same, C62_text_set, C62_rules, C62_rules_own_name, C62_networks_stored, C62_networks, C62_networks_same, C62_calendar, C62_language_json_vs_from, C62_translations_written_iff, C62_translations, C62_coordinate_value, C62_record_round_trip, C62_slow_lookup, C62_ip_map_update, C62_ip_set_update, C62_text_map_update, C62_network_update, C62_update_dataset, C62_update_form, C62_update_contents, C62_update_kinds, C62_update_exists_iff, C62_dataset_document, C63_event_fields_kept, C63_event_values_fit, C63_fields_filled, C63_accessors, C63_tags_unfit, C63_base_and_default, C63_base_with_default, C64_fields, C64_description_unique, C64_once, C64_same, C65_filter, C65_default_forwards, C65_stop_sent, C65_helper, C65_may_hang, C65_parsers, C65_schema_erases, C65_generator_config, C66_value, C66_value_unique, C66_selection, C66_detection, C66_document, C66_round_trip, C66_condition_clash, C66_bad_selection, C66_required, C66_import, C67_nearest, C67_overflow, C67_exact, C67_monotone, C67_error, C67_small_integers, C67_gauge_error, C67_gauge_concurrent_error, C67_histogram_error, C67_gauge_monotone, C67_gauge_saturates, C67_gauge_decimals, C67_gauge_029, C67_histogram_drift, C67_field_nearest, C67_field_collision, C68_calendar, C68_text, C68_text_unique, C68_equal, C68_out_of_range_equal, C68_four_digit_years, C68_order, C68_other_kinds, C69_reads_back, C69_shortest, C69_injective, C69_fifteen_digits, C69_same_text, C69_whole_numbers, C69_field_equality, C69_field_integer, C69_large_differs, C69_field_text, C69_field_list, C69_hash_negative, C69_stored_exact, C69_gauge_lines, C69_gauge_whole, C69_histogram_sum, C69_rule_number, C70_event_text, C70_event_read, C70_event_reads_tagged, C70_free_document_text, C70_sigma_text, C70_schema_text, C70_dataset_text, C70_dataset_same_text, C70_digits_exist, C70_language, C70_from_str, C70_number_exact, C70_number_near, C70_number_refused, C70_round_trip, C70_too_deep, C70_close, C70_long_float_changes, C70_injective, C70_one_line, C70_command_text, C70_response_text, C70_message_text, C70_message_round_trip, C70_error_text, C70_definition_text, C70_dictionary_text, C70_rule_text, C70_log_line, C71_nearest, C71_overflow, C71_values, C71_exact, C71_same_bits, C71_digits_exist, C71_number_text, C71_record_text, C71_slow_lookup, C72_commands, C72_responses, C72_messages, C72_definitions, C72_task_definitions, C72_errors, C72_events, C72_payloads, C72_sigma, C72_records, C72_rules, C73_parserDefinition, C73_listedTask, C73_ruleDefinition, C73_filterEmail, C73_filterDomain, C73_filterIp, C73_isolateEndpoint, C73_isolateIp, C73_requirements, C73_useCaseDefinition, C73_loginUserPass, C73_loggedOnUser, C73_pagination, C73_queryInfo, C73_siemCommandHeader, C73_siemTask, C73_siemTaskResult, C73_commandDefinition, C73_datasetDefinition, C73_notification, C73_alertAggregation, C73_internalField, C73_siemAlert, C73_ruleState, C73_alertGenerator, C73_mitreInfo, C73_siemSubRule, C73_siemRule, C73_alertDictionary, C73_firewallEvent, C73_intrusionEvent, C73_webProxyEvent, C73_webServerEvent, C73_dnsEvent, C73_dhcpEvent, C73_localLogin, C73_remoteLogin, C73_upgradeLogin, C73_validationLogin, C73_delegationLogin, C73_authEvent, C73_sigmaLogSource, C73_sigmaDocument, C73_geoIpInfo, C74_answer, C74_kinds, C74_contents, C74_error_kinds, C74_event_kinds, C74_tasks, C74_task_data, C74_address, C74_command, C74_response, C74_message, C74_parsing_error, C74_error, C75_parserDefinition, C75_listedTask, C75_ruleDefinition, C75_filterEmail, C75_filterDomain, C75_filterIp, C75_isolateEndpoint, C75_isolateIp, C75_requirements, C75_useCaseDefinition, C75_loginUserPass, C75_loggedOnUser, C75_pagination, C75_queryInfo, C75_siemCommandHeader, C75_siemTask, C75_siemTaskResult, C75_commandDefinition, C75_datasetDefinition, C75_notification, C75_alertAggregation, C75_siemAlert, C75_ruleState, C75_alertGenerator, C75_mitreInfo, C75_siemSubRule, C75_siemRule, C75_alertDictionary, C75_firewallEvent, C75_intrusionEvent, C75_webProxyEvent, C75_webServerEvent, C75_dnsEvent, C75_dhcpEvent, C75_authEvent, C76_linearizable, C76_no_panic, C76_progress, C76_sequential, C76_kept, C77_counters_alone, C77_gauges_alone, C77_histograms_alone, C77_same_family, C77_handles, C77_counters_sum, C77_gauges_sum, C77_histograms_totals, C77_single_new, C77_default_bounds, C77_default_is_withLe, C78_text, C78_unsigned, C78_signed, C78_float, C78_address, C78_texts, C79_firewall, C79_intrusion, C79_web_proxy, C79_web_server, C79_dns, C79_dhcp, C79_login, C79_dataset_definition, C79_command_definition, C79_task_definition, C79_capabilities, C80_records, C80_lookup, C80_nothing_invented, C80_v4_contains, C81_receives, C81_dummy_receives, C81_sends_at_once, C82_read_while_observing, C82_written_while_observing, C83_at_rest, C83_counters_while_changing, C83_gauges_while_changing, C83_histograms_while_observing, C83_bucket_above_count, C84_function_types, C84_task_types, C84_dataset_types, C84_datasets, C84_levels, C84_languages, C85_entry, C85_handover, C85_exit, C85_in_order, C85_all_arrive, C85_going_out, C85_goes_on, C85_comes_out, C86_equal, C86_not_zero, C86_text, C87_shared_out, C87_gathered, C87_all_there, C87_ends, C87_going_out, C87_goes_on, C87_comes_out, C88_reports, C88_received, C88_info_hides, C88_lost_log, C89_reports, C89_received, C90_latest, C90_current, C90_given, C90_prepared_run, C90_wired
