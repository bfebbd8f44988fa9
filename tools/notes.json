{
 "C02": "Stronger expectation 'only dotted quads are accepted' is false of the code: C02_ipv4_accepts_short_text ('5' and '+1.2.3' are accepted).",
 "C07": "Stronger expectation 'for every address' is false of the code: C07_ipv6_round_trip_fails (texts of 39 characters and dotted tails are refused).",
 "C08": "The expectation that such texts are accepted with the IPv4 address as the low 32 bits is false for every address; this theorem is its negation at full strength.",
 "C11": "Stronger expectation 'every value comes back' is false of the code: C11_mac128_print_truncates, C11_mac_str_to_u128_never_inverts.",
 "C16": "Stronger expectation 'the count of the bound asked for' is false of the code with increasing bounds: C16_get_count_wrong.",
 "C17": "Stronger expectation 'always the cartesian product' is false of the code: C17_combinations_wrong (sizes 3, 3, 2). Which other size vectors happen to work is not characterised.",
 "C19": "Stronger expectation 'well-formed Prometheus text for all labels' is false of the code: C19_trailing_comma, C19_quotes_not_escaped, C19_description_breaks_line; bucket bounds are printed unquoted.",
 "C23": "Stronger expectation 'longest matching prefix, None only if nothing contains ip' is false of the code: C23_not_longest, C23_host_networks_never_found, C23_zero_address_never_found, C23_aligned_addresses_not_found.",
 "C24": "Stronger expectations are false of the code: longest match (as C23), injective keys (C24_slow_keys_collide, C24_slow_loses_v6).",
 "C25": "Stronger expectation 'exactly the entries that contain t' is false of the code: C25_first_day_lost, C25_before_epoch_lost.",
 "C28": "For geo-IP the expectation is false of the code: C28_geoip_disagrees (the test in dataset/mod.rs is inverted).",
 "C29": "Stronger expectation 'evaluating a rule always yields an answer' is false of the code: C29_unimplemented_panics, C29_rule_panics.",
 "C30": "Stronger expectation '*pat is ends-with pat and *pat* is contains pat' is false of the code: C30_leading, C30_both, C30_disagrees.",
 "C32": "Stronger expectation 'EOF is always reached and only at the end' is false of the code: C32_illegal_forever, C32_disagrees (an embedded character 0 gives EOF early).",
 "C35": "Stronger expectation 'any range of the file can be read, a range write touches only the range' is false of the code: C35_range_to_end, C35_range_write.",
 "C37": "Stronger expectation including field_mut/iter_mut is false of the code: C37_stale_after_field_mut, C37_read_then_assigned.",
 "C38": "Stronger expectation 'exactly the fields currently holding an address, always' is false of the code: C38_overwritten_still_listed, C38_schema_hides_addresses, C38_assigned_not_listed.",
 "C39": "Stronger expectation 'has_tag finds a tag as it was added' is false of the code: C39_uppercase_tag_not_found.",
 "C40": "Stronger expectation 'event_created returns what set_event_created set' is false of the code: C40_set_created_reads_zero.",
 "C41": "Stronger expectation 'an equivalence consistent with Hash' is false of the code: C41_not_symmetric, C41_not_transitive, C41_equal_but_hash_differs.",
 "C45": "Stronger expectation 'every method name, unknown names preserved' is false of the code: C45_put, C45_unknown, C45_print.",
 "C48": "Stronger expectation 'every event can be read back' is false of the code: C48_dns_query_data, C48_dhcp_mac_cut."
}