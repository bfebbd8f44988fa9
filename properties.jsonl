{"id": "C01", "title": "IPv4 text round trip", "statement": "Formatting any 32-bit address with ipv4_to_str and parsing the text back with ipv4_from_str returns the same address; hence two different addresses never print alike.", "quantifier": "every u32", "why_tests_cant": "4 billion inputs; tests sample a handful", "anchors": ["src/utilities/ip_utils.rs: ipv4_from_str, ipv4_to_str"]}
{"id": "C02", "title": "IPv4 parser: exact language", "statement": "ipv4_from_str never panics or overflows; it returns Ok exactly for one to four dot-separated groups, each a decimal number of at most 255 with an optional leading '+', and then the big-endian value of the groups (below 2^32); in particular every dotted quad is read as its address and five or more groups are an error. is_ipv4 answers exactly whether the parser accepts.", "quantifier": "every text", "why_tests_cant": "the set of texts is infinite; rejection must hold for all malformed texts", "anchors": ["src/utilities/ip_utils.rs: ipv4_from_str, is_ipv4"]}
{"id": "C03", "title": "Local IPv4 ranges", "statement": "is_local_ipv4(ip) is true exactly when ip lies in 10.0.0.0-10.255.255.255, 172.16.0.0-172.31.255.255, 192.168.0.0-192.168.255.255 or 100.64.0.0-100.127.255.255.", "quantifier": "every u32", "why_tests_cant": "boundary behaviour over the whole address space", "anchors": ["src/utilities/ip_utils.rs: is_local_ipv4", "src/events/ip.rs: SiemIp::is_local"]}
{"id": "C04", "title": "Local IPv6 range", "statement": "is_local_ipv6(ip) is true exactly for fc00::/7.", "quantifier": "every u128", "why_tests_cant": "2^128 inputs", "anchors": ["src/utilities/ip_utils.rs: is_local_ipv6"]}
{"id": "C05", "title": "ip:port parsing", "statement": "parse_ipv4_port and is_ipv4_port agree on every text; for every address and port the text address:port parses to that pair; the split is at the last colon, and success means both halves parse.", "quantifier": "every text; every (u32,u16)", "why_tests_cant": "agreement of two functions over all strings", "anchors": ["src/utilities/ip_utils.rs: parse_ipv4_port, is_ipv4_port, port_to_u16"]}
{"id": "C06", "title": "IPv6 parser is total and memory-safe", "statement": "ipv6_from_str returns Ok or Err, terminates and never indexes out of bounds or overflows, for every byte string; an accepted value fits in 128 bits.", "quantifier": "every byte string", "why_tests_cant": "panics hide in rare inputs; tests cover a few addresses", "anchors": ["src/utilities/ip_utils.rs: ipv6_from_str, read_hextet, hex_to_digit, ipv4_to_u32_bytes"]}
{"id": "C07", "title": "IPv6 text round trip", "statement": "For every 128-bit address, ipv6_from_str(ipv6_to_str(ip)) is Ok(ip) exactly when the address is not IPv4-mapped and not all of its eight groups need four digits; different addresses never print alike.", "quantifier": "every u128", "why_tests_cant": "2^128 inputs; only rare textual forms fail", "anchors": ["src/utilities/ip_utils.rs: ipv6_from_str, ipv6_to_str"]}
{"id": "C08", "title": "IPv6 texts with a dot are refused", "statement": "ipv6_from_str refuses every text that contains a dot, at any position, although it has a branch for an embedded IPv4 tail (x:x:x:x:x:x:d.d.d.d, ::d.d.d.d).", "quantifier": "every address and textual form with a dotted tail", "why_tests_cant": "no test covers the branch; must hold for all addresses", "anchors": ["src/utilities/ip_utils.rs: ipv6_from_str"]}
{"id": "C09", "title": "MAC-48 round trip", "statement": "For every 48-bit value, parsing the text printed by mac_u48_to_str with mac_str_to_u48 (or mac_str_to_u128_any) gives the value back, whichever of '-' or ':' separates the groups. On every text it answers exactly when the first six groups are hexadecimal numbers of 64 bits (a plus sign allowed) whose sum, each shifted to its place, fits 64 bits, and it overflows exactly when the sum of some first groups does not.", "quantifier": "every 48-bit value; every text", "why_tests_cant": "2^48 inputs", "anchors": ["src/utilities/mac.rs: mac_u48_to_str, mac_str_to_u48, mac_str_to_u128_any"]}
{"id": "C10", "title": "EUI-64 round trip", "statement": "For every 64-bit value, parsing the text printed by mac_u64_to_str gives the value back. On every text it answers and overflows as in C09, with eight groups.", "quantifier": "every u64; every text", "why_tests_cant": "2^64 inputs", "anchors": ["src/utilities/mac.rs: mac_u64_to_str, mac_str_to_u64"]}
{"id": "C11", "title": "128-bit MAC round trip", "statement": "For every 128-bit value, printing with mac_u128_to_str and parsing with mac_str_to_u128_any gives the value back exactly when it is below 2^64 or at least 2^96; with mac_str_to_u128 never. mac_str_to_u128_any only answers for texts of 6, 8 or 16 groups and reads groups of one or two hexadecimal digits as their big-endian value. On every text both parsers answer exactly when the groups they read are hexadecimal numbers of 128 bits whose sum, each shifted to its place, fits, and overflow exactly when the sum of some first groups does not.", "quantifier": "every u128; every text", "why_tests_cant": "2^128 inputs", "anchors": ["src/utilities/mac.rs: mac_u128_to_str, u128_to_str, mac_str_to_u128, mac_str_to_u128_any"]}
{"id": "C12", "title": "Rule selector picks a best match", "statement": "After any sequence of additions, searching a text returns a rule maximising the number of query words (the pieces between separators, empty pieces included) found in its description, the alphabetically first among ties, and nothing exactly when no query word occurs in any description.", "quantifier": "every history of additions and every query", "why_tests_cant": "optimality over all rule sets and queries", "anchors": ["src/utilities/rule_selector.rs: RuleSelector::add, RuleSelector::search"]}
{"id": "C13", "title": "Counters sum all increments", "statement": "Under every interleaving of threads holding clones of a counter, the value read at the end is the sum (mod 2^64) of all increments, or with resets, of a single counter or of the whole family, the sum of the increments after the last reset in some order of the calls that respects the order of every thread. Counters of different label sets never influence each other. The reset of a family is not one step: no single order need explain all its counters.", "quantifier": "every number of threads, every schedule, every increment", "why_tests_cant": "interleavings", "anchors": ["src/components/metrics/counter.rs: Counter, CounterVec"]}
{"id": "C14", "title": "Gauges: last set plus later adjustments", "statement": "After any history of set/inc/dec operations on a gauge and its clones the gauge reads the last set value plus/minus the later adjustments, in fixed-point; with several threads, in some order of the calls that respects the order of every thread.", "quantifier": "every operation history, every number of threads and schedule", "why_tests_cant": "unbounded histories", "anchors": ["src/components/metrics/gauge.rs: Gauge, GaugeVec"]}
{"id": "C15", "title": "Histogram buckets are cumulative", "statement": "After any observations, each bucket holds the number of observed values not above its bound; counts never decrease with the bound, never exceed the total count, and the total count is the number of observations and the sum their normalised sum.", "quantifier": "every history of observations and all bucket bounds", "why_tests_cant": "unbounded histories", "anchors": ["src/components/metrics/histogram.rs: Histogram, HistogramBucket"]}
{"id": "C16", "title": "Histogram bucket lookup", "statement": "After any observations by any threads, get_count(le) returns the count of the first configured bound (in configuration order) that is not above le, i.e. the number of observations not above that bound, and None when every bound is above le. So with increasing bounds it always returns the smallest bucket; it is the count of the bound asked for when the bounds are configured in decreasing order.", "quantifier": "every history and bound", "why_tests_cant": "depends on ordering of all buckets", "anchors": ["src/components/metrics/histogram.rs: HistogramBucket::get_count"]}
{"id": "C17", "title": "Label combinations", "statement": "label_combinations never panics, returns as many combinations as the cartesian product has, and every combination picks one of the offered values for each label, in order. It is exactly the cartesian product, each combination once, whenever all labels after the first have the same number of values (always with one or two labels), and empty when some label has no values. If the values of each label are distinct, all combinations are produced exactly when some label has no values, or all labels after the first have the same number of values, or labels with one value are followed by one label and then by labels with the same number of values, not fewer than that one. A label other than the first never shows more of its values than the last label has.", "quantifier": "every list of labels with value lists", "why_tests_cant": "sizes unbounded; fails only for mixed sizes", "anchors": ["src/components/metrics/mod.rs: label_combinations"]}
{"id": "C18", "title": "Metric definitions validate names", "statement": "A SiemMetricDefinition can be built exactly when its name matches ^[a-z][a-z0-9_]+[a-z]$ and its description matches ^[\\w\\s]+$; the stored fields are the given ones.", "quantifier": "every text", "why_tests_cant": "all strings", "anchors": ["src/components/metrics/mod.rs: SiemMetricDefinition::new, valid_name, valid_description"]}
{"id": "C19", "title": "Prometheus text: the exact lines", "statement": "Encoding a CounterVec / GaugeVec emits the HELP line if asked, the TYPE line and then exactly one sample line per series with its labels (those with empty values skipped) and the value read; the line has a stray comma before the brace exactly when the last label value is empty and another is not. A histogram with observations prints one line per bucket, the sum and the count; one without prints nothing. With names, labels and description free of line feeds no line contains another.", "quantifier": "every vector of series and all label values", "why_tests_cant": "all label texts, empty values", "anchors": ["src/components/metrics/counter.rs: CounterVec::encode", "src/components/metrics/gauge.rs: GaugeVec::encode", "src/components/metrics/histogram.rs: HistogramVec::encode"]}
{"id": "C20", "title": "Keyed dataset updates refine a map", "statement": "For text maps, IP maps, IP map lists, IP sets and rules: applying any sequence of Add/Remove/Replace updates to a dataset gives, for every key, exactly the value of the last update concerning that key (Replace concerns every key), and keys not concerned keep the old value.", "quantifier": "every starting dataset, every update history, every key", "why_tests_cant": "unbounded histories", "anchors": ["src/components/dataset/ip_map.rs", "src/components/dataset/ip_set.rs", "src/components/dataset/ip_map_list.rs", "src/components/dataset/text_map.rs", "src/components/dataset/rules.rs"]}
{"id": "C21", "title": "Batching updates does not matter", "statement": "Applying a batch of updates at once equals applying it split at any point in consecutive batches.", "quantifier": "every dataset, every update list, every split", "why_tests_cant": "unbounded histories", "anchors": ["src/components/dataset/ip_map.rs: apply_updates", "src/components/dataset/rules.rs"]}
{"id": "C22", "title": "Dataset update channel: FIFO, no silent corruption", "statement": "Updates that the bounded channel accepted reach the consumer in submission order, each exactly once; when the channel is full or closed an update is dropped as a whole and the rules dataset hands the rejected rule back; readers keep seeing the snapshot until it is replaced.", "quantifier": "every interleaving of producers and the consumer", "why_tests_cant": "schedules", "anchors": ["src/components/dataset/ip_set.rs: IpSetSynDataset", "src/components/dataset/rules.rs: RulesSynDataset", "src/components/dataset/text_map.rs"]}
{"id": "C23", "title": "Network dataset lookup", "statement": "After any history of additions, removals and replacements with existing prefix lengths, each network carries what the last update concerning it says, and get(ip) returns the data of the shortest stored network containing ip among the lengths tried (not the full length; at least one of the last len+1 bits of the address is set), None if there is none. An answer always belongs to a stored network containing ip; it is the longest match when the stored networks containing ip are not nested and of a tried length. Adding panics exactly for a prefix length that does not exist.", "quantifier": "every insertion/removal history and every address", "why_tests_cant": "all addresses and all prefix sets", "anchors": ["src/components/dataset/ip_net.rs: IpNetDataset::get, insert, remove"]}
{"id": "C24", "title": "Geo-IP lookup, in memory and on disk", "statement": "The in-memory geo-IP dataset answers with the record of the shortest tried stored network containing the address (as C23). The on-disk dataset never panics on lookup and answers with the last record inserted under the key of the shortest tried length that has one; two networks have the same key exactly if they are the same network, except that IPv6 lengths do not count and an IPv4 /1 can meet an IPv6 network. With IPv4 networks only, both datasets answer alike.", "quantifier": "every insertion history, every address, every pair of networks", "why_tests_cant": "all addresses", "anchors": ["src/components/dataset/geo_ip/fast.rs", "src/components/dataset/geo_ip/slow.rs"]}
{"id": "C25", "title": "Calendar lookup", "statement": "After any insertions and at every instant t, CalendarDataset.get(t) returns, in insertion order, the entries whose [start,end] interval contains t, each once, except that an entry of more than one day is left out on its first day (after the epoch; before it, on all other days), midnights apart; None when there are none. Nothing is reported that does not contain t; entries within one day are always reported.", "quantifier": "every insertion history, every instant", "why_tests_cant": "all instants, multi-day intervals", "anchors": ["src/components/dataset/calendar.rs"]}
{"id": "C26", "title": "Translation fallback", "statement": "I18n get_or_default returns the text in the requested language, else English, else the first language present, and nothing only when the key is unknown; setting a text affects only that key and language.", "quantifier": "every history of insertions, every key and language", "why_tests_cant": "unbounded histories", "anchors": ["src/components/dataset/i18n.rs"]}
{"id": "C27", "title": "Dataset holder keeps the latest dataset per type", "statement": "A DatasetHolder returns for each dataset type the last dataset inserted with that type; a subset contains exactly the requested types that are present.", "quantifier": "every insertion history, every type", "why_tests_cant": "unbounded histories", "anchors": ["src/components/dataset/holder.rs", "src/components/dataset/mod.rs"]}
{"id": "C28", "title": "Typed dataset conversions", "statement": "Converting a typed dataset plus its type tag into SiemDataset succeeds exactly for a tag of the same family, yields a dataset reporting that tag, and converting back returns the same payload; custom lookups succeed only if the names agree. The one exception is geo-IP, which is refused with its own tag and accepted with every other tag. Datasets compare, order and serialise by their type only.", "quantifier": "every dataset kind, tag and name", "why_tests_cant": "the family/tag matrix with arbitrary names", "anchors": ["src/components/dataset/mod.rs: SiemDataset, TryFrom impls, try_to_custom_*"]}
{"id": "C29", "title": "Rule evaluation", "statement": "A rule matches a log exactly when every condition of every sub-rule uses an implemented operator and holds on the log; a rule made of implemented operators always answers; a rule panics exactly when, all earlier conditions being satisfied, a condition uses an unimplemented operator on a field the log has. The trigger list of the rule plays no role.", "quantifier": "every rule and every log", "why_tests_cant": "all rules and logs", "anchors": ["src/components/rule/mod.rs: SiemRule::matches, RuleCondition::matches"]}
{"id": "C30", "title": "Sigma wildcard translation", "statement": "A Sigma text without wildcard at either end becomes equality, pat* starts-with pat, *pat starts-with pat, *pat* contains pat without its last character (a panic if that is not ASCII), one or two stars starts-with nothing or one star; these are all cases. Numbers become equality, null the null test, lists any-of; the modifiers contains, startswith, endswith, equals and contains|all give those operators on the printed value; unknown modifiers give a condition that asks for nothing. Printing a value panics exactly if it has a null inside.", "quantifier": "every text", "why_tests_cant": "all strings", "anchors": ["src/components/rule/sigma.rs: translate_content_to_operator, translate_operator"]}
{"id": "C31", "title": "Sigma alert text rendering", "statement": "Tokenising an alert description splits it in literal texts and $field references whose concatenation is the original description, in order.", "quantifier": "every description", "why_tests_cant": "all strings", "anchors": ["src/components/rule/sigma.rs: transform_alert_content, SigmaDescriptionLexer"]}
{"id": "C32", "title": "Query lexer terminates and covers the query", "statement": "On every query each call of next_token ends without panic and takes one deterministic step on what is left of the query; after at most as many tokens as the query has characters comes EOF or ILLEGAL; nothing outside the query is read and nothing read twice; words, numbers, functions and quoted texts are pieces of the query. After ILLEGAL every later call is ILLEGAL, after EOF every later call is EOF at the end of the query.", "quantifier": "every query text", "why_tests_cant": "all strings", "anchors": ["src/components/query/mod.rs: QueryLexer"]}
{"id": "C33", "title": "Component run loop", "statement": "SimpleComponent.run handles messages of each channel in arrival order, each at most once, handles none after a stop command, survives handler errors, ends with an error only if a tick fails, and forwards exactly the logs for which the handler returned one. A command to stop that has arrived is obeyed: while only the component and the receiver of its logs go on, in any order, `run` returns after a bounded number of steps. Once nobody can receive its logs, a component handles messages only until `on_log` returns the next log, which is lost, and `run` returns Ok.", "quantifier": "every schedule of arrivals, ticks and handler results", "why_tests_cant": "schedules", "anchors": ["src/components/simplified.rs: SimpleComponent::run"]}
{"id": "C34", "title": "Kernel messenger filtering", "statement": "A log notification reaches the kernel exactly when its level passes both the global maximum and the messenger level and the channel has room; other messages are never filtered, errors distinguish full, closed and timeout, and a rejected message never appears on the channel.", "quantifier": "every level combination, every channel state", "why_tests_cant": "all interleavings of senders with the kernel", "anchors": ["src/components/kernel_message.rs: KernelMessager", "src/logging/mod.rs", "src/err.rs"]}
{"id": "C35", "title": "State storage semantics", "statement": "TestingStorage behaves as two maps: set_value without replace keeps the first value, with replace keeps the last; reads return the last effective write; clones observe each other, separate storages do not; a range read returns exactly those bytes when the range ends before the last byte and is refused otherwise, never panicking; a range write replaces the whole file.", "quantifier": "every operation history on any clones", "why_tests_cant": "unbounded histories", "anchors": ["src/components/storage.rs: TestingStorage"]}
{"id": "C36", "title": "Command results and kinds round trip", "statement": "A command result (ok or error) written as JSON is read back as the same result whenever its payload is, and only objects with the single key ok or err are read as results; the kind a command (or the class a task) reports is the one of its variant (carrying the function name for OTHER), and distinct kinds are written differently.", "quantifier": "every result value with any payload type, every command and task variant with any payload", "why_tests_cant": "payloads are unbounded texts, maps and lists; tests write two sample results", "anchors": ["src/components/command.rs: CommandResult, SiemFunctionType, SiemCommandCall::get_type", "src/components/task.rs: SiemTaskData::class, SiemTaskType"]}
{"id": "C37", "title": "Log typed getters agree with the stored field", "statement": "After any history of calls that assigns nothing through field_mut/iter_mut, a typed getter returns what a fresh conversion of the currently stored field returns (caching is unobservable), and the stored field is the last one written. After an assignment through field_mut a getter that was read before keeps its old answer, however often the field is assigned.", "quantifier": "every operation history on a log", "why_tests_cant": "caches expose history dependence", "anchors": ["src/events/log.rs: SiemLog, i64_field, f64_field, u64_field, ip_field, txt_field, array_field", "src/events/ifield.rs"]}
{"id": "C38", "title": "ip_fields lists the IP-valued fields", "statement": "After any history ip_fields enumerates, in name order, exactly the names that were ever given an address by insert/add_field and have a field now, with what they hold now, up to the first such name without a field; without schemas that is all of them. It lists exactly the fields now holding an address when moreover nothing is assigned through mutable references and no other kind of value is written over an address.", "quantifier": "every operation history", "why_tests_cant": "history dependence", "anchors": ["src/events/log.rs: SiemLog::ip_fields, insert, add_field"]}
{"id": "C39", "title": "Tags are lower-cased and mirrored", "statement": "After any history the tags are exactly the lower-cased added tags, in order, without repetition; has_tag(x) is true exactly if x is a lower-cased added tag; the tags field lists exactly the tags as long as nothing else writes that field.", "quantifier": "every history of add_tag and other operations", "why_tests_cant": "history dependence", "anchors": ["src/events/log.rs: add_tag, has_tag"]}
{"id": "C40", "title": "Event timestamps", "statement": "event_created / event_received return the date stored in the field of that name, 0 while it holds no date: the constructor's time until the field is touched, the date of the last insertion of a date; after set_event_created(t) event_created returns 0, whatever t is, until the field is written by other means.", "quantifier": "every history of setters", "why_tests_cant": "history dependence", "anchors": ["src/events/log.rs: SiemLog::new, set_event_created, event_created, event_received, insert"]}
{"id": "C41", "title": "SiemField equality", "statement": "== on SiemField is reflexive; between textual kinds, and between the other kinds, it holds exactly when the two print alike, so it is an equivalence there; across them a text equals a value when it is its printed form but the value equals every text. a==b and b==a agree exactly outside that case. Within texts, within addresses and within integers equal fields hash alike.", "quantifier": "every pair/triple of fields", "why_tests_cant": "all values of 12 variants", "anchors": ["src/events/field.rs: PartialEq, Hash"]}
{"id": "C42", "title": "SiemField conversions", "statement": "Numeric/text/IP conversions of a field succeed exactly for convertible content and preserve the value; as-casts never change an in-range value.", "quantifier": "every field value", "why_tests_cant": "all 64-bit values and texts", "anchors": ["src/events/field.rs: TryInto impls"]}
{"id": "C43", "title": "SiemIp parsing and printing", "statement": "from_ip_str tries IPv4 then IPv6; the printed form of every IPv4 address parses back to the same address and equals() compares the printed form; octet-array constructors agree with the numeric value.", "quantifier": "every address", "why_tests_cant": "2^32 + 2^128 inputs", "anchors": ["src/events/ip.rs: SiemIp"]}
{"id": "C44", "title": "Schema merge and apply", "statement": "Merging schemas never loses a field: text options are united, other kinds are taken from the newcomer; apply removes from a log exactly the fields unknown to the schema and keeps the others unchanged.", "quantifier": "every pair of schemas and every log", "why_tests_cant": "unbounded maps", "anchors": ["src/events/schema.rs: FieldSchema"]}
{"id": "C45", "title": "HTTP method parsing", "statement": "Parsing the name of any supported HTTP method but PUT, in any ASCII case, gives that method and printing it gives the name back; no text gives PUT, whose name becomes an unknown method; every other text becomes the unknown method of the upper-cased text, which prints as UNKNOWN(\"...\").", "quantifier": "every text", "why_tests_cant": "all strings", "anchors": ["src/events/common.rs: HttpMethod"]}
{"id": "C46", "title": "Protocol numbers and names", "statement": "parse_protocol_id maps every number assigned in the IANA protocol list to the protocol with that keyword, every other 16-bit number to UNKNOWN, and no two different numbers to the same protocol, except 253 and 254, which share one; two protocols that print alike are equal.", "quantifier": "every 16-bit number and every pair of protocols", "why_tests_cant": "65536 numbers and unboundedly many OTHER names", "anchors": ["src/events/protocol.rs"]}
{"id": "C47", "title": "MITRE identifiers", "statement": "Parsing an ATT&CK tactic or technique identifier is injective: distinct accepted identifiers give distinct values (up to the letter case of the T / TA prefix; besides, the name command_and_control stands for TA0011), every technique value is reachable, and unknown identifiers are rejected. JSON documents name tactics and techniques by the same identifiers, sub-techniques with an underscore instead of the dot, and nothing else is read as one.", "quantifier": "every text; whole tables", "why_tests_cant": "hundreds of entries", "anchors": ["src/components/mitre.rs: TryFrom<&str> for MitreTechniques / MitreTactics"]}
{"id": "C48", "title": "Structured events keep their data in the log", "statement": "Building a log from a firewall, web proxy, web server, DNS, DHCP, auth or intrusion event never panics and stores each field under its documented name with the value of the event and nothing else. The event can be read back from the log: always for firewall, intrusion, web and auth events; for DNS all but the data of a query; for DHCP when the MAC has at most 64 or more than 96 bits.", "quantifier": "every event value", "why_tests_cant": "all payloads", "anchors": ["src/events/firewall.rs", "src/events/webproxy.rs", "src/events/webserver.rs", "src/events/dns.rs", "src/events/dhcp.rs", "src/events/auth.rs", "src/events/intrusion.rs", "src/events/event.rs"]}
{"id": "C49", "title": "Base text attributes of a log", "statement": "message, origin, tenant, product, service, category and vendor of a log read back the last text set for that attribute (the constructor's message and origin, empty for the others, before any), and setting one never changes another.", "quantifier": "every history of calls on a log", "why_tests_cant": "history dependence over unboundedly many calls", "anchors": ["src/events/log.rs: SiemLog::{new,message,set_message,origin,set_origin,tenant,set_tenant,product,set_product,service,set_service,category,set_category,vendor,set_vendor}"]}
{"id": "C50", "title": "Sigma rule conversion", "statement": "Converting a Sigma rule always ends; when it does not panic the SIEM rule keeps the title as name, the identifier and description (empty when absent), the tags, the severity named by the level (any of the documented spellings, low otherwise), the MITRE tactics and techniques named by the attack.* tags in order, and has exactly one sub-rule per search identifier with one condition per field entry in order.", "quantifier": "all Sigma rules (any number of search identifiers, conditions, tags; any texts and values)", "why_tests_cant": "rules are unbounded trees of arbitrary texts; tests convert three sample rules", "anchors": ["src/components/rule/sigma.rs: From<SigmaRule> for SiemRule, From<SigmaRuleCondition> for SiemSubRule, parse_subrules, level_to_severity"]}
{"id": "C51", "title": "Commands and responses as JSON", "statement": "A command written as JSON is read back as the same command unless it carries an IP address, in which case it is never read back; a response is always read, and is the response that was written except that the fields in the rows of a query answer are changed as C52 describes, so it is unchanged exactly when all those fields survive. A query made from its text alone is written as a native one over all times, for the first 128 results, kept for an hour.", "quantifier": "every command and response variant with any payload", "why_tests_cant": "payloads are unbounded; the encodings of reader and writer are declared in different places", "anchors": ["src/components/command.rs: SiemCommandCall, SiemCommandResponse", "src/components/command_types.rs", "src/events/ip.rs: SiemIp Serialize / Deserialize"]}
{"id": "C52", "title": "Fields as JSON", "statement": "A field value written as JSON is always read again; it comes back unchanged exactly when it is null, a plain text, an unsigned or negative number, a finite float or a list of texts, otherwise as the plain text / unsigned number / null of the same content; a second trip changes nothing more; a field is read from exactly null, texts, integers, finite floats, lists of texts and an object with the number of an IPv4 address under V4; booleans, lists with something else than texts and other objects are refused.", "quantifier": "every field value, every document", "why_tests_cant": "values range over all texts, numbers and floats, including non-finite ones", "anchors": ["src/events/field.rs: SiemField (serde untagged)"]}
{"id": "C53", "title": "Logs as JSON", "statement": "A log written as JSON can be read again exactly when each of its fields is a list with one text, and then it is read as the log with those texts; in particular no log with a message text is ever read back; what is read has no tags; a document with every field as {\"original\": value} is read as the log with those fields.", "quantifier": "every log, every document", "why_tests_cant": "all combinations of fields", "anchors": ["src/events/log.rs: SiemLog serde attributes", "src/events/ifield.rs: InternalField"]}
{"id": "C54", "title": "Messages as JSON", "statement": "Task, task result, command and response messages written as JSON are read back with the same header and body (a command with an address is not read at all, a response as in C51); log messages and alerts are read back exactly when their log is (C53), as the same alert with that log, so never when it has a message text; dataset messages cannot be written.", "quantifier": "every message", "why_tests_cant": "unbounded payloads of every variant", "anchors": ["src/components/common.rs: SiemMessage, SiemCommandHeader, Notification"]}
{"id": "C55", "title": "Task definitions as JSON", "statement": "A task definition written as JSON is read back the same except that its builder is replaced by the one that answers OK; a document with any other key is refused; keys may be missing (documented defaults: update GeoIP, immediate, administrator, no time) and the last occurrence of a key wins.", "quantifier": "every task definition and every JSON object", "why_tests_cant": "arbitrary documents and orders of keys", "anchors": ["src/components/task.rs: TaskDefinition Serialize / Deserialize"]}
{"id": "C56", "title": "Printing and searching field values", "statement": "A field prints as its content: texts, domains, users and assets as themselves, integers in decimal (with - when negative), lists in brackets separated by commas, null and paths as nothing. Comparing without case holds exactly when both carry texts that agree up to the case of ASCII letters (and is symmetric and transitive); contains holds exactly when the searched text occurs (an asset claims to contain everything); is_text and is_numeric hold exactly for the listed kinds; a user id is domain|name and determines both when the domain has no bar.", "quantifier": "every pair of field values, every text", "why_tests_cant": "all texts and 64-bit values", "anchors": ["src/events/field.rs: Display, eq_ignore_ascii_case, eq_ignore_ascii_case_str, contains, contains_str, is_text, is_numeric, generate_user_id"]}
{"id": "C57", "title": "Rules as JSON", "statement": "A rule written as JSON is read back with everything it said, except that values compared with are changed as C52 says and that regular expressions keep only their text; a rule with a same-network operator anywhere is never read back, nor is one whose operators nest more than 122 levels. A condition is read from any object with exactly one text 'field' and at least one operator key; the first operator key counts, other keys are ignored. Operators that compare with no value are == exactly when they are the same; those that compare, when the kind is the same and the values are equal as fields. A dictionary of alert texts survives JSON and its lookup finds exactly the stored texts.", "quantifier": "every rule, operator tree and JSON document", "why_tests_cant": "operators nest without bound and documents are arbitrary", "anchors": ["src/components/rule/mod.rs: SiemRule, SiemSubRule, RuleCondition, RuleOperator, regex_to_string, string_to_regex, AlertDictionary"]}
{"id": "C58", "title": "Events as JSON", "statement": "A structured event written as JSON is an object whose first member event_type names the kind and whose other members are those of the event. Writing fails exactly for a network protocol OTHER and for a free document that is neither an object nor null. Authentication events and the kinds without data come back as they were; a free object does exactly when it has no member event_type; an event with addresses (firewall, intrusion, web proxy, web server, DNS, DHCP) is never read back, inside SiemEvent or on its own, because addresses are written as text and read as {\"V4\": n}; with its IPv4 addresses in that notation the same document is read as the event.", "quantifier": "every event, every free document, every JSON document read", "why_tests_cant": "the fields range over unbounded texts, numbers and nested documents", "anchors": ["src/events/event.rs: SiemEvent", "src/events/protocol.rs: NetworkProtocol", "src/events/firewall.rs, intrusion.rs, webproxy.rs, webserver.rs, dns.rs, dhcp.rs, auth.rs, common.rs: derived Serialize/Deserialize", "src/events/ip.rs: Serialize for SiemIp"]}
{"id": "C59", "title": "Errors as JSON", "statement": "An error is written as a JSON object with one member named after its kind; texts are kept as they are and errors without payload are their name. Every error that carries no log is read back as it was, so different ones are written differently; an error of a parser is read back with its log as logs are after JSON (C53), and not at all when the log cannot be read, in particular when the log has a message text. Converting a storage, messaging, command, component, I/O or serialization error into the common error type keeps which error it was and its text, also across JSON.", "quantifier": "every error, every log inside it, every JSON document read", "why_tests_cant": "texts, logs and documents are arbitrary", "anchors": ["src/err.rs: SiemError and the From implementations", "src/components/parsing.rs: LogParsingError"]}
{"id": "C60", "title": "Metrics as JSON", "statement": "A metric written as JSON shows its series in order, each with its labels and the numbers its getters return. A family of counters written while other threads keep incrementing and resetting it shows, for each counter, exactly what was added since its last reset up to some moment of one order of the calls, these moments being in the order of the reads; a family of gauges written while other threads change, set and reset them shows each gauge as it stood at such a moment. (Resetting a whole family counts as resetting its members one after the other.) A family of histograms written after any number of threads have finished observing shows for each label set the number of observations, their sum and for each bound the number of observations not above it; written during an observation a bucket may exceed the count. Counters and gauges say what they are under metric_type, histograms under type, and the values are under valuess, values and value.", "quantifier": "every metric, label family, number of threads and schedule", "why_tests_cant": "the cells are read one at a time while other threads change them", "anchors": ["src/components/metrics/mod.rs: Serialize for SiemMetric, SiemMetricDefinition", "src/components/metrics/counter.rs, gauge.rs, histogram.rs: Serialize"]}
{"id": "C61", "title": "Component descriptions and use cases as JSON", "statement": "The description of a component written as JSON carries its texts, and its datasets, commands and tasks can be read from it (tasks without their builder); its metrics are there in order. The document of a use case is read as the use case definition that responses carry; two use cases have the same document exactly when they differ in nothing but the actions of their automated steps.", "quantifier": "every description and use case", "why_tests_cant": "lists and texts are arbitrary", "anchors": ["src/components/common.rs: SiemComponentCapabilities", "src/components/use_case.rs: SiemUseCase, SiemPlaybookStep, SiemAutomatedStep", "src/components/command_types.rs: UseCaseDefinition"]}
{"id": "C62", "title": "Datasets and updates as JSON", "statement": "A dataset written as JSON contains exactly its entries: for maps and sets of addresses or texts every entry once, under the number of the address or the text; for networks the network address under its length in the table of its kind; for the calendar the pieces of each day; for rules the rules under their names; for translations the texts under the names of the languages. Two maps, two sets or two collections of translations that can be written are written alike exactly when all their lookups answer alike; two rule sets exactly when under every name they find rules that are written alike; two calendars exactly when the entries leave the same pieces on every day, and then they answer alike; two network datasets that are written alike carry the same under every network and so answer alike (not conversely: removals leave empty tables behind, and networks of a single host never answer). Translations can be written exactly when no text is under a language outside the list. A language is read from exactly the documents of its writing. A geographic record is read back as the same record exactly when its coordinates are finite; a lookup in the on-disk dataset that meets another one panics. An update is written under the name of its variant, and updates written alike have the same effect.", "quantifier": "every dataset built by its operations, every update, every record, every document", "why_tests_cant": "the contents and their history, the addresses and the floating point values are arbitrary", "anchors": ["src/components/dataset/ip_map.rs", "src/components/dataset/ip_net.rs", "src/components/dataset/text_map.rs", "src/components/dataset/i18n.rs: I18nDataset, Language", "src/components/dataset/geo_ip: GeoIpInfo, SlowGeoIpDataset", "src/components/dataset/mod.rs: UpdateDataset, SiemDataset"]}
{"id": "C63", "title": "The default schema and the events", "statement": "Applying the default schema to the log of an event keeps every field except the data of a DNS answer, the address requested by a DHCP client and the two timestamps. Every kept field has a value of the kind the schema declares, except exactly: protocols, methods and categories outside the lists, and for intrusions the protocol, the category and the rule identifier. All fields of the default schema but ten are filled by some event. On any log the schema keeps what the text accessors read and the tags, and erases both timestamps. The default schema has all fields of the base schema with the same declaration, except that of the origin.", "quantifier": "every event, every log, every field name", "why_tests_cant": "events and logs are arbitrary; the schema has 52 fields and five lists of options", "anchors": ["src/events/base_schema.rs: get_default_schema", "src/events/schema.rs: FieldSchema::new, apply", "src/events/field_dictionary.rs", "src/events/*.rs: From<...Event> for SiemLog"]}
{"id": "C64", "title": "Schemas as JSON", "statement": "The JSON document of a schema has, under `fields` and the name of a field, an object that tells the kind of the field, its description and its options, and nothing for names that are no fields; the names come in the order of `field_names`. `gdpr` is null without protection; otherwise its list has exactly the names `protected_field` confirms, and the method is named. No member occurs twice. Two schemas are written alike exactly if `get_field`, `protected_field`, the flag and the method agree.", "quantifier": "every schema, every pair of schemas, every field name", "why_tests_cant": "schemas have any number of fields and options, and the equivalence is over pairs of schemas", "anchors": ["src/events/schema.rs: FieldSchema, FieldType, GdprProtection, GdprProtectionMethod (derive Serialize)"]}
{"id": "C65", "title": "Components without handlers and the helpers for tests", "statement": "A component that overrides none of the handlers forwards every log unchanged, once and in order, keeps its state, never fails and ticks once. A component whose log handler returns f(log) sends f of the logs it took, in order. When the helper `do_before_stoping_component` is used and nobody else sends a stop, `run` returns Ok only after the helper's command, and then everything the action sent was handled in order, and nothing sent later; with an output channel of its own that is read, the component can always reach that end. Without a log channel it may hang for ever. The dummy parsers take exactly the logs they claim, add only the field `parser`, and hand back refused logs unchanged. The default generator settings name users and hosts with numbers below 65536 and have one local address.", "quantifier": "every schedule of the threads, every action, every component, every log, every moment", "why_tests_cant": "schedules, actions and logs are unbounded; the hang depends on the schedule", "anchors": ["src/components/simplified.rs: SimplifiedComponent (default methods), SimpleComponent::run", "src/testing/mod.rs: do_before_stoping_component", "src/testing/parsers.rs: DummyParserText, DummyParserAll, DummyParserError, DummyLogGenerator", "src/components/parsing.rs: GeneratorConfig::default"]}
{"id": "C66", "title": "Sigma rules as documents", "statement": "Reading a Sigma rule: the document is an object (or a list of all fourteen members in order) with a title, a log source and a detection; each other known member is optional and null counts as absent; no known member may occur twice; unknown members change nothing. The detection is an object with one text under `condition`; every other member is a selection: an object of values, a list of such objects, or null. Values are texts, integers, numbers, lists and null, an integer beyond i64 becoming a number. If any selection cannot be read, the whole rule is refused. Nothing is written for what is absent. Writing a rule and reading it gives the rule, numbers that are not finite having become null, unless a selection is named `condition`, in which case the written document cannot be read. Converting the rule read keeps title, identifier, description, tags and level and gives one sub-rule per member of the detection other than `condition`.", "quantifier": "every document, every Sigma rule, every value at any depth", "why_tests_cant": "documents and values are trees of any depth and width; the equivalence covers all of them", "anchors": ["src/components/rule/sigma.rs: SigmaRule, SigmaRuleDetection, SigmaRuleCondition, SigmaRuleLogSource, SigmaValue (derive Serialize, Deserialize; flatten, untagged, skip_serializing_if)", "src/components/rule/sigma.rs: From<SigmaRule> for SiemRule"]}
{"id": "C67", "title": "Gauges, histogram sums and numeric conversions as IEEE doubles", "statement": "With the rounding of IEEE 754 doubles (nearest, ties to even, infinite from half a step beyond the greatest double): a gauge that is set to a finite number and then increased and decreased reads the exact result to within 1/100000 for the setting and for each change that is not zero, plus the total of the magnitudes divided by 2^51, as long as that total is at most 92233720368547; so it does for any number of threads changing a fresh gauge under any schedule, and so does the sum of a histogram for its observations. Setting a greater number never reads a smaller one. Numbers from 92233720368548 on all read the same and NaN reads 0. A number of five decimals of magnitude at most 2^51/100000 reads as itself or as the number one unit of the fifth decimal nearer to zero (0.29 reads 0.28999, and n observations of it sum to n times 0.28999). Converting an integer or date field to f64 gives the nearest double and keeps the order; above 2^53 different integers may give the same double.", "quantifier": "every rational and every double, every sequence of calls and every schedule of threads, every 64-bit integer", "why_tests_cant": "error bounds, monotonicity and nearest rounding range over all doubles and over call sequences of any length; samples miss ties and carries", "anchors": ["src/components/metrics/gauge.rs: normalize_f64, normalize_i64, Gauge::set, inc_by, dec_by, get", "src/components/metrics/histogram.rs: normalize_f64, normalize_i64, Histogram::observe, get_sample_sum", "src/events/field.rs: TryInto<f64> for SiemField"]}
{"id": "C68", "title": "Dates as texts", "statement": "A date field (milliseconds since 1970) prints as the RFC 3339 text, in UTC with three decimals and Z, of its instant in the Gregorian calendar counted day by day from 1970-01-01, if the date library supports the year; otherwise it prints 1970-01-01T00:00:00.000Z. The text determines the instant, so two supported dates are equal fields exactly if they are the same instant; unsupported dates are all equal to each other and to the beginning of 1970, although they hash differently. The years 0 to 9999 are the milliseconds from -62167219200000 to 253402300799999, and among them the order of the texts is the order of time. A date never equals an integer, null, path or array field; a text equals it exactly if it is what the date prints.", "quantifier": "every 64-bit timestamp and every pair of them, every range of supported years", "why_tests_cant": "leap years and month ends over all centuries, negative timestamps, and injectivity and order over pairs of timestamps cannot be enumerated", "anchors": ["src/events/field.rs: Display for SiemField (Date), PartialEq for SiemField, Hash for SiemField"]}
{"id": "C69", "title": "Numbers as texts", "statement": "A finite f64 (zero up to its sign) prints, in fields, in Sigma rules and in the Prometheus text, as a plain decimal without superfluous zeros that is read back as the same f64; no decimal that is read back so has its last digit further left, and of those with as many decimals none is nearer. Different values have different texts, so two f64 fields are equal exactly if their values are the same (NaN included). A whole number below 2^53 prints as the integer does: there an f64 field equals a u64 or i64 field exactly if the numbers are the same, and whenever they are equal the f64 is the one nearest to the integer. A decimal of at most 15 digits comes out as it was written. So a gauge line or histogram sum line shows exactly the stored multiple of 1/100000 (at most 15 digits), and a number in a Sigma rule is searched for as written. Negative whole numbers are equal as f64 and i64 but hash differently.", "quantifier": "every f64 and pair of f64, every decimal competing with the printed one, every 64-bit integer, every decimal of at most 15 digits, every state of the gauges and histograms", "why_tests_cant": "there are 2^64 doubles, minimality ranges over all decimals, and injectivity and the 15-digit guarantee range over pairs", "anchors": ["src/events/field.rs: Display for SiemField (F64), PartialEq for SiemField, Hash for SiemField, TryInto<Vec<LogString>> for SiemField", "src/components/metrics/gauge.rs: GaugeVec::encode", "src/components/metrics/histogram.rs: Histogram::encode", "src/components/rule/sigma.rs: Display for SigmaValue"]}
{"id": "C70", "title": "JSON as text", "statement": "serde_json, as this crate uses it, accepts exactly the JSON documents of RFC 8259 with at most 127 open levels and reads them as what they stand for. Numbers with up to 2^53 as digits and the last digit between 10^-22 and 10^22 are read as the nearest double, all numbers between 10^-280 and 10^308 within 2^-50, greater ones refused. What is written, compact or pretty, is read back as it was if its floats have at most fifteen digits (others come back within 2^-50 of themselves, and need not be the same); deeper documents are refused; different documents have different texts. The compact text is one line without control characters, whatever it contains. Hence commands, responses, messages, errors, task definitions, dictionaries, rules, events and Sigma rules survive as texts exactly as C51 to C59 and C66 say for documents (Sigma rules whose lists nest too deep are refused), schemas and datasets of any size are texts that every reader takes apart into the members of C62 and C64 and that are equal exactly if the contents are, and the line printed for a log that cannot be delivered is one line from which the log's object can be read.", "quantifier": "every text, every document (any size, depth, texts and floats), every value of the message types", "why_tests_cant": "texts and documents are unbounded, escapes, nesting and digits combine freely, and the float guarantee ranges over all doubles", "anchors": ["src/components/simplified.rs: process_log_for_component", "src/components/dataset/geo_ip/mod.rs: Into<IVec> for GeoIpInfo", "src/components/rule/mod.rs: SiemRule", "src/components/command.rs: SiemCommandCall, SiemCommandResponse", "src/components/common.rs: SiemMessage, UserRole", "src/err.rs: SiemError", "src/components/task.rs: TaskDefinition", "src/events/mod.rs: SiemEvent", "src/components/rule/sigma.rs: SigmaRule", "src/events/schema.rs: FieldSchema"]}
{"id": "C71", "title": "Coordinates as text", "statement": "`as f32` rounds to the nearest single, the even one of two, to infinity from half a step beyond the greatest, and leaves singles alone; only the two zeros share a value. The text of a finite f32, read as serde_json does (first an f64, then `as f32`), is always a number, and it is the same f32 (zero up to its sign) if the number is zero or between 10^-4 and 10^10 in magnitude. Hence a geographic record written to disk as text is read back with the same texts and number and with such coordinates unchanged; reading panics exactly when a coordinate is not finite. A document is a geographic record exactly if it has the seven members, once each, of the declared types; coordinates may be whole numbers or fractions, nothing else. A lookup in the dataset on disk after any insertions gives the record that C24 determines, with these coordinates, or nothing if there is none.", "quantifier": "every number, every f32, every record, every sequence of insertions and every address looked up", "why_tests_cant": "there are 2^64 pairs of coordinates and two roundings (decimal to f64, f64 to f32) that could disagree near every midpoint; insertions are unbounded", "anchors": ["src/components/dataset/geo_ip/mod.rs: GeoIpInfo, Into<IVec> for GeoIpInfo, From<IVec> for GeoIpInfo", "src/components/dataset/geo_ip/slow.rs: SlowGeoIpDataset::insert, SlowGeoIpDataset::get"]}
{"id": "C72", "title": "Order of JSON members", "statement": "Reading a command, response, message, definition, task definition, error, event (or the payload of one), Sigma rule, alert dictionary or geographic record from a JSON document does not depend on the order in which the members of its objects are given, at any depth: rearranging the members of objects that name each member once gives the same value, or an error in both cases. The same holds of SIEM rules as long as no rearranged object names two rule operators; a condition that does name two is accepted and the one given first is used.", "quantifier": "every document, every rearrangement of the members of any of its objects", "why_tests_cant": "documents are unbounded in depth and width and each object of n members has n! orders; several readers are hand-written loops or buffer the document", "anchors": ["src/components/command.rs: SiemCommandCall, SiemCommandResponse, CommandResult", "src/components/common.rs: SiemMessage", "src/components/task.rs: TaskDefinition", "src/events/event.rs: SiemEvent", "src/events/protocol.rs: NetworkProtocol", "src/components/rule/mod.rs: SiemRule, RuleCondition, RuleOperator", "src/components/rule/sigma.rs: SigmaRule, SigmaRuleDetection", "src/err.rs: SiemError", "src/components/dataset/geo_ip/mod.rs: GeoIpInfo"]}
{"id": "C73", "title": "Members of JSON structures", "statement": "Every structure that is read from JSON (44 of them: the parts of commands, responses, alerts, tasks, rules, Sigma rules, events and geographic records) is read by name: members with other names are ignored, a member given twice is an error, a mandatory member left out is an error, and leaving out an optional one means the same as null. An array with one value per member, in the order of the declaration, is read as the object with those members; arrays of other lengths and documents that are neither are errors.", "quantifier": "every structure type listed and every document", "why_tests_cant": "documents are unbounded, and the claim is about every name that is not a member and every value", "anchors": ["src/components/command_types.rs", "src/components/command.rs: SiemCommandHeader, CommandDefinition", "src/components/common.rs: Notification, DatasetDefinition", "src/components/alert.rs: SiemAlert, AlertAggregation", "src/components/task.rs: SiemTask, SiemTaskResult", "src/components/rule/mod.rs: SiemRule, SiemSubRule, RuleState, AlertGenerator, MitreInfo, AlertDictionary", "src/components/rule/sigma.rs: SigmaRule, SigmaRuleLogSource", "src/events: FirewallEvent, IntrusionEvent, WebProxyEvent, WebServerEvent, DnsEvent, DhcpEvent, AuthEvent", "src/components/dataset/geo_ip/mod.rs: GeoIpInfo"]}
{"id": "C74", "title": "Variants of enumerations on the wire", "statement": "Every enumeration that is exchanged as JSON is read by the names of its variants and nothing else: a variant without data is its name (or an object with that one member holding null), one with data is an object with one member, its name, holding the data (an array of two for two, an empty array for an empty tuple); every other document is an error. What is written for a value is the form that is read back as that variant, a variant without data always as the name alone. The names are those of the declaration: a command, a response and a message are sent under the names other programs expect (START_COMPONENT, ..., Command, Response, ...), and an answer is an object with the one member ok or err.", "quantifier": "every document and every value of 36 enumerations: commands, responses, messages, answers, tasks, datasets, roles, severities, errors, rules and events", "why_tests_cant": "documents are unbounded; a round trip in tests cannot see a name changed on both sides, and no finite set of documents shows that all others are errors", "anchors": ["src/components/command.rs: SiemCommandCall, SiemCommandResponse, CommandError, SiemFunctionType", "src/components/common.rs: SiemMessage, UserRole, NotificationLevel", "src/components/task.rs: SiemTaskData, SiemTaskType, TaskFireMode", "src/components/dataset/mod.rs: SiemDatasetType", "src/components/alert.rs: AlertSeverity", "src/components/rule/mod.rs: RuleStateValue, AlertContent", "src/err.rs: SiemError", "src/components/parsing.rs: LogParsingError", "src/events"]}
{"id": "C75", "title": "Members and fields of structures on the wire", "statement": "For every structure exchanged as JSON, each member of the object holds the field of the declaration with that name, in its form: texts as strings, signed and unsigned integers within their width, truth values, lists as arrays, maps as objects, optional values as the value or null, enumerations as in C74 and structures in turn. An object with exactly these members is read as a structure if and only if every member has the form of its field, and the structure read has those fields; any member out of range or of another form is an error. What is written is an object with these members in the order of the declaration (optional members of alert generators and subrules are left out when there is nothing to say), except that addresses are written as their text, which is not the form in which they are read.", "quantifier": "every structure type listed (35), every document with its members and every value; the five kinds of logins", "why_tests_cant": "a round trip in tests cannot see two members of the same type exchanged, or renamed, on both sides, nor that every value out of range is refused", "anchors": ["src/components/command_types.rs", "src/components/command.rs: SiemCommandHeader, QueryInfo, Pagination, CommandDefinition", "src/components/common.rs: Notification, DatasetDefinition", "src/components/alert.rs: SiemAlert, AlertAggregation", "src/components/task.rs: SiemTask, SiemTaskResult", "src/components/rule/mod.rs: SiemRule, SiemSubRule, RuleState, AlertGenerator, MitreInfo, AlertDictionary", "src/events: FirewallEvent, IntrusionEvent, WebProxyEvent, WebServerEvent, DnsEvent, DhcpEvent, AuthEvent, LocalLogin, RemoteLogin, UpgradeLogin, ValidationLogin, DelegationLogin"]}
{"id": "C76", "title": "A storage shared by several threads", "statement": "When any number of threads use clones of one testing storage at the same time, whatever the interleaving of the single steps of their methods, the calls and returns they see are those of two tables (keys to values, paths to files) on which each call takes effect at one instant between its call and its return. No method ever panics, no lock is ever poisoned, and from every reachable state every call in progress can be brought to its return by steps of its own thread and of the thread that holds the one lock it waits for: methods on values and methods on files do not hold each other up. A key that has a value keeps it, whoever races to set it, until somebody sets it with replace.", "quantifier": "every number of threads, every sequence of calls of each, every interleaving of their steps, every state that can be reached", "why_tests_cant": "a test runs a few of the unboundedly many interleavings, and cannot show that none of them poisons a lock, deadlocks or loses an update", "anchors": ["src/components/storage.rs: TestingStorage, get_value, set_value, get_file, get_file_size, get_file_range, set_file, set_file_range"]}
{"id": "C77", "title": "Families of metrics, their handles and conversions", "statement": "A process may make any number of families of counters, gauges and histograms at any time, copy their handles, put families into metrics and take them out again, and change them from any number of threads. Every handle of a family (the first one, a clone, or one that came out of a metric) is the same handle, with the labels and bounds the family was made with, and reads exactly what it would read if the family were alone and only the steps made through its own handles had happened: making or changing other families never disturbs it, so the totals of counters, gauges and histograms hold family by family. A metric gives its family back only as the kind it is; asked for another kind it returns an error naming both kinds. A histogram made without bounds has ten strictly increasing ones.", "quantifier": "every history of constructions, copies, conversions and atomic steps of calls on any handles, in any interleaving", "why_tests_cant": "a test makes a few families and a few calls; that no later construction or call on another handle can reach the cells of a family is a statement about all histories", "anchors": ["src/components/metrics/mod.rs: From, TryInto, SiemMetric", "src/components/metrics/counter.rs: CounterVec::new, Counter::new", "src/components/metrics/gauge.rs: GaugeVec::new, Gauge::new", "src/components/metrics/histogram.rs: HistogramVec::new, HistogramVec::with_le, BASIC_LE_CALCULATOR"]}
{"id": "C78", "title": "Values put into logs come back from the getter of their type", "statement": "Whatever was done to a log before and whatever is done to other fields afterwards, a text, unsigned or signed number, float, address or list of texts that was converted into a field and put into a log last comes back unchanged from the getter of its type; the getters of other types return the documented conversion (numbers into each other, an address from a text only if it parses, everything as a list of texts) or nothing. Different values, of the same or of different types, never make the same field.", "quantifier": "every value of every type, every field name and every history of calls on the log in which the value was the last put under the name", "why_tests_cant": "a test converts a few values; the values, names and histories are unbounded", "anchors": ["src/events/field.rs: impl From<\u2026> for SiemField, SiemField::from_str_slice", "src/events/log.rs: SiemLog::txt_field, u64_field, i64_field, f64_field, ip_field, array_field"]}
{"id": "C79", "title": "Constructors, accessors, logs and documents agree", "statement": "What an accessor of a structured event returns is what the log made from the event has in the field of that role and what its JSON document has in the member of that name (optional parts are in the log exactly when the event has them). The texts given to the constructor of a login are found under the name of their role: the user logging in as user.name and destination_user, the one asking as source.user.name and source_user. What is given to the constructors of definitions of datasets, commands, tasks, metrics and of the description of a component is what their accessors return, also of clones and of what another process reads from the document (without the builder of a task).", "quantifier": "every event of the seven kinds with data, every login, all arguments of the constructors", "why_tests_cant": "swapped or dropped arguments of the same type show only with values that differ; the claim is for all values of over seventy accessors at once and ties three representations together", "anchors": ["src/events/firewall.rs, intrusion.rs, webproxy.rs, webserver.rs, dns.rs, dhcp.rs, auth.rs: accessors, LocalLogin::new and the other logins", "src/components/command.rs: CommandDefinition", "src/components/common.rs: SiemComponentCapabilities, DatasetDefinition", "src/components/task.rs: TaskDefinition", "src/components/metrics/mod.rs: SiemMetricDefinition"]}
{"id": "C80", "title": "The on-disk GeoIP dataset under crashes and disk errors", "statement": "After any history of insertions, failed writes, flushes and crashes the on-disk dataset can be queried, and it holds exactly the insertions whose writes took place, in order, up to those at the end that a crash took: what was flushed survives everything that follows, a crash loses only the latest insertions, without crashes nothing written is missing. A lookup never panics and returns the value of the last such insertion under the name of the network of the shortest tried length whose read works; so it never returns data that was not inserted, and with IPv4 networks only, never data of a network that does not contain the address, whichever reads fail. Errors of reads and writes are not reported to the caller.", "quantifier": "every history of insertions, flushes and crashes, every set of failing reads and writes, every address", "why_tests_cant": "crash points and failing reads are chosen by the environment; a test runs on a disk that works", "anchors": ["src/components/dataset/geo_ip/slow.rs: SlowGeoIpDataset::new, insert, get, get_key"]}
{"id": "C81", "title": "A logger for tests loses nothing and shows a test only its own thread", "statement": "After testing_component_logger(id, name) in a thread, and in every schedule of all threads, what the test receives followed by what still waits for it is exactly what this thread sent, plus what it logged at a level that the global limit it read and the level Info let through, under that id and name, in order; nothing of another thread appears, also if other threads run tests of their own. However many messages wait, a message sent by the thread is accepted at once; once the receiver is dropped, sending is the error Disconnected and logging is lost silently. testing_component_logger_dummy is the same with the id 1234 and the name Dummy.", "quantifier": "every process, every schedule of calls by any number of threads, any number of waiting messages", "why_tests_cant": "the tests of the users rest on it, in a test runner that runs them in parallel; it is about all schedules and any number of messages", "anchors": ["src/logging/mod.rs: testing_component_logger, testing_component_logger_dummy, initialize_component_logger", "src/components/kernel_message.rs: KernelMessager"]}
{"id": "C82", "title": "A histogram read or written while threads observe is exact for the observations begun", "statement": "While any number of threads observe, at every moment of every schedule: get_sample_count() is the number of observations begun under these labels; get_sample_sum() and each bucket are what they would be if each thread had either finished the observation it is at or not begun it. Which observations are finished and which begun only grows with the schedule, and at the end all are finished. A family of histograms written as JSON meanwhile, its numbers read one after the other at any moments (a stale read being one of an earlier moment), shows in each place such a number for the moment of its read.", "quantifier": "every family of histograms, any number of threads with any observations, every interleaving of their atomic steps, all moments of reading", "why_tests_cant": "an observation is several atomic additions and a writer reads while they go on; only all interleavings together with all reading moments settle what may be seen", "anchors": ["src/components/metrics/histogram.rs: Histogram::observe, Histogram::get_sample_count, Histogram::get_sample_sum, HistogramBucket::observe, Serialize for HistogramVec"]}
{"id": "C83", "title": "The Prometheus text written while threads change the metrics", "statement": "encode() of a family of metrics, with each cell read at its own moment while any number of threads go on, writes the header and: for counters one line per label set, with what was added to it since its last reset up to a point of one order of all the calls, the points being in the order of the reads; for gauges the same with the value as it stood; for histograms nothing for a label set without an observation begun at its first read, else its bucket, sum and count lines, the count being the number of observations begun at the first read and buckets and sum exact for their own moments. With nobody changing them the text is that of C19.", "quantifier": "every family of counters, gauges, histograms, any number of threads, every interleaving, all moments of the reads, every name, description and help flag", "why_tests_cant": "a scrape runs while the components work; what it may show ranges over all interleavings and reading moments", "anchors": ["src/components/metrics/counter.rs: Encoder for CounterVec, Encoder for Counter", "src/components/metrics/gauge.rs: Encoder for GaugeVec, Encoder for Gauge", "src/components/metrics/histogram.rs: Encoder for HistogramVec, Encoder for Histogram"]}
{"id": "C84", "title": "Orders of the enumerations", "statement": "Comparing two kinds of commands, kinds of tasks, types of datasets, notification levels or languages is a total order that says equal only of equal values. It is the order in which the source lists the variants (levels from Off to Trace), and between two of the same variant that of the texts inside, by code points; languages with a code come in the alphabetical order of the codes, before all others, which are ordered by their text. Datasets compare as their types do, whatever they hold.", "quantifier": "all pairs and triples of values, with any texts inside", "why_tests_cant": "ordered maps and sorted lists rely on the laws for all triples, and on the texts, which are unbounded", "anchors": ["src/components/command.rs: SiemFunctionType", "src/components/task.rs: SiemTaskType", "src/components/common.rs: NotificationLevel", "src/components/dataset/mod.rs: SiemDatasetType, Ord for SiemDataset", "src/components/dataset/i18n.rs: Language"]}
{"id": "C85", "title": "Components in a row", "statement": "Let several running components be connected in a row, each sending its logs to the channel that the next one reads, with bounded channels of any sizes, while messages, ticks and logs come in any order. As long as the receivers stay alive, the logs a component gets, followed by those in its channel and the one about to be sent, are exactly the logs that the component before it returned, in that order. So if what a component makes of a log depends on the log alone, the logs received at the end are the first ones of what the components make, one after the other, of the logs sent at the beginning: in order, none twice, none made up; and once nothing is left inside, they are all of them. While no component has ended, the row cannot get stuck and cannot work for ever on the logs inside: taking, sending and receiving logs in any order ends, with everything out. If the last sender goes away and no component is stopped or fails in a tick, the last one ends only after all the others did and after every log has gone through.", "quantifier": "all rows of any length, all handlers, all channel sizes, all schedules of any length", "why_tests_cant": "the interleavings of the threads of several components, their messages, timers and full channels cannot be enumerated", "anchors": ["src/components/simplified.rs: SimpleComponent::run, set_log_channel, process_log_for_component", "src/components/mod.rs: SiemComponent::set_log_channel"]}
{"id": "C86", "title": "Minus zero in a field", "statement": "A field that holds the f64 minus zero prints \"-0\" and equals itself. On the left of == it equals every text, on the right only the text \"-0\"; it equals no other field of any kind, in particular no field that holds 0 as f64 (which 0 as u64 or i64 equals), although it is the same number, converts to the integer 0 and hashes as 0.", "quantifier": "all fields of all kinds compared with it in both orders, with floats and dates printed as Rust and chrono do", "why_tests_cant": "that no other field prints alike needs all doubles, integers, dates and lists", "anchors": ["src/events/field.rs: Display, PartialEq, Hash, TryInto<u64>, TryInto<i64>, TryInto<Vec<LogString>> for SiemField"]}
{"id": "C87", "title": "Components side by side", "statement": "Let several running components be given clones of one receiver of logs and of one sender of logs (bounded channels of any sizes), while messages, ticks and logs come in any order. As long as the receivers stay alive, every log that was sent is taken by exactly one of the components, and each component handles the logs it took in the order of taking; the logs that come out are exactly those the components returned, each component's in the order it returned them (the order between components may change). So if all make the same of a log and that depends on the log alone, then what was received, what is queued there and what they are about to send is, up to the order, what is to be made of the logs taken so far. A component ends only because it was told to stop, its own tick failed, or all logs are taken and nobody can send more; the end of one does not stop the others: while one of them is at work the logs inside come out, whatever the order, in boundedly many steps. A duplicate of a component is not such a worker until it is given the channels: it has log channels of its own.", "quantifier": "all numbers of components, all handlers, all channel sizes, all schedules of any length", "why_tests_cant": "which thread takes which log, and how their messages, timers and endings interleave, cannot be enumerated", "anchors": ["src/components/simplified.rs: SimpleComponent::run, set_log_channel, duplicate, process_log_for_component", "src/components/mod.rs: SiemComponent::set_log_channel, duplicate"]}
{"id": "C88", "title": "What a component reports through its logger", "statement": "A running component reports each error that a handler of a message answers, once and in order, at level debug (`Error: ` and the debug text of the error); a failing tick and a stop are not reported. A log it cannot hand over, because the output is closed, is reported at level info as one line of JSON from which the log's document is read back; then run returns, and no other log is lost. Reporting never waits and never changes what the loop does, whatever the levels and however full or closed the kernel's channel is. What the kernel receives from the channel of the component's messenger contains, in order and none twice, only reports of it that pass the global level and the messenger's level, with its id and name - all of them if the channel has room -, whatever others send into the same channel. A messenger made by KernelMessager::new listens up to info, so with it no error of a handler is ever told: the lost log is the only notification.", "quantifier": "all components, all handlers, all messengers and levels, all states of the kernel's channels, all schedules of any length", "why_tests_cant": "errors, closing channels, level changes and other senders can come in any order with the loop's steps", "anchors": ["src/components/simplified.rs: SimpleComponent::run, process_log_for_component", "src/logging/macros.rs: debug!, info!, log!", "src/logging/mod.rs: COMPONENT_LOGGER, initialize_component_logger", "src/components/kernel_message.rs: KernelMessager::new, log"]}
{"id": "C89", "title": "What several components report to one kernel", "statement": "Several running components in their own threads, each with the logger its thread installed and all below one global level, do not meet in their reports: each runs exactly as it would alone, never waits for another one's report, and reports exactly the errors its own handlers answered, in order, and at the end perhaps the one log it could not hand over. When their messengers share a channel that stays open, the kernel receives from it, in order, what waited there and then messages among which the reports of each component that pass the global level and that component's level appear in the order it made them, none twice, with its own id and name; if the channel has room, all of them of every component. A component whose messenger has another channel puts nothing into this one. Everything else received is what somebody else meant for this channel.", "quantifier": "all families of components and handlers, all messengers and levels, all states of the kernel's channels, all interleavings of any length", "why_tests_cant": "the interleavings of the loops, the kernel, level changes and other senders are unbounded and chosen by the scheduler", "anchors": ["src/components/simplified.rs: SimpleComponent::run, process_log_for_component", "src/logging/mod.rs: COMPONENT_LOGGER (thread local), MAX_LOG_LEVEL (global), initialize_component_logger", "src/components/kernel_message.rs: KernelMessager::log"]}
{"id": "C90", "title": "What a component knows about the datasets when it handles a log", "statement": "A component that keeps its datasets in a DatasetHolder (given by set_datasets, and each dataset it is sent inserted) handles every log, under every schedule, with the holder that has for each type the last dataset of that type handed to it before that log and for the other types what it was given at the start. The datasets handed to it are those that arrived first, in the order of arrival, none skipped and none twice; those missing are exactly the ones still waiting in its message channel when the log is taken. Before it runs, the datasets given last by set_datasets count, also across duplications; messages sent to it and log channels set before a duplication do not reach the duplicate. It reads its logs from the receiver set last since then and hands what it makes of them to the sender set with it.", "quantifier": "all components that keep datasets in a holder, all functions of holder and log they compute, all datasets, logs and other messages, all sequences of calls before run, all schedules of any length", "why_tests_cant": "datasets and logs come through two channels of which the loop takes in any order; the interleavings are unbounded", "anchors": ["src/components/simplified.rs: SimpleComponent::run, set_datasets, process_message, SimplifiedComponent::on_dataset", "src/components/dataset/holder.rs: DatasetHolder::insert, get"]}
