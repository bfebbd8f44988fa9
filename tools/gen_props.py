import json
P=[]
def p(title, statement, quantifier, why, anchors):
    P.append(dict(id="C%02d"%(len(P)+1), title=title, statement=statement, quantifier=quantifier, why_tests_cant=why, anchors=anchors))

U="src/utilities/"; C="src/components/"; D=C+"dataset/"; E="src/events/"
p("IPv4 text round trip","Formatting any 32-bit address with ipv4_to_str and parsing the text back with ipv4_from_str returns the same address; hence two different addresses never print alike.","every u32","4 billion inputs; tests sample a handful",[U+"ip_utils.rs: ipv4_from_str, ipv4_to_str"])
p("IPv4 parser accepts only dotted quads","ipv4_from_str returns Ok exactly for texts made of four dot-separated decimal octets, with the big-endian value of the octets, never overflowing; every other text is an error.","every text","the set of texts is infinite; rejection must hold for all malformed texts",[U+"ip_utils.rs: ipv4_from_str, is_ipv4"])
p("Local IPv4 ranges","is_local_ipv4(ip) is true exactly when ip lies in 10.0.0.0-10.255.255.255, 172.16.0.0-172.31.255.255, 192.168.0.0-192.168.255.255 or 100.64.0.0-100.127.255.255.","every u32","boundary behaviour over the whole address space",[U+"ip_utils.rs: is_local_ipv4",E+"ip.rs: SiemIp::is_local"])
p("Local IPv6 range","is_local_ipv6(ip) is true exactly for fc00::/7.","every u128","2^128 inputs",[U+"ip_utils.rs: is_local_ipv6"])
p("ip:port parsing","parse_ipv4_port and is_ipv4_port agree on every text; for every address and port the text address:port parses to that pair; the split is at the last colon, and success means both halves parse.","every text; every (u32,u16)","agreement of two functions over all strings",[U+"ip_utils.rs: parse_ipv4_port, is_ipv4_port, port_to_u16"])
p("IPv6 parser is total and memory-safe","ipv6_from_str returns Ok or Err, terminates and never indexes out of bounds or overflows, for every byte string; an accepted value fits in 128 bits.","every byte string","panics hide in rare inputs; tests cover a few addresses",[U+"ip_utils.rs: ipv6_from_str, read_hextet, hex_to_digit, ipv4_to_u32_bytes"])
p("IPv6 text round trip","For every 128-bit address, ipv6_from_str(ipv6_to_str(ip)) is Ok(ip).","every u128","2^128 inputs; only rare textual forms fail",[U+"ip_utils.rs: ipv6_from_str, ipv6_to_str"])
p("IPv6 with embedded IPv4 tail","ipv6_from_str accepts x:x:x:x:x:x:d.d.d.d and ::d.d.d.d forms with the embedded IPv4 as the low 32 bits.","every address and textual form with a dotted tail","no test covers the branch; must hold for all addresses",[U+"ip_utils.rs: ipv6_from_str"])
p("MAC-48 round trip","For every 48-bit value, parsing the text printed by mac_u48_to_str with mac_str_to_u48 (or mac_str_to_u128_any) gives the value back, whichever of '-' or ':' separates the groups.","every 48-bit value","2^48 inputs",[U+"mac.rs: mac_u48_to_str, mac_str_to_u48, mac_str_to_u128_any"])
p("EUI-64 round trip","For every 64-bit value, parsing the text printed by mac_u64_to_str gives the value back.","every u64","2^64 inputs",[U+"mac.rs: mac_u64_to_str, mac_str_to_u64"])
p("128-bit MAC round trip","For every 128-bit value, printing with mac_u128_to_str and parsing with mac_str_to_u128 / mac_str_to_u128_any gives the value back; printing chooses a width that can hold the value.","every u128","2^128 inputs",[U+"mac.rs: mac_u128_to_str, u128_to_str, mac_str_to_u128, mac_str_to_u128_any"])
p("Rule selector picks a best match","After any sequence of additions, searching a text returns a rule maximising the number of query words found in its description, the alphabetically first among ties, and nothing exactly when no query word occurs in any description.","every history of additions and every query","optimality over all rule sets and queries",[U+"rule_selector.rs: add_rule, search (RuleSelector)"])
p("Counters sum all increments","Under every interleaving of threads holding clones of a counter, the value read at the end is the sum (mod 2^64) of all increments; counters of different label sets never influence each other.","every number of threads, every schedule, every increment","interleavings",[C+"metrics/counter.rs: Counter, CounterVec"])
p("Gauges: last set plus later adjustments","After any history of set/inc/dec operations on a gauge and its clones the gauge reads the last set value plus/minus the later adjustments, in fixed-point.","every operation history","unbounded histories",[C+"metrics/gauge.rs: Gauge, GaugeVec"])
p("Histogram buckets are cumulative","After any observations, each bucket holds the number of observed values not above its bound; counts never decrease with the bound, never exceed the total count, and the total count is the number of observations and the sum their normalised sum.","every history of observations and all bucket bounds","unbounded histories",[C+"metrics/histogram.rs: Histogram, HistogramBucket"])
p("Histogram bucket lookup","get_count(le) returns the number of observations not above le when le is one of the bounds.","every history and bound","depends on ordering of all buckets",[C+"metrics/histogram.rs: HistogramBucket::get_count"])
p("Label combinations are the cartesian product","label_combinations yields every combination of label values exactly once.","every list of labels with value lists","sizes unbounded; fails only for mixed sizes",[C+"metrics/mod.rs: label_combinations"])
p("Metric definitions validate names","A SiemMetricDefinition can be built exactly when its name matches ^[a-z][a-z0-9_]+[a-z]$ and its description matches ^[\\w\\s]+$; the stored fields are the given ones.","every text","all strings",[C+"metrics/mod.rs: SiemMetricDefinition::new, valid_name, valid_description"])
p("Prometheus text has one sample line per labelled counter","Encoding a CounterVec / GaugeVec emits HELP and TYPE lines and then exactly one sample line per series with a well-formed label list; values are those read.","every vector of series and all label values","all label texts, empty values",[C+"metrics/counter.rs: CounterVec::encode",C+"metrics/gauge.rs: GaugeVec::encode",C+"metrics/histogram.rs: HistogramVec::encode"])
p("Keyed dataset updates refine a map","For text maps, IP maps, IP map lists, IP sets and rules: applying any sequence of Add/Remove/Replace updates to a dataset gives, for every key, exactly the value of the last update concerning that key (Replace concerns every key), and keys not concerned keep the old value.","every starting dataset, every update history, every key","unbounded histories",[D+"ip_map.rs",D+"ip_set.rs",D+"ip_map_list.rs",D+"text_map.rs",D+"rules.rs"])
p("Batching updates does not matter","Applying a batch of updates at once equals applying it split at any point in consecutive batches.","every dataset, every update list, every split","unbounded histories",[D+"ip_map.rs: apply_updates",D+"rules.rs"])
p("Dataset update channel: FIFO, no silent corruption","Updates that the bounded channel accepted reach the consumer in submission order, each exactly once; when the channel is full or closed an update is dropped as a whole and the rules dataset hands the rejected rule back; readers keep seeing the snapshot until it is replaced.","every interleaving of producers and the consumer","schedules",[D+"ip_set.rs: IpSetSynDataset",D+"rules.rs: RulesSynDataset",D+"text_map.rs"])
p("Network dataset returns the longest matching prefix","IpNetDataset.get(ip) returns the data of the most specific stored network that contains ip, and None exactly when no stored network contains ip.","every insertion/removal history and every address","all addresses and all prefix sets",[D+"ip_net.rs: IpNetDataset::get, insert, remove"])
p("Geo-IP lookup","The in-memory geo-IP dataset returns the record of the most specific stored network containing the address, and the on-disk key of two networks is equal only if the networks are equal.","every insertion history, every address, every pair of networks","all addresses",[D+"geo_ip/fast.rs",D+"geo_ip/slow.rs"])
p("Calendar lookup","CalendarDataset.get(t) returns exactly the entries inserted whose [start,end] interval contains t.","every insertion history, every instant","all instants, multi-day intervals",[D+"calendar.rs"])
p("Translation fallback","I18n get_or_default returns the text in the requested language, else English, else the first language present, and nothing only when the key is unknown; setting a text affects only that key and language.","every history of insertions, every key and language","unbounded histories",[D+"i18n.rs"])
p("Dataset holder keeps the latest dataset per type","A DatasetHolder returns for each dataset type the last dataset inserted with that type; a subset contains exactly the requested types that are present.","every insertion history, every type","unbounded histories",[D+"holder.rs",D+"mod.rs"])
p("Typed dataset conversions","Converting a typed dataset plus its type tag into SiemDataset succeeds exactly for a tag of the same family, yields a dataset reporting that tag, and converting back returns the same payload; custom lookups succeed only if the names agree.","every dataset kind, tag and name","the family/tag matrix with arbitrary names",[D+"mod.rs: SiemDataset, TryFrom impls, try_to_custom_*"])
p("Rule evaluation","A rule matches a log exactly when every condition of every sub-rule holds on the log; evaluating a rule on a log always yields an answer.","every rule and every log","all rules and logs",[C+"rule/mod.rs: SiemRule::matches, RuleCondition::matches"])
p("Sigma wildcard translation","A Sigma value pat* / *pat / *pat* becomes a starts-with / ends-with / contains operator on exactly pat; a value without wildcard becomes equality.","every text","all strings",[C+"rule/sigma.rs: translate_content_to_operator, translate_operator"])
p("Sigma alert text rendering","Tokenising an alert description splits it in literal texts and $field references whose concatenation is the original description, in order.","every description","all strings",[C+"rule/sigma.rs: transform_alert_content, SigmaDescriptionLexer"])
p("Query lexer terminates and covers the query","Repeatedly asking the query lexer for tokens reaches EOF after finitely many steps on every query, never reads outside the query and every word/string token is a substring of the query.","every query text","all strings",[C+"query/mod.rs: QueryLexer"])
p("Component run loop","SimpleComponent.run handles messages of each channel in arrival order, each at most once, handles none after a stop command, survives handler errors, ends with an error only if a tick fails, and forwards exactly the logs for which the handler returned one.","every schedule of arrivals, ticks and handler results","schedules",[C+"simplified.rs: SimpleComponent::run"])
p("Kernel messenger filtering","A log notification reaches the kernel exactly when its level passes both the global maximum and the messenger level and the channel has room; other messages are never filtered, errors distinguish full, closed and timeout, and a rejected message never appears on the channel.","every level combination, every channel state","all interleavings of senders with the kernel",[C+"kernel_message.rs: KernelMessager","src/logging/mod.rs","src/err.rs"])
p("State storage semantics","TestingStorage behaves as two maps: set_value without replace keeps the first value, with replace keeps the last; reads return the last effective write; clones observe each other; a byte range read returns exactly those bytes.","every operation history on any clones","unbounded histories",[C+"storage.rs: TestingStorage"])
p("Command results round trip","A CommandResult serialised and deserialised is the same result; the kind reported by get_type of a command or response is the one of its variant and distinct kinds are distinguishable.","every result value and every command variant","all payloads",[C+"command.rs: CommandResult, SiemCommandCall::get_type, SiemCommandResponse::get_type",C+"command_types.rs"])
p("Log typed getters agree with the stored field","After any history of add_field/insert and typed reads, a typed getter returns what a fresh conversion of the currently stored field returns (caching is unobservable).","every operation history on a log","caches expose history dependence",[E+"log.rs: SiemLog, i64_field, f64_field, u64_field, ip_field, txt_field, array_field",E+"ifield.rs"])
p("ip_fields lists the IP-valued fields","has_ip / ip_fields enumerate exactly the names of the fields currently holding an IP.","every operation history","history dependence",[E+"log.rs: SiemLog::ip_fields, insert, add_field"])
p("Tags are case-insensitive and mirrored","After any history, the set of tags is the set of lower-cased added tags, has_tag finds every added tag, and the tags field lists exactly the tags in order.","every history of add_tag and other operations","history dependence",[E+"log.rs: add_tag, has_tag"])
p("Event timestamps","event_created / event_received return the last timestamp set (or the constructor's), for all setters.","every history of setters","history dependence",[E+"log.rs: new, set_event_created, set_event_received, event_created"])
p("SiemField equality is an equivalence","== on SiemField is reflexive, symmetric and transitive and equal fields hash alike.","every pair/triple of fields","all values of 12 variants",[E+"field.rs: PartialEq, Hash"])
p("SiemField conversions","Numeric/text/IP conversions of a field succeed exactly for convertible content and preserve the value; as-casts never change an in-range value.","every field value","all 64-bit values and texts",[E+"field.rs: TryInto impls"])
p("SiemIp parsing and printing","from_ip_str tries IPv4 then IPv6; the printed form of every IPv4 address parses back to the same address and equals() compares the printed form; octet-array constructors agree with the numeric value.","every address","2^32 + 2^128 inputs",[E+"ip.rs: SiemIp"])
p("Schema merge and apply","Merging schemas never loses a field: text options are united, other kinds are taken from the newcomer; apply removes from a log exactly the fields unknown to the schema and keeps the others unchanged.","every pair of schemas and every log","unbounded maps",[E+"schema.rs: FieldSchema"])
p("HTTP method parsing","Parsing the name of any supported HTTP method (any case as documented) gives that method, and printing gives the name back; unknown names are preserved.","every text","all strings",[E+"common.rs: HttpMethod"])
p("Protocol names and ids","parse of an IANA protocol keyword gives its protocol and every protocol has one keyword; unknown keywords are preserved.","every text","table over all strings",[E+"protocol.rs"])
p("MITRE identifiers","Parsing an ATT&CK tactic or technique identifier is injective: distinct accepted identifiers give distinct values, every technique value is reachable, and unknown identifiers are rejected.","every text; whole tables","hundreds of entries",[C+"mitre.rs: TryFrom<&str> for MitreTechniques / MitreTactics"])
p("Structured events keep their data in the log","Building a log from a firewall, web proxy, web server, DNS, DHCP, auth or intrusion event stores each field under its documented name with the value of the event and nothing else besides the base fields.","every event value","all payloads",[E+"firewall.rs",E+"webproxy.rs",E+"webserver.rs",E+"dns.rs",E+"dhcp.rs",E+"auth.rs",E+"intrusion.rs",E+"event.rs"])
open("/verif/properties.jsonl","w").write("".join(json.dumps(x)+"\n" for x in P))
print(len(P))
