# DESIGN: a Lean 4 model of u-siem-core

## Layout

* `lean/Verif/Rust/*.lean` – the few pieces of the Rust standard library the code relies on
  (string splitting, integer parsing/printing, ordered maps, bounded channels, panics).
* `lean/Verif/Model/*.lean` – the model, one file per source file or group of source files.
  Every definition cites file and lines in `/repo`.
* `lean/Verif/Spec/*.lean` – small specifications that do not mention the model.
* `lean/Verif/Lemmas/*.lean` – helper lemmas.
* `lean/Verif/Props/*.lean` – the property theorems only, each with an `example` showing that
  its hypotheses are met by a concrete, non-trivial case. `Props/RepoTests` has no theorems: it runs the unit tests of `/repo` on the
  model, as a check that the model is the program those tests are about.

## Conventions

* Rust `&str`/`String` is `List Char`; byte slices are lists of bytes. `BTreeMap` is an association list
  kept sorted by key (its order is observable through iteration); `BTreeSet` likewise.
* Unsigned machine integers are `Nat` with explicit bounds where overflow matters, `BitVec` where the code is bit twiddling.
* A panic (index out of range, arithmetic overflow in a debug build, `unwrap` on `None`, `todo!()`) is the explicit
  value `Exec.panic`; `Result`/`Option` stay data.
* `Arc`-shared state between clones is one state cell addressed by all handles; threads are an interleaving of atomic steps.

## Trusted base

* Lean 4.33.0's kernel, with at most the axioms `propext`, `Classical.choice`, `Quot.sound`. `AXIOMS.md` (generated with
  `#print axioms` by `tools/axioms.py`) lists the axioms of every property theorem. No axioms are added; no compiled code is trusted.
* The reading of the Rust source recorded in the comments of each definition (nothing was compiled or run).
* The modelled behaviour of the libraries, in `lean/Verif/Rust` and where said in the model:
  * chrono's calendar and RFC 3339 text in `Rust/Date` (C68 only; elsewhere the text of a date is arbitrary), the years it supports being parameters;
  * std strings, integer parsing and printing, `Ipv6Addr`'s Display, `BTreeMap`/`BTreeSet`, hashing as the list of what is fed to the hasher;
  * f64 as rationals plus NaN and infinities with an arbitrary rounding function `rnd` (a parameter of the theorems; C67 is about IEEE rounding, computed in `Rust/Ieee`, and discharges the hypotheses on `rnd` of C14 and C42) and an arbitrary
    printing function (C69 is about Rust's, computed in `Rust/Decimal`: shortest digits that are read back, no exponent); signed zeros are not distinguished, except in fields (C86);
  * atomics with sequentially consistent interleaving (the code uses `SeqCst` for updates, `Relaxed` for reads of single cells; in C60, C82 and C83 every read of a writer has a moment of its own, in any order, so stale reads are included there);
  * crossbeam's bounded channels (FIFO, `try_send` fails exactly when full or disconnected);
  * sled as a map; for C80 as a list of writes of which a crash keeps the flushed ones and a first part of the others, and whose reads and writes may fail;
  * `regex` for the two fixed patterns of the metric names; the validity of a regex in a rule is an arbitrary predicate;
  * serde's derive attributes as functions between values and JSON trees, including untagged, flattened and buffered content (a buffered
    128-bit number is refused); serde_json's 128-level limit;
  * Unicode tables (`\w`, `\s`, upper and lower case) and `Debug` texts are arbitrary parameters with the hypotheses written in each theorem.

## What is modelled, per source file

| file (under /repo/src) | model | not modelled |
|---|---|---|
| utilities/ip_utils.rs | `Model/IpV4`, `Model/IpV6`: all functions | – |
| utilities/mac.rs | `Model/Mac`: all | – |
| utilities/rule_selector.rs | `Model/RuleSelector`: all | – |
| utilities/http_utils.rs | – | constants only (no logic) |
| events/ip.rs | `Model/SiemIp`, JSON in `Model/Wire` | – |
| events/field.rs, ifield.rs | `Model/Field`, `Model/MinusZero`, `Model/IntoField` (conversions), `Model/Log`, JSON in `Model/Wire` | text of floats (parameter) |
| events/log.rs, events/tags.rs | `Model/Log`, `Model/CommonTags`, JSON in `Model/Wire` | iterator laziness |
| events/schema.rs, base_schema.rs, field_dictionary.rs | `Model/Schema`, `Model/BaseSchema` (generated by `tools/gen_base_schema.py`), JSON in `Model/SchemaWire` | – |
| events/auth, dhcp, dns, event, firewall, intrusion, webproxy, webserver, common, protocol.rs | `Model/EventEnums`, `Model/Events` (first drafted by `tools/gen_events.py`), `Model/EventWire` (JSON, by `tools/gen_event_wire.py`), `Model/Accessors` | derived Debug of structs |
| components/command.rs, command_types.rs, common.rs, task.rs, alert.rs | `Model/Messages`, `Model/Orders`, `Model/Wire` (generated by `tools/gen_wire.py`), `Model/Accessors` | running of the boxed task closures |
| components/dataset/*.rs | `Model/Datasets`, `NetDatasets`, `Calendar`, `I18n`, `Language`, `DatasetType`, `SiemDataset`, `Holder`, JSON in `Model/DatasetWire` | sled itself: `Model/GeoDisk` assumes that a crash keeps the flushed writes and a first part of the others |
| components/kernel_message.rs, logging/*.rs | `Model/Kernel`, `Model/TestingLogger` (unbounded channels) | wall-clock time stamps, zero-capacity channels |
| components/metrics/*.rs | `Model/Metrics`, `Model/MetricText`, `Model/MetricTextMoments` (reads at different moments), `Model/MetricHandles` (many families, conversions), JSON in `Model/SelfWire` | summary.rs (private, unused) |
| components/use_case.rs | `Model/SelfWire` | Debug |
| components/mitre.rs | `Model/Mitre`, `Model/MitreNames` (generated by `tools/gen_mitre.py`) | – |
| components/query/mod.rs | `Model/Query`: the lexer | – |
| components/rule/mod.rs, sigma.rs | `Model/Rule`, `RuleWire`, `Sigma`, `SigmaWire` | YAML text (the parsed document is the input; its plain scalars, which may stand for texts too, are not modelled) |
| components/simplified.rs | `Model/Simplified`: the run loop as a transition system; `Model/Prepare`: the setters, `duplicate` and the calls before `run`; `Model/Pipeline`: several of them in a row; `Model/Pool`: side by side; `Model/Report`: what it tells through the logger; `Model/ReportTeam`: several of them | real time (a deadline is an event of the environment) |
| components/storage.rs | `Model/Storage`, `Model/StorageThreads` (step by step, with locks) | fairness of the locks |
| err.rs | `Model/ErrorWire` (conversions, JSON), types in `Model/Kernel`, `Storage`, `Messages` | the texts of I/O and serde errors (arbitrary) |
| testing/, components/parsing.rs | `Model/Testing`: the stopping helper as the messages its thread sends, the dummy parsers, the default generator settings | actions that do more than send messages to the component |
| tests/ | – | tests |

Overflow is a panic (debug build) where the model says so; `usize` is 64 bits. JSON is modelled as trees, and the texts of trees separately (C70: escapes, numbers, nesting; not modelled: byte
order marks, invalid UTF-8, the laxer checking of parts a type ignores, keys with escapes where a type borrows its keys). Concurrency is modelled where clones share state (metrics, storage, channels, component loop); memory ordering below sequential
consistency is not.

## Disagreements: what a user might expect and the code does not do

The statements in `properties.jsonl` describe what the code does, exactly. Where a user would expect more, the expectation and the theorem that
refutes it are:

* **C02** Stronger expectation 'only dotted quads are accepted' is false of the code: C02_ipv4_accepts_short_text ('5' and '+1.2.3' are accepted).
* **C07** Stronger expectation 'for every address' is false of the code: C07_ipv6_round_trip_fails (texts of 39 characters and dotted tails are refused).
* **C08** The expectation that such texts are accepted with the IPv4 address as the low 32 bits is false for every address; this theorem is its negation at full strength.
* **C11** Stronger expectation 'every value comes back' is false of the code: C11_mac128_print_truncates, C11_mac_str_to_u128_never_inverts.
* **C16** Stronger expectation 'the count of the bound asked for' is false of the code with increasing bounds: C16_get_count_wrong.
* **C17** Stronger expectation 'always the cartesian product' is false of the code: C17_combinations_wrong (sizes 3, 3, 2). The exact condition on the numbers of values (for distinct values per label) is `Spec.HandledSizes`, C17_complete_iff; C17_values_lost: a label other than the first never shows more values than the last label has.
* **C19** Stronger expectation 'well-formed Prometheus text for all labels' is false of the code: C19_trailing_comma, C19_quotes_not_escaped, C19_description_breaks_line; bucket bounds are printed unquoted.
* **C23** Stronger expectation 'longest matching prefix, None only if nothing contains ip' is false of the code: C23_not_longest, C23_host_networks_never_found, C23_zero_address_never_found, C23_aligned_addresses_not_found.
* **C24** Stronger expectations are false of the code: longest match (as C23), injective keys (C24_slow_keys_collide, C24_slow_loses_v6).
* **C25** Stronger expectation 'exactly the entries that contain t' is false of the code: C25_first_day_lost, C25_before_epoch_lost.
* **C28** For geo-IP the expectation is false of the code: C28_geoip_disagrees (the test in dataset/mod.rs is inverted).
* **C29** Stronger expectation 'evaluating a rule always yields an answer' is false of the code: C29_unimplemented_panics, C29_rule_panics.
* **C30** Stronger expectation '*pat is ends-with pat and *pat* is contains pat' is false of the code: C30_leading, C30_both, C30_disagrees.
* **C32** Stronger expectation 'EOF is always reached and only at the end' is false of the code: C32_illegal_forever, C32_disagrees (an embedded character 0 gives EOF early).
* **C35** Stronger expectation 'any range of the file can be read, a range write touches only the range' is false of the code: C35_range_to_end, C35_range_write.
* **C37** Stronger expectation including field_mut/iter_mut is false of the code: C37_stale_after_field_mut, C37_read_then_assigned.
* **C38** Stronger expectation 'exactly the fields currently holding an address, always' is false of the code: C38_overwritten_still_listed, C38_schema_hides_addresses, C38_assigned_not_listed.
* **C39** Stronger expectation 'has_tag finds a tag as it was added' is false of the code: C39_uppercase_tag_not_found.
* **C40** Stronger expectation 'event_created returns what set_event_created set' is false of the code: C40_set_created_reads_zero.
* **C41** Stronger expectation 'an equivalence consistent with Hash' is false of the code: C41_not_symmetric, C41_not_transitive, C41_equal_but_hash_differs.
* **C45** Stronger expectation 'every method name, unknown names preserved' is false of the code: C45_put, C45_unknown, C45_print.
* **C48** Stronger expectation 'every event can be read back' is false of the code: C48_dns_query_data, C48_dhcp_mac_cut.
* **C60** the kind of a metric is not under one member name (metric_type / type), the values are under valuess, values or value; a histogram can be written torn: C60_histogram_torn.
* **C61** what an automated step does (its action) is not in the JSON of a use case.
* **C62** the updates `UserTag` and `AssetTag` carry one text per key although the datasets of those names hold lists; `CustomIpMap` and `HeadquartersWorkingHours` have no update; updates of custom datasets do not name the dataset; translations with a `Language::Other` key cannot be written at all; such a language whose name needs escaping is written but cannot be read back; languages in JSON are case-sensitive, unlike `From<String>`; a geographic record with a coordinate that is not finite is written as null and makes a lookup in the on-disk dataset panic; the on-disk dataset itself is written as `{}`; removing the last network of a length leaves an empty object. Not modelled: `serde_json::to_value`, which refuses 128-bit numbers.
* **C63** the default schema does not know `dns.answer.data`, `requested_ip` (it has `dhcp.requested_ip`), `event.created` and `event.received` (it has `event_created`, `event_received`), so these are lost; `rule.id` is declared a text and stored as a number; intrusions store the transport protocol in `network.protocol`, whose options are web protocols, and their categories are not among the options of `rule.category`; `tags` is declared a text and stored as a list; `origin` is declared an address in the base schema and a text in the default schema; `DELETE` and other methods outside the enumeration are not among the options.
* **C65** the helper's command names the component, but `run` stops at a command for any component, and every `SimpleComponent` is called "SiemComponent"; without `set_log_channel` the helper may wait for ever (two logs are enough); the dummy parsers do not declare the field `parser`, so applying their schema erases it; the text parser refuses the log made by its own generator; the default local network 192.168.1.1/32 has a single address.
* **C66** rules the Sigma specification allows are refused as a whole: lists of keywords, `timeframe`, truth values, a list of conditions; a selection named `condition` is written as a document that is not read; numbers that are not finite become null, and null in a list makes the conversion panic (C50); the text under `condition` is dropped by the conversion.
* **C67** A reader expects a gauge set to 0.29 to read 0.29; it reads 0.28999 (C67_gauge_029: the product 0.29·100000 is a double just below 29000 and is truncated, not rounded), and histogram sums lose a unit of the fifth decimal with every such observation (C67_histogram_drift).
* **C68** Dates whose year chrono does not support print as the beginning of 1970 and are all equal, but do not hash alike (C68_out_of_range_equal).
* **C69** Negative whole numbers are equal as f64 and i64 fields but hash differently (C69_hash_negative); from 2^53 on the same number can differ as f64 and as integer field (C69_large_differs).
* **C70** Floats with more than fifteen digits need not survive JSON: 9007199254740991.0 is read as 9007199254740990 (C70_long_float_changes; serde_json's feature float_roundtrip is not enabled).
* **C72** a rule condition that names two operators is accepted, and which one is used depends on the order of the members.
* **C80** Stronger expectation 'errors of the disk are reported' is false of the code: C80_read_errors_hidden (the answer silently becomes that of another network, or none), C80_write_errors_hidden.
* **C85** Stopping one component of a row takes the ones before it down: each ends, with Ok and without a report, when it has its next log to send, and that log and those in the channel are lost (C33_reader_gone).
* **C81** Debug and Trace messages never reach the test, whatever the global limit: the messenger is made with the level Info (`Spec.shown`).
* **C82** Count, sum and buckets of one histogram need not agree with each other: a bucket written may exceed the count written before it (`C60_histogram_torn`).
* **C83** A bucket of the text may exceed the count, which was read first (`C83_bucket_above_count`).
* **C86** Stronger expectation 'fields with equal numbers are equal' is false of the code: C86_not_zero.
* **C87** Stronger expectation 'the order of the logs is kept' is false of the code with two components (example in Props/Pool).
* **C88** Stronger expectation 'an error of a handler can be seen by the kernel' is false of the code with the messenger that `KernelMessager::new` makes: errors are reported at `debug`, its level is `info` (C88_info_hides).
* **C90** Stronger expectation 'a dataset sent before a log is known when the log is handled' is false of the code: C90_overtaken (two channels, either may be taken first).
* **C20, C21, C23** an empty batch of updates panics (`iter.next().unwrap()`).
* **C31** the alert text lexer shares the flaws of the query lexer.
* **C33** the default log channel of a SimpleComponent is a loop of capacity 1 onto itself, so the component can wait for itself forever.
* **C34** the methods of KernelMessager ignore the global maximum level (only the macros look at it).
* **C44** the built-in schema drops event.created and event.received.
* **C46** protocol 84 is never TTP, 253 and 254 are both USE.
* **C51–C54** addresses are written as text but read from {"V4": n}, so ISOLATE_IP and FILTER_IP are never read back; a command result can only be
  read from a text; fields and logs do not come back as they were; the dataset message cannot be serialised.
* **C57** rules with SameNet are never read back, nor those nested more than 122 operators deep.
* **C58** events with addresses are never read back; a protocol OTHER cannot be written; a free document with a member event_type is lost.
* **C59** the error of a parser about an ordinary log (one with a message text) cannot be read back from its JSON.

## Plan per property

* **C01** IPv4 text round trip: `Model/IpV4`: functions on char lists, u32 as Nat<2^32. Proof: digit lemmas, split of a join.
* **C02** IPv4 parser accepts only dotted quads: same model; spec = list of octet texts. Code also accepts 1-3 groups and a leading '+': the accepted language is characterised exactly (iff); the stronger expectation is refuted by a witness.
* **C03** Local IPv4 ranges: arithmetic on Nat div/mod; omega.
* **C04** Local IPv6 range: same.
* **C05** ip:port parsing: rfind model; uses C01 and decimal parsing of ports.
* **C06** IPv6 parser is total and memory-safe: `Model/IpV6`: loop with fuel and explicit panic; invariant hextet_index<8, offset<=len.
* **C07** IPv6 text round trip: std's Display modelled as a function of the 8 hextets; parser simulated on the printed text. False for 39-character texts and mapped addresses: proved as an iff, with witnesses.
* **C08** IPv6 with embedded IPv4 tail: negation: the dotted branch never succeeds.
* **C09** MAC-48 round trip: `Model/Mac`: hex digits; split/join.
* **C10** EUI-64 round trip: as C09.
* **C11** 128-bit MAC round trip: as C09; false for 65..96-bit values and for mac_str_to_u128; exact domain proved.
* **C12** Rule selector picks a best match: `Model/RuleSelector`: ordered maps; refinement of index to list of (rule, word) pairs, argmax of fold.
* **C13** Counters sum all increments: `Model/Metrics`: heap of atomics, interleaving semantics; induction over schedules.
* **C14** Gauges: last set plus later adjustments: same heap; fixed-point value as Int/BitVec 64.
* **C15** Histogram buckets are cumulative: histogram over an abstract linear order of values (f64 comparisons as parameter).
* **C16** Histogram bucket lookup: exact answer for all bounds (first bound not above the argument), refutation of the expected one, and the order of bounds for which it holds.
* **C17** Label combinations are the cartesian product: odometer model; refinement to the cartesian product for the handled sizes; otherwise a round that repeats the first, or values never shown.
* **C18** Metric definitions validate names: character predicates; regexes as list predicates.
* **C19** Prometheus text: encode as list of chars; parser-free structural spec of the lines, for all labels.
* **C20** Keyed dataset updates refine a map: generic fold refinement, instantiated per dataset.
* **C21** Batching updates does not matter: foldl append.
* **C22** Dataset update channel: FIFO, no silent corruption: bounded channel LTS, invariants over histories.
* **C23** Network dataset lookup: `Model/NetDatasets`: maps per prefix length; exact characterisation of what is returned; refutations of longest-prefix match.
* **C24** Geo-IP lookup: as C23 plus exact key equality and exact on-disk lookup.
* **C25** Calendar lookup: `Model/Calendar`: day buckets; the exact answer for every history and instant; what is lost on the first day.
* **C26** Translation fallback: ordered maps.
* **C27** Dataset holder keeps the latest dataset per type: ordered maps.
* **C28** Typed dataset conversions: enumerated families.
* **C29** Rule evaluation: `Model/Rule`.
* **C30** Sigma wildcard translation: `Model/Sigma`.
* **C31** Sigma alert text rendering: lexer with fuel/progress measure.
* **C32** Query lexer terminates and covers the query: `Model/Query` lexer; progress measure; substring invariant.
* **C33** Component run loop: labelled transition system of the loop; induction on runs.
* **C34** Kernel messenger filtering: bounded channel + level filter.
* **C35** State storage semantics: two maps with shared cell.
* **C36** Command results round trip: JSON-level model of the map with one key.
* **C37** Log typed getters agree with the stored field: `Model/Log` with per-field caches; coherence invariant.
* **C38** ip_fields lists the IP-valued fields: invariant; negation for overwritten.
* **C39** Tags are case-insensitive and mirrored: invariant. The constants of tags.rs are literals; that they are distinct, also as stored, is decided once for all of them.
* **C40** Event timestamps: negation for set_event_created; rest.
* **C41** SiemField equality is an equivalence: `Model/Field`; negations by witness, positive fragments.
* **C42** SiemField conversions: casts on BitVec/Int.
* **C43** SiemIp parsing and printing: `Model/Ip`.
* **C44** Schema merge and apply: ordered maps.
* **C45** HTTP method parsing: finite table.
* **C46** Protocol names and ids: finite table generated from source.
* **C47** MITRE identifiers: finite tables generated from source.
* **C48** Structured events keep their data in the log: records to maps.
* **C49** Base text attributes of a log: history of setter calls, fold over `Model/Log`.
* **C50** Sigma rule conversion: `Model/Sigma`, structural recursion, spec of tag and level tables in `Spec/Sigma`.
* **C51** Commands and responses as JSON: `Rust/Json` (trees, serde-derive combinators), `Model/Wire` (generated by
  `tools/gen_wire.py` from the derive attributes); case analysis per variant, round trip of each payload.
* **C52** Fields as JSON: untagged deserialisation tried in declaration order; exact image computed.
* **C53** Logs as JSON: the two encodings of `InternalField` differ; exact readable set.
* **C54** Messages as JSON: composition of C51–C53.
* **C55** Task definitions as JSON: the hand-written visitor as a fold; exact characterisation by induction on the entries.
* **C56** Printing and searching field values: `Model/Field`; specs `SameText`, `Occurs`, `SignedInt` on characters; case analysis and list induction.
* **C57** Rules as JSON: `Model/RuleWire`: flattened operator tree over `Rust/Json`; mutual induction over operators; depth of the document against serde_json's 128-level limit.
* **C58** Events as JSON: `Model/EventWire` over `Rust/Json`: internally tagged enums, the buffered reader; documents given in `Spec/EventWire`; struct by struct from `fields_ser`, mutual induction for `serde_json::Value`.
* **C59** Errors as JSON: `Model/ErrorWire`; names and carried logs given in `Spec/ErrorWire`; case analysis over the variants on top of C53; `C59_read_form` inverts the reader for every document.
* **C60** Metrics as JSON: `Model/SelfWire` over `Model/Metrics`: the writers take the sequence of moments at which the cells are read; linearization of one-step calls (`Interleaving.lift`) and C15.
* **C61** Component descriptions and use cases as JSON: `Model/SelfWire`; parts read back with the readers of `Model/Wire`; injectivity of the writers up to the field left out.
* **C62** Datasets and updates as JSON: `Model/DatasetWire` over the dataset models and `Rust/Json`; contents by membership in the sorted maps and by the invariants of the builders (C02-C06, C21-C24); injectivity of the number texts; case analysis over the update variants.
* **C63** The default schema and the events: `Model/BaseSchema` (generated by `tools/gen_base_schema.py`), with the field lists of C48: membership of names and options decided by the kernel over the finite schema, the values of the events by case analysis.
* **C64** Schemas as JSON: `Model/SchemaWire`; documents read by member names (`Path` of C62); equality by extensionality of sorted maps.
* **C65** Components without handlers and the helpers for tests: `Model/Testing` on top of the transition system of C33: a replay relation for the state, merges of the messages of several threads, a termination argument on the queue.
* **C66** Sigma rules as documents: `Model/SigmaWire`; reading is proved equivalent to inductive relations between documents and values (mutual induction for lists), round trip by structural induction, import by composing with C50.
* **C67** Gauges, histogram sums and numeric conversions as IEEE doubles: `Rust/Ieee` computes the rounding (exponent, last place, nearest even integer); `Spec/Ieee` says what doubles are and what nearest means. Proof: distance of whole multiples of the last place, finer doubles are farther; error analysis of the fixed-point conversions by induction on the calls; C14 and C15 give the schedules.
* **C68** Dates as texts: `Rust/Date` follows chrono (400-year cycles, table of leap years, walk over the months); `Spec/Date` counts days with a successor function and describes the text. Proof: the computed date of the next day is the next day (year arithmetic by omega, the 366 days of both kinds of year exhaustively), induction in both directions; fixed-width decimals for uniqueness and order.
* **C69** Numbers as texts: `Rust/Decimal` searches, place by place from 10^309 down, for the first decimal that IEEE rounding takes back to the number; `Spec/Decimal` says what a decimal text denotes and when it is tidy. Proof: rounding is monotone, so if any multiple of a power of ten is read back, one of the two around the number is; every double is a multiple of 10^-1074, so the search succeeds; tidy texts are unique; 15 digits by the relative error of C67.
* **C70** JSON as text: `Rust/JsonText` models serde_json's compact and pretty writers (escapes, ryu's float format) and its reader (white space, escapes and surrogate pairs, significand and exponent arithmetic in doubles, the recursion limit); `Spec/JsonText` is the grammar, with the value a number stands for as a parameter. Proof: the reader is sound and complete for the grammar by induction on documents and on the length of the text; the writers produce texts of the grammar; digits by the gap between doubles; errors by interval reasoning on the three roundings. The types follow from a bound on the levels of each type's documents (`Fits`, Props/JsonTypes and Props/JsonMore); the texts of web server events are excluded (their duration is an `f32`, written with the digits of a single: C71 covers that for geographic records).
* **C71** Coordinates as text: `Rust/Ieee32` is the rounding to singles (bits included) and the shortest digits of a single; `Model/GeoText` has the records and the tree with texts in place of C62's documents. Proof: the shortest digits of a single have fewer than 4·10^8 steps, so in the range stated the decimal is read as the nearest double, and a decimal in steps of half the last place of its single has a denominator below 2^28, so it is either a midpoint (then a double itself) or farther from one than a double's rounding error.
* **C72** Order of JSON members: `Spec/Rearranged` is the relation between documents, the readers are those of C51 to C62 and C66. Proof: every combinator of the readers preserves the property (`Lemmas/Rearranged`), the types follow by instance search; the task definition's loop by commuting steps, rules and `Value` by induction on the relation.
* **C73** Members of JSON structures: `Spec/Structure` says what it means, with the member names and which are mandatory; one theorem per structure, from one lemma about the derived reading of fields and a case analysis per member.
* **C74** Variants of enumerations on the wire: `Spec/Variants` lists the variants of every enumeration with their names and what their data stands for, and says what reading and writing a variant is; the model's readers (C51 to C59) are the derived ones. Proof: the reader's variants correspond one by one to the specification's, and names are distinct; what is written by the round trips.
* **C75** Members and fields of structures on the wire: `Spec/Members` lists, for each structure, its members, the form of each and the field it holds (generated from the declarations in the Rust source, not from the model); the readers and writers are the derived ones. Proof: one lemma per step of the reader, the forms from C74 and the payload lemmas.
* **C76** A storage shared by several threads: `Model/StorageThreads` has every thread step through a method (lock, look up, test, insert, slice, drop of the guard), with holder and poison flag per mutex; `Spec/StorageThreads` is two tables and calls that take effect at once. Proof: a forward simulation, with mutual exclusion as invariant; progress by counting the steps left under the guard.
* **C77** Families of metrics, their handles and conversions: `Model/MetricHandles` has the heap of cells and the list of handles, with constructions, copies, conversions and single atomic steps as transitions; `Spec/MetricHandles` reads from a history which handle is of which family and which steps were made through it. Proof: an invariant that gives each family its own range of cells, by induction over histories; then C13, C14, C15 for each family.
* **C78** Values put into logs come back from the getter of their type: `Model/IntoField` has the conversions, `Spec/IntoField` says when a value is the last put under a name. Proof: from the last-write and getter theorems of C37 over all histories, then by the type of the value.
* **C79** Constructors, accessors, logs and documents agree: `Model/Accessors` has the constructors and accessors. Proof: the content of logs (C48) and documents (C58, C61, C55) is already characterised; each accessor's value is located there.
* **C80** The on-disk GeoIP dataset under crashes and disk errors: `Model/GeoDisk` has the functions over a database that keeps the oldest writes in a crash (the assumption about sled) and whose reads and writes may fail; `Spec/GeoDisk` is the list of insertions a user has in mind. Proof: the database refines the list (an invariant over histories), then the lookup as in C24.
* **C81** A logger for tests loses nothing and shows a test only its own thread: `Model/TestingLogger` adds channels without limit to `Model/Kernel`: before each step they get room for one message. `Spec/TestingLogger.forTest` says what each call adds, without looking at the state. Proof: an invariant of the test (its messenger is installed, nobody else has a sender) and the step theorem of C34.
* **C82** A histogram read or written while threads observe is exact for the observations begun: `Spec/HistogramMoments` says where each thread stands after a piece of the schedule (`Stands`, `Underway`). Proof: every prefix of a schedule is a schedule of prefixes of the threads; a call changes each cell at most once and the count first, so C15_histogram_totals applies to the calls counted; the writing is C60_moments.
* **C83** The Prometheus text written while threads change the metrics: `Model/MetricTextMoments` repeats the encoders of `Model/MetricText` with a heap for every read, in the order of the code (a histogram reads its count first and stops if it is 0). Proof: the values at the moments are those of C60 and C82 (`counters_at_moments`, `gauges_at_moments`, `hist_reads`); the lines are counted through the loops.
* **C84** Orders of the enumerations: `Model/Orders` with the derived orders as position first and payload second; `Spec/Orders` says the order by the written names of the variants and lists them. Proof: the position is the index in the list without repetitions; comparing texts is the first difference, by induction.
* **C85** Components in a row: `Model/Pipeline` puts the run loops of `Model/Simplified` in a row over shared channels; `Spec/Pipeline` says what enters, leaves and is to be made of logs. Proof: books of the whole row as an invariant of every step of every stage (built on the step lemmas of C33), induction over the stages, and a weight of the logs inside that every step of work lowers.
* **C86** Minus zero in a field: `Model/MinusZero` adds the one value that `Model/Field` leaves out, arm by arm. Proof: by kinds; the text of a double has no sign before a lone zero (C69), integers and dates are printed otherwise (C68).
* **C87** Components side by side: `Model/Pool` lets run loops of `Model/Simplified` share both log channels; `Spec/Pool` says what comes out and whose a log is. Proof: books of the pool (who took and who sent which log) as an invariant of every step of every worker, permutations for what all make together, and a weight of the logs inside that every step of work lowers.
* **C88** What a component reports through its logger: `Model/Report` lets the loop of `Model/Simplified` call the logger of `Model/Kernel`, with anyone else using the kernel's channels in between; `Spec/Report` says what it should tell and what passes the levels. Proof: forgetting the logger gives a schedule of C33, forgetting the loop gives a history of C34; what is reported is compared step by step with the calls recorded (one case loses a log and ends the loop), and what arrives by induction on the history, with the messages marked by whose they are.
* **C89** What several components report to one kernel: `Model/ReportTeam` is a family of the loops of `Model/Report` over one kernel with one global level. Proof: seen by one component, a schedule of all is a schedule of C88 in which the others' reports are logger calls of other threads, so the statements of C88 carry over; what arrives is one induction over the history that marks every message by its component, for all components at once.
* **C90** What a component knows about the datasets when it handles a log: The loop of `Model/Simplified` with the holder of `Model/Holder` as a part of the component's state (`Spec.Keeps`, `Spec.AnswersWith`: hypotheses on the handlers only). Proof: the trace of a run replays the handlers (C33_state), so it can be cut before any call and the holder there is the fold of the datasets so far; C33_order says which these are.
