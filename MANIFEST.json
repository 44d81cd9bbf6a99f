{
 "claims": [
  {
   "property": "C01",
   "status": "proved",
   "theorems": [
    "Verif.Props.C01_level_is_worst",
    "Verif.Props.C01_ok_iff",
    "Verif.Props.C01_heap",
    "Verif.Props.C01_undisciplined_violated"
   ],
   "note": "Trees built from finished results; C01_heap lifts it to mutable objects, C01_undisciplined_violated shows that results must not be changed after they were appended."
  },
  {
   "property": "C02",
   "status": "proved",
   "theorems": [
    "Verif.Props.C02_append",
    "Verif.Props.C02_never_hidden",
    "Verif.Props.C02_sub_fails",
    "Verif.Props.C02_order_irrelevant",
    "Verif.Props.C02_appendAll"
   ],
   "note": "append and sequences of appends."
  },
  {
   "property": "C03",
   "status": "proved",
   "theorems": [
    "Verif.Props.C03_round_trip",
    "Verif.Props.C03_ok",
    "Verif.Props.C03_iff_consistent",
    "Verif.Props.C03_read",
    "Verif.Props.C03_injective"
   ],
   "note": "to_dict/from_json on a JSON datatype; exact characterisation for arbitrary trees in C03_iff_consistent."
  },
  {
   "property": "C04",
   "status": "proved",
   "theorems": [
    "Verif.Props.C04_lines"
   ],
   "note": "to_lines of every tree."
  },
  {
   "property": "C05",
   "status": "proved",
   "theorems": [
    "Verif.Props.C05_well_nested",
    "Verif.Props.C05_messages",
    "Verif.Props.C05_seen",
    "Verif.Props.C05_failures_visible",
    "Verif.Props.C05_folded",
    "Verif.Props.C05_injective",
    "Verif.Props.C05_escape"
   ],
   "note": "_to_html of every tree; of the surrounding template file only the style of .sub-results and .visible is used (Seen)."
  },
  {
   "property": "C06",
   "status": "proved",
   "theorems": [
    "Verif.Props.C06_contexts_restored",
    "Verif.Props.C06_refines_meaning",
    "Verif.Props.C06_no_internal_failure"
   ],
   "note": "All programs of start/write/abort/raise/query operations over the global stack; exec refines a stack-free meaning."
  },
  {
   "property": "C07",
   "status": "proved",
   "theorems": [
    "Verif.Props.C07_abort",
    "Verif.Props.C07_program_order",
    "Verif.Props.C07_fails_all_enclosing",
    "Verif.Props.C07_default_abort",
    "Verif.Props.C07_rest_skipped"
   ],
   "note": "abort inside any nesting of blocks."
  },
  {
   "property": "C08",
   "status": "proved",
   "theorems": [
    "Verif.Props.C08_propagates",
    "Verif.Props.C08_recorded",
    "Verif.Props.C08_never_silent",
    "Verif.Props.C08_unwound_entries_lost"
   ],
   "note": "foreign exceptions: propagated or recorded by the first catch-all block; C08_unwound_entries_lost: what was written in unwound blocks is lost."
  },
  {
   "property": "C09",
   "status": "proved",
   "theorems": [
    "Verif.Props.C09_write_closed",
    "Verif.Props.C09_write_open"
   ],
   "note": "write without an open context raises and changes nothing."
  },
  {
   "property": "C10",
   "status": "partial",
   "theorems": [
    "Verif.Props.C10_selects_partial",
    "Verif.Props.C10_no_brackets_tame",
    "Verif.Props.C10_reversed_range_violated"
   ],
   "note": "Equality with a declarative glob relation for all patterns except sets that begin with a reversed range followed by \"!\"; for those the code (python fnmatch) differs, see C10_reversed_range_violated."
  },
  {
   "property": "C11",
   "status": "proved",
   "theorems": [
    "Verif.Props.C11_malformed",
    "Verif.Props.C11_blank_selects_all",
    "Verif.Props.C11_monotone"
   ],
   "note": "Rejection, blank filters, monotonicity."
  },
  {
   "property": "C12",
   "status": "proved",
   "theorems": [
    "Verif.Props.C12_round_trip",
    "Verif.Props.C12_injective",
    "Verif.Props.C12_fails"
   ],
   "note": "UTF-8 and base64url modelled completely; the decoder is an independent bit-string specification."
  },
  {
   "property": "C13",
   "status": "proved",
   "theorems": [
    "Verif.Props.C13_omits_none",
    "Verif.Props.C13_no_parameters",
    "Verif.Props.C13_round_trip",
    "Verif.Props.C13_normal",
    "Verif.Props.C13_fails"
   ],
   "note": "urlencode modelled; the receiver is an independent percent/UTF-8 decoder. Values are represented by their str."
  },
  {
   "property": "C14",
   "status": "proved",
   "theorems": [
    "Verif.Props.C14_prefix",
    "Verif.Props.C14_url",
    "Verif.Props.C14_empty_prefix",
    "Verif.Props.C14_arguments"
   ],
   "note": "URL passed to the transport, for all clients and requests."
  },
  {
   "property": "C15",
   "status": "partial",
   "theorems": [
    "Verif.Props.C15_request_headers_partial",
    "Verif.Props.C15_additional_headers_violated"
   ],
   "note": "Exactly the headers of the request are sent. Missing: additional headers, which the code never sends (C15_additional_headers_violated, for every client)."
  },
  {
   "property": "C16",
   "status": "partial",
   "theorems": [
    "Verif.Props.C16_descend_partial",
    "Verif.Props.C16_last_step",
    "Verif.Props.C16_violated"
   ],
   "note": "One step from the root and preservation of all settings. Missing: several steps; the code forgets all but the last (C16_last_step, C16_violated)."
  },
  {
   "property": "C17",
   "status": "partial",
   "theorems": [
    "Verif.Props.C17_integers",
    "Verif.Props.C17_accepted_partial",
    "Verif.Props.C17_plain_text",
    "Verif.Props.C17_underscore_violated"
   ],
   "note": "Range check exact for every XSD integer text and for every visible ASCII text; exact characterisation of all accepted texts (Python int syntax) in C17_accepted_partial. Missing: rejection of text with underscores, white space or digits of other scripts, which the code accepts (C17_underscore_violated)."
  },
  {
   "property": "C18",
   "status": "partial",
   "theorems": [
    "Verif.Props.C18_date_partial",
    "Verif.Props.C18_date",
    "Verif.Props.C18_line_feed_violated"
   ],
   "note": "Exact for all texts up to one final line feed (accepted by the code because `$` matches before it; C18_line_feed_violated) and up to the integer conversion limit of the interpreter (a longer year raises, see C28)."
  },
  {
   "property": "C19",
   "status": "proved",
   "theorems": [
    "Verif.Props.C19_leap_year",
    "Verif.Props.C19_period"
   ],
   "note": "isLeapYear for all years, also negative ones and 0."
  },
  {
   "property": "C20",
   "status": "partial",
   "theorems": [
    "Verif.Props.C20_date_time_partial",
    "Verif.Props.C20_date_time_utc_partial",
    "Verif.Props.C20_utc_is_date_time",
    "Verif.Props.C20_line_feed_violated"
   ],
   "note": "Exact up to one final line feed (C20_line_feed_violated) and the integer conversion limit."
  },
  {
   "property": "C21",
   "status": "partial",
   "theorems": [
    "Verif.Props.C21_gYear",
    "Verif.Props.C21_gYearMonth",
    "Verif.Props.C21_gMonth",
    "Verif.Props.C21_gDay",
    "Verif.Props.C21_time",
    "Verif.Props.C21_gMonthDay_partial",
    "Verif.Props.C21_line_feed_violated"
   ],
   "note": "gYear, gYearMonth, gMonth, gDay, time exact; gMonthDay exact up to one final line feed (C21_line_feed_violated)."
  },
  {
   "property": "C22",
   "status": "proved",
   "theorems": [
    "Verif.Props.C22_duration"
   ],
   "note": "Exact for all strings; proved through a verified regular expression matcher applied to the parsed source pattern."
  },
  {
   "property": "C23",
   "status": "proved",
   "theorems": [
    "Verif.Props.C23_hex",
    "Verif.Props.C23_hex_accepts",
    "Verif.Props.C23_base64",
    "Verif.Props.C23_base64_accepts",
    "Verif.Props.C23_base64_rejects",
    "Verif.Props.C23_base64_accepts_more"
   ],
   "note": "Exact for all strings, including the non-strict behaviour of b64decode."
  },
  {
   "property": "C24",
   "status": "proved",
   "theorems": [
    "Verif.Props.C24_boolean",
    "Verif.Props.C24_special",
    "Verif.Props.C24_float",
    "Verif.Props.C24_double",
    "Verif.Props.C24_float_text",
    "Verif.Props.C24_largest_float_rejected",
    "Verif.Props.C24_decimal",
    "Verif.Props.C24_decimal_sound",
    "Verif.Props.C24_decimal_exact",
    "Verif.Props.C24_decimal_accepts_more"
   ],
   "note": "Correct rounding of decimal literals to binary64 is modelled and proved; the accepted range is exact. Decimals: exact for texts of digits, signs and points, sound for visible ASCII. The largest finite float itself is rejected by the code (C24_largest_float_rejected)."
  },
  {
   "property": "C25",
   "status": "partial",
   "theorems": [
    "Verif.Props.C25_any_uri_partial",
    "Verif.Props.C25_sound",
    "Verif.Props.C25_characters",
    "Verif.Props.C25_accepts",
    "Verif.Props.C25_line_feed_violated",
    "Verif.Props.C25_ipv6_violated"
   ],
   "note": "Exact characterisation of all accepted texts as IRI references by components; differs from RFC 3987 in two points: a final line feed is accepted (C25_line_feed_violated) and IPv6 addresses with other numbers of groups before :: are rejected (C25_ipv6_violated)."
  },
  {
   "property": "C26",
   "status": "partial",
   "theorems": [
    "Verif.Props.C26_tag_partial",
    "Verif.Props.C26_sound",
    "Verif.Props.C26_accepts",
    "Verif.Props.C26_accepts_grandfathered",
    "Verif.Props.C26_grandfathered_case_violated",
    "Verif.Props.C26_line_feed_violated",
    "Verif.Props.C26_english_partial",
    "Verif.Props.C26_english",
    "Verif.Props.C26_english_violated"
   ],
   "note": "Exact characterisation of all accepted texts by subtags; differs from BCP 47 in two points: a final line feed is accepted (C26_line_feed_violated) and grandfathered tags in another case are rejected (C26_grandfathered_case_violated). English: exact, with the treatment of line feeds in C26_english_violated."
  },
  {
   "property": "C27",
   "status": "partial",
   "theorems": [
    "Verif.Props.C27_rejects",
    "Verif.Props.C27_plain",
    "Verif.Props.C27_path_partial",
    "Verif.Props.C27_date_time_partial",
    "Verif.Props.C27_date_time_utc_partial",
    "Verif.Props.C27_date_times",
    "Verif.Props.C27_line_feed_violated",
    "Verif.Props.C27_version_string_partial"
   ],
   "note": "All string classes, for all strings; formats through the verified regular expression matcher. Missing: a final line feed, which the code accepts for points in time and paths (C27_line_feed_violated), and what C25 and C28 miss."
  },
  {
   "property": "C28",
   "status": "partial",
   "theorems": [
    "Verif.Props.C28_total_partial",
    "Verif.Props.C28_total",
    "Verif.Props.C28_kind",
    "Verif.Props.C28_long_year_violated"
   ],
   "note": "Total for all types but dates. xs:date and xs:dateTime raise ValueError for years longer than the integer conversion limit of the interpreter (C28_long_year_violated)."
  },
  {
   "property": "C29",
   "status": "proved",
   "theorems": [
    "Verif.Props.C29_normpath",
    "Verif.Props.C29_normal_form",
    "Verif.Props.C29_fixed_point",
    "Verif.Props.C29_idempotent",
    "Verif.Props.C29_white_space_violated",
    "Verif.Props.C29_no_escape",
    "Verif.Props.C29_parent",
    "Verif.Props.C29_resolve",
    "Verif.Props.C29_splitpath"
   ],
   "note": "Exact: the normal form is the place where a walk through the segments ends. Idempotent unless the normal form has surrounding white space (C29_white_space_violated)."
  },
  {
   "property": "C30",
   "status": "proved",
   "theorems": [
    "Verif.Props.C30_terminates",
    "Verif.Props.C30_fuel",
    "Verif.Props.C30_once",
    "Verif.Props.C30_calls"
   ],
   "note": "Fuel adequacy, exact condition for a normal end (all relationship parts reached are XML), each part followed at most once. The recursion limit of the interpreter is not modelled."
  },
  {
   "property": "C31",
   "status": "proved",
   "theorems": [
    "Verif.Props.C31_verdict",
    "Verif.Props.C31_standard",
    "Verif.Props.C31_dangling"
   ],
   "note": "Verdict exact, with parts of the top level placed in the folder / as the code does; for packages without relationships of such parts also in terms of the standard (C31_standard)."
  },
  {
   "property": "C32",
   "status": "partial",
   "theorems": [
    "Verif.Props.C32_found",
    "Verif.Props.C32_followed_partial",
    "Verif.Props.C32_flat",
    "Verif.Props.C32_sub_relationships",
    "Verif.Props.C32_top_level_violated"
   ],
   "note": "Missing: relationships of parts at the top level of the archive, which the code looks for under a wrong name (C32_top_level_violated). Exact in terms of the code (C32_found) and for packages without such relationships (C32_flat)."
  },
  {
   "property": "C33",
   "status": "partial",
   "theorems": [
    "Verif.Props.C33_verdict_partial",
    "Verif.Props.C33_no_false_alarm",
    "Verif.Props.C33_raises",
    "Verif.Props.C33_standard_partial",
    "Verif.Props.C33_second_link_violated",
    "Verif.Props.C33_key_error_violated",
    "Verif.Props.C33_engine_partial"
   ],
   "note": "The meta-model checks are parameters. Exact verdict if the origin part is linked in the plain way only and no check raises KeyError; no false alarms and exact origin of exceptions for all packages. Missing: packages in which the origin part is found through another relationship first (C33_second_link_violated) and KeyError raised by a check (C33_key_error_violated)."
  },
  {
   "property": "C34",
   "status": "proved",
   "theorems": [
    "Verif.Props.C34_package",
    "Verif.Props.C34_spelling"
   ],
   "note": "For arbitrary subsets of rewritten relationships and arbitrary files: same verdict, same failures, same tree of relationships, same exceptions."
  },
  {
   "property": "C35",
   "status": "proved",
   "theorems": [
    "Verif.Props.C35_conforms",
    "Verif.Props.C35_returns"
   ],
   "note": "For every schema, type and JSON value (without duplicate member names, as json.load yields)."
  },
  {
   "property": "C36",
   "status": "proved",
   "theorems": [
    "Verif.Props.C36_typed",
    "Verif.Props.C36_check",
    "Verif.Props.C36_formats"
   ],
   "note": "For every schema, JSON and XML."
  },
  {
   "property": "C37",
   "status": "proved",
   "theorems": [
    "Verif.Props.C37_json",
    "Verif.Props.C37_xml"
   ],
   "note": "JSON and XML; the paths of the structured messages, the wording is not modelled."
  },
  {
   "property": "C38",
   "status": "proved",
   "theorems": [
    "Verif.Props.C38_parse",
    "Verif.Props.C38_check"
   ],
   "note": "Any number of reorderings at any depth; also the messages are the same up to their order."
  },
  {
   "property": "C39",
   "status": "proved",
   "theorems": [
    "Verif.Props.C39_naming",
    "Verif.Props.C39_injective",
    "Verif.Props.C39_keys",
    "Verif.Props.C39_reflected",
    "Verif.Props.C39_unambiguous",
    "Verif.Props.C39_no_model_type"
   ],
   "note": "The naming rule for all snake_case names, the names of all attributes of all classes of the meta-model."
  },
  {
   "property": "C40",
   "status": "proved",
   "theorems": [
    "Verif.Props.C40_json_content",
    "Verif.Props.C40_json",
    "Verif.Props.C40_xml_content",
    "Verif.Props.C40_xml",
    "Verif.Props.C40_same"
   ],
   "note": "JSON and XML, every object, for every schema with distinct attribute names."
  },
  {
   "property": "C41",
   "status": "proved",
   "theorems": [
    "Verif.Props.C41_raises",
    "Verif.Props.C41_kind",
    "Verif.Props.C41_verdict",
    "Verif.Props.C41_reported",
    "Verif.Props.C41_once",
    "Verif.Props.C41_places"
   ],
   "note": "For every schema and every set of checks; exact list of reported violations, in their order (C41_once), and no place is visited twice (C41_places; C64_places for the meta-model), exact condition for exceptions."
  },
  {
   "property": "C42",
   "status": "partial",
   "theorems": [
    "Verif.Props.C42_rules",
    "Verif.Props.C42_reference_partial",
    "Verif.Props.C42_index",
    "Verif.Props.C42_index_violated"
   ],
   "note": "Every rule exact for every reference. AASd-128: the index is what int() reads (C42_index: the integers, for visible ASCII without underscore; C42_index_violated: \"1_0\" is accepted)."
  },
  {
   "property": "C43",
   "status": "partial",
   "theorems": [
    "Verif.Props.C43_unique",
    "Verif.Props.C43_have",
    "Verif.Props.C43_lists_and_operations",
    "Verif.Props.C43_operation_variable_partial",
    "Verif.Props.C43_operation_variable_violated",
    "Verif.Props.C43_entity_violated",
    "Verif.Props.C43_annotations_violated"
   ],
   "note": "Exact for submodels, collections, lists and operations. Missing: uniqueness in entities and annotated relationships, which the code does not check (C43_entity_violated, C43_annotations_violated), and operation variables without idShort, for which it raises AttributeError (C43_operation_variable_violated)."
  },
  {
   "property": "C44",
   "status": "partial",
   "theorems": [
    "Verif.Props.C44_semantics",
    "Verif.Props.C44_types_partial",
    "Verif.Props.C44_types_sound",
    "Verif.Props.C44_value_types_partial",
    "Verif.Props.C44_types_violated",
    "Verif.Props.C44_declared_violated"
   ],
   "note": "AASd-107 and 114 exact. AASd-108 exact unless the declared type is abstract (C44_types_violated: specialisations are rejected); AASd-109 exact for the elements, not for the declaration in an empty list (C44_declared_violated)."
  },
  {
   "property": "C45",
   "status": "partial",
   "theorems": [
    "Verif.Props.C45_rules",
    "Verif.Props.C45_reserved_name_partial",
    "Verif.Props.C45_case_violated"
   ],
   "note": "Exact but for the reserved name in another case (C45_case_violated)."
  },
  {
   "property": "C46",
   "status": "partial",
   "theorems": [
    "Verif.Props.C46_shared",
    "Verif.Props.C46_classes",
    "Verif.Props.C46_rules",
    "Verif.Props.C46_template_elements_partial",
    "Verif.Props.C46_nested_violated"
   ],
   "note": "Exact; AASd-129 for the elements at the top level only (C46_nested_violated)."
  },
  {
   "property": "C47",
   "status": "partial",
   "theorems": [
    "Verif.Props.C47_content",
    "Verif.Props.C47_concept",
    "Verif.Props.C47_data_types_partial",
    "Verif.Props.C47_data_types_sound",
    "Verif.Props.C47_data_types_violated"
   ],
   "note": "AASc-3a-002, 007..010 exact. AASc-3a-004..006: the code compares an enum member with texts, hence reports every concept description of that category with IEC 61360 content (C47_data_types_violated)."
  },
  {
   "property": "C48",
   "status": "partial",
   "theorems": [
    "Verif.Props.C48_values",
    "Verif.Props.C48_reported_partial"
   ],
   "note": "Exact in terms of the texts of C82. Missing: dates with too many digits in the year raise (C48_reported_partial, C28)."
  },
  {
   "property": "C49",
   "status": "proved",
   "theorems": [
    "Verif.Props.C49_paths",
    "Verif.Props.C49_elements",
    "Verif.Props.C49_distinct",
    "Verif.Props.C49_text",
    "Verif.Props.C49_format",
    "Verif.Props.C49_statements_violated"
   ],
   "note": "Paths and order for every submodel of every document read without error (any adapter); distinct as lists of names and as texts, given AASd-002, 022 and 117. C49_statements_violated: statements of entities have no path and are not listed, which the property (collections and lists) does not ask for."
  },
  {
   "property": "C50",
   "status": "partial",
   "theorems": [
    "Verif.Props.C50_json_partial",
    "Verif.Props.C50_violated"
   ],
   "note": "Exact condition for exceptions and exact verdict for every JSON document (C50_json_partial). Missing: the documents on which the check does raise (C50_violated), for example a submodel of a supported template without elements."
  },
  {
   "property": "C51",
   "status": "partial",
   "theorems": [
    "Verif.Props.C51_lookup",
    "Verif.Props.C51_names",
    "Verif.Props.C51_table",
    "Verif.Props.C51_json_partial",
    "Verif.Props.C51_other_types_violated",
    "Verif.Props.C51_texts_violated",
    "Verif.Props.C51_json_file",
    "Verif.Props.C51_xml_file_violated",
    "Verif.Props.C51_xml_partial",
    "Verif.Props.C51_violated"
   ],
   "note": "Lookup of model types exact, and shown to be the lookup in the symbol table of C60. Exact verdict for every class, JSON and XML. Missing: the check raises on every valid instance of a class other than environments and shells (C51_other_types_violated, C51_texts_violated), and XML files are always checked as environments (C51_xml_file_violated)."
  },
  {
   "property": "C52",
   "status": "partial",
   "theorems": [
    "Verif.Props.C52_submodel_partial",
    "Verif.Props.C52_strict_partial",
    "Verif.Props.C52_kind",
    "Verif.Props.C52_environment_partial",
    "Verif.Props.C52_list_violated",
    "Verif.Props.C52_empty_violated",
    "Verif.Props.C52_crash_violated"
   ],
   "note": "Every submodel and environment of the right type; exact conditions for verdict and exceptions. Missing: lists of elements pass for collections (C52_list_violated), empty collections are rejected (C52_empty_violated), and the check raises on submodels without elements, on other elements in place of collections and on dates in other formats than YYYY-MM-DD (C52_crash_violated). Without these exactly the property (C52_strict_partial)."
  },
  {
   "property": "C53",
   "status": "proved",
   "theorems": [
    "Verif.Props.C53_invalid",
    "Verif.Props.C53_covers",
    "Verif.Props.C53_python",
    "Verif.Props.C53_calls",
    "Verif.Props.C53_one_argument"
   ],
   "note": "For all reflected functions and enums: every generated value is outside of the domain as sent over the wire; exactly one value is generated wherever an invalid one exists; the calls made are the valid call changed in exactly one argument. C53_covers lists the types for which the generation raises instead (numbers not named limit, empty enums, lists). C53_python: Python itself could not decode the invalid base64url text either."
  },
  {
   "property": "C54",
   "status": "proved",
   "theorems": [
    "Verif.Props.C54_report",
    "Verif.Props.C54_counts",
    "Verif.Props.C54_summary",
    "Verif.Props.C54_unknown"
   ],
   "note": "C54_report: every run of execute_tests ends with an exception or with a complete report (Spec.Api.Complete: each selected operation once, setup, every generated negative call and every test once, in order of lines, summary); C54_counts: the counters are the numbers of passed and failed tests of the report; C54_summary: the last lines show them. ConfusionMatrix (library) is modelled as four counters."
  },
  {
   "property": "C55",
   "status": "proved",
   "theorems": [
    "Verif.Props.C55_reported",
    "Verif.Props.C55_filter",
    "Verif.Props.C55_dry"
   ],
   "note": "C55_dry: nothing is sent; C55_filter: the program with a filter equals the program for the selected operations; C55_reported: the entries in order."
  },
  {
   "property": "C56",
   "status": "partial",
   "theorems": [
    "Verif.Props.C56_unreachable",
    "Verif.Props.C56_verdict",
    "Verif.Props.C56_setup_partial",
    "Verif.Props.C56_setup_exception_violated"
   ],
   "note": "C56_unreachable, C56_setup_partial, C56_verdict for all servers. Only exceptions of the check itself count as failed setup: any other exception (e.g. IndexError on an empty list, a lost connection) leaves the whole run, C56_setup_exception_violated."
  },
  {
   "property": "C57",
   "status": "proved",
   "theorems": [
    "Verif.Props.C57_content",
    "Verif.Props.C57_decode",
    "Verif.Props.C57_shown",
    "Verif.Props.C57_step",
    "Verif.Props.C57_test",
    "Verif.Props.C57_error"
   ],
   "note": "C57_content, C57_decode, C57_step, C57_test: for all responses the step of shared.py (invoke_and_decode) accepts exactly acceptable responses; C57_error: exact for negative tests; C57_shown: the two lines about a request and its response. Decoding of JSON text and the transport are parameters."
  },
  {
   "property": "C58",
   "status": "partial",
   "theorems": [
    "Verif.Props.C58_file_partial",
    "Verif.Props.C58_printed",
    "Verif.Props.C58_exception",
    "Verif.Props.C58_server_partial",
    "Verif.Props.C58_unprintable_violated"
   ],
   "note": "Exact condition for exit code 0, for all files, servers and options (parsing of options by argparse is a parameter). Missing: results with lone surrogates cannot be printed as text or HTML, so the code then depends on the format (C58_unprintable_violated)."
  },
  {
   "property": "C59",
   "status": "proved",
   "theorems": [
    "Verif.Props.C59_unique",
    "Verif.Props.C59_otherwise",
    "Verif.Props.C59_full"
   ],
   "note": "For all texts, options and servers. An unknown version ends with UnboundLocalError behind the message, which still gives exit code 1."
  },
  {
   "property": "C60",
   "status": "partial",
   "theorems": [
    "Verif.Props.C60_terminates",
    "Verif.Props.C60_table_partial",
    "Verif.Props.C60_function_partial",
    "Verif.Props.C60_functions",
    "Verif.Props.C60_functions_violated",
    "Verif.Props.C60_model",
    "Verif.Props.C60_same_text_violated",
    "Verif.Props.C60_lookup"
   ],
   "note": "For every finite class graph (what Python knows about the classes is a parameter) in which no two reachable types have the same text; the symbol table of the meta-model without hypotheses (C60_model); functions, with one table for all their parameters (C60_function_partial). Missing: types sharing a text share an entry (C60_same_text_violated); types of parameters are not compared (C60_functions_violated)."
  },
  {
   "property": "C61",
   "status": "partial",
   "theorems": [
    "Verif.Props.C61_language_partial",
    "Verif.Props.C61_text",
    "Verif.Props.C61_classes"
   ],
   "note": "Exact but for the two deviations of C26. The class LangStringSet itself has no maximum; no attribute has that type."
  },
  {
   "property": "C62",
   "status": "proved",
   "theorems": [
    "Verif.Props.C62_reference"
   ],
   "note": "Exact."
  },
  {
   "property": "C63",
   "status": "partial",
   "theorems": [
    "Verif.Props.C63_events",
    "Verif.Props.C63_shells_partial",
    "Verif.Props.C63_shells_violated"
   ],
   "note": "Exact for events; for shells the check detects every such reference but raises AttributeError instead of a violation (C63_shells_violated)."
  },
  {
   "property": "C64",
   "status": "proved",
   "theorems": [
    "Verif.Props.C64_classes",
    "Verif.Props.C64_constraints",
    "Verif.Props.C64_places",
    "Verif.Props.C64_formats",
    "Verif.Props.C64_json",
    "Verif.Props.C64_xml"
   ],
   "note": "All classes but LangStringSet (which no attribute has as type). Exact for JSON; for XML on documents in the XML format and far from it (C64_xml); exact for all of them in C83."
  },
  {
   "property": "C65",
   "status": "proved",
   "theorems": [
    "Verif.Props.C65_content",
    "Verif.Props.C65_unique",
    "Verif.Props.C65_xml",
    "Verif.Props.C65_xml_unique",
    "Verif.Props.C65_xml_content"
   ],
   "note": "For every schema; XML: for documents in the XML format exactly, for all others up to the deviations listed with XDescribes."
  },
  {
   "property": "C66",
   "status": "partial",
   "theorems": [
    "Verif.Props.C66_format_partial",
    "Verif.Props.C66_format_violated"
   ],
   "note": "Acceptance is proved, and that nothing is accepted but documents in the format up to the deviations listed with XDescribes (repeated attributes, texts other than true as false, names of list elements, text between elements, namespace of the content of data specifications). C66_format_violated shows them, and the IndexError for elements without name."
  },
  {
   "property": "C67",
   "status": "proved",
   "theorems": [
    "Verif.Props.C67_read_only"
   ],
   "note": "For every server and every configuration."
  },
  {
   "property": "C68",
   "status": "partial",
   "theorems": [
    "Verif.Props.C68_crash_violated",
    "Verif.Props.C68_exceptions_partial",
    "Verif.Props.C68_tests_partial"
   ],
   "note": "C68_exceptions_partial: the only exceptions of the engine are of four classes; C68_tests_partial: they come from setups, except for one test. Missing: C68_crash_violated shows valid data on which runs crash (no shells, no idShort, no globalAssetId, no submodels, no elements)."
  },
  {
   "property": "C69",
   "status": "partial",
   "theorems": [
    "Verif.Props.C69_slash_violated",
    "Verif.Props.C69_table",
    "Verif.Props.C69_paths_partial"
   ],
   "note": "C69_table: the operations; C69_paths_partial: the paths of all requests of the tests. Missing: two operations are sent to a path with an additional slash (C69_slash_violated). The paths were written down from the service specifications; those of GenerateSerializationByIds under /aas and /submodel follow the code."
  },
  {
   "property": "C70",
   "status": "partial",
   "theorems": [
    "Verif.Props.C70_negative",
    "Verif.Props.C70_signatures",
    "Verif.Props.C70_binding",
    "Verif.Props.C70_arguments",
    "Verif.Props.C70_parameters_partial",
    "Verif.Props.C70_parameters_violated"
   ],
   "note": "C70_negative: exact for all operations and servers. C70_signatures: the arguments declared by the suites are those the operations take. C70_binding: which keyword arguments a call accepts, and what it binds them to. C70_arguments: every argument that is given is sent, under the name of the specification, and nothing else; no parameter of a method is left out. C70_parameters_partial: missing are the parameters that are texts (C70_parameters_violated)."
  },
  {
   "property": "C71",
   "status": "partial",
   "theorems": [
    "Verif.Props.C71_header",
    "Verif.Props.C71_rejected",
    "Verif.Props.C71_last_partial",
    "Verif.Props.C71_sent_violated"
   ],
   "note": "Parsing is exact. C71_sent_violated: no request of any run carries the headers."
  },
  {
   "property": "C72",
   "status": "partial",
   "theorems": [
    "Verif.Props.C72_file_partial",
    "Verif.Props.C72_server",
    "Verif.Props.C72_unknown",
    "Verif.Props.C72_generate_violated"
   ],
   "note": "generate_files can not succeed, file.generate does not exist (C72_generate_violated)."
  },
  {
   "property": "C73",
   "status": "partial",
   "theorems": [
    "Verif.Props.C73_positive",
    "Verif.Props.C73_results",
    "Verif.Props.C73_order",
    "Verif.Props.C73_status_partial",
    "Verif.Props.C73_status_violated",
    "Verif.Props.C73_parameters_violated",
    "Verif.Props.C73_paths_partial",
    "Verif.Props.C73_paths_violated"
   ],
   "note": "C73_positive: exact for all operations and servers, C73_results for whole runs, C73_order: order and titles of the tests. Missing: elements of lists are never requested (C73_paths_violated); six operations accept every status (C73_status_violated), the cursor is never sent and two blob tests send something else than their names say (C73_parameters_violated)."
  },
  {
   "property": "C74",
   "status": "proved",
   "theorems": [
    "Verif.Props.C74_error",
    "Verif.Props.C74_description",
    "Verif.Props.C74_reference",
    "Verif.Props.C74_page",
    "Verif.Props.C74_model",
    "Verif.Props.C74_rejection",
    "Verif.Props.C74_accepted",
    "Verif.Props.C74_document",
    "Verif.Props.C74_entries"
   ],
   "note": "Exact for all bodies; C74_document and C74_entries relate responses to the checks of documents."
  },
  {
   "property": "C75",
   "status": "proved",
   "theorems": [
    "Verif.Props.C75_setup",
    "Verif.Props.C75_tests",
    "Verif.Props.C75_decided"
   ],
   "note": "C75_setup: requests and end of every setup; C75_tests: the ids found are those in the paths of all tests; C75_decided: the tables leave no choice."
  },
  {
   "property": "C76",
   "status": "proved",
   "theorems": [
    "Verif.Props.C76_complete",
    "Verif.Props.C76_sound"
   ],
   "note": "C76_complete: servers that fulfil the demands pass, with the numbers of the tables; C76_sound: passing implies that the responses of the run were as demanded."
  },
  {
   "property": "C77",
   "status": "proved",
   "theorems": [
    "Verif.Props.C77_reads",
    "Verif.Props.C77_unique",
    "Verif.Props.C77_names",
    "Verif.Props.C77_rejects",
    "Verif.Props.C77_malformed"
   ],
   "note": "Library code (json of Python 3.11), modelled because file.py depends on how it fails; compared with Python on random texts. Exact for all texts. Which float a text with fraction or exponent is, is a parameter."
  },
  {
   "property": "C78",
   "status": "partial",
   "theorems": [
    "Verif.Props.C78_reads",
    "Verif.Props.C78_forms",
    "Verif.Props.C78_malformed",
    "Verif.Props.C78_bytes_violated",
    "Verif.Props.C78_numbers_violated",
    "Verif.Props.C78_raises",
    "Verif.Props.C78_unread",
    "Verif.Props.C78_file_partial"
   ],
   "note": "C78_reads: the bytes from which a value is read are exactly the encodings of its texts. C78_file_partial: exact for every document in every encoding, C78_malformed: other texts in UTF-8 are reported, C78_unread: what happens to all other bytes. Missing: bytes that are not UTF-8 raise UnicodeDecodeError (C78_bytes_violated), integers with too many digits ValueError (C78_numbers_violated); there are no others (C78_raises)."
  },
  {
   "property": "C79",
   "status": "proved",
   "theorems": [
    "Verif.Props.C79_round_trip",
    "Verif.Props.C79_strings",
    "Verif.Props.C79_pairs",
    "Verif.Props.C79_ascii",
    "Verif.Props.C79_output"
   ],
   "note": "Exact for texts (C79_strings, C79_pairs); values with other numbers than integers under the hypothesis that the text of a float is read as this float."
  },
  {
   "property": "C80",
   "status": "partial",
   "theorems": [
    "Verif.Props.C80_data",
    "Verif.Props.C80_verdict",
    "Verif.Props.C80_json_partial",
    "Verif.Props.C80_model_type",
    "Verif.Props.C80_xml_partial",
    "Verif.Props.C80_aasx_partial",
    "Verif.Props.C80_part",
    "Verif.Props.C80_xml_part",
    "Verif.Props.C80_violated"
   ],
   "note": "Exact for JSON files of any bytes and every class as model type, for XML files with any tree of elements (via C83), and for packages with plain links to the origin part. Documents on which a check raises have exit code 1 although valid (C80_violated); the XML model type is ignored (C51_xml_file_violated)."
  },
  {
   "property": "C81",
   "status": "proved",
   "theorems": [
    "Verif.Props.C81_json",
    "Verif.Props.C81_xml",
    "Verif.Props.C81_json_file",
    "Verif.Props.C81_xml_file",
    "Verif.Props.C81_key_error",
    "Verif.Props.C81_package"
   ],
   "note": "For all data, files and packages; what the XML reader itself raises is a parameter."
  },
  {
   "property": "C82",
   "status": "proved",
   "theorems": [
    "Verif.Props.C82_accepted",
    "Verif.Props.C82_fails",
    "Verif.Props.C82_strings",
    "Verif.Props.C82_digits",
    "Verif.Props.C82_spaces"
   ],
   "note": "Exact for all texts of all types. Digits and white space of other scripts are those of Spec/Unicode.lean (C82_digits, C82_spaces)."
  },
  {
   "property": "C83",
   "status": "proved",
   "theorems": [
    "Verif.Props.C83_accepted",
    "Verif.Props.C83_unique",
    "Verif.Props.C83_format",
    "Verif.Props.C83_order",
    "Verif.Props.C83_document",
    "Verif.Props.C83_data",
    "Verif.Props.C83_file"
   ],
   "note": "Exact for all trees of elements. str.upper of the first letter of names is exact where its outcome is an ASCII letter, which is all that matters for the comparison to class names."
  },
  {
   "property": "C84",
   "status": "proved",
   "theorems": [
    "Verif.Props.C84_limit",
    "Verif.Props.C84_enough",
    "Verif.Props.C84_json",
    "Verif.Props.C84_xml",
    "Verif.Props.C84_deep",
    "Verif.Props.C84_constraints",
    "Verif.Props.C84_constraints_exact"
   ],
   "note": "The limit is counted in nested calls of parse; Python counts frames, of which each call needs two to four. set_path nests less deeply; json and ElementTree have limits of their own, which are not modelled."
  },
  {
   "property": "C85",
   "status": "partial",
   "theorems": [
    "Verif.Props.C85_submodel_partial",
    "Verif.Props.C85_environment_partial",
    "Verif.Props.C85_enum_violated",
    "Verif.Props.C85_place_violated"
   ],
   "note": "Missing, because the code lacks it: values outside of an enumeration after another mistake, and the place of wrong numbers of elements (violated theorems). The texts of the lines are abstracted to their kind; the names of fields in them and the paths are exact."
  },
  {
   "property": "C86",
   "status": "proved",
   "theorems": [
    "Verif.Props.C86_json",
    "Verif.Props.C86_xml",
    "Verif.Props.C86_conforms",
    "Verif.Props.C86_accepted",
    "Verif.Props.C86_data",
    "Verif.Props.C86_xml_data"
   ],
   "note": "The texts of the lines are abstracted to their kind. XML: for documents on which the parser returns; it raises IndexError only for elements without a name (C66, C83). What is wrong with an element at first sight is told as the code does: the first of the reasons only."
  },
  {
   "property": "C87",
   "status": "proved",
   "theorems": [
    "Verif.Props.C87_object",
    "Verif.Props.C87_data",
    "Verif.Props.C87_formats",
    "Verif.Props.C87_files"
   ],
   "note": "The content of a document is that of C65 (JSON) and C83 (XML); documents that are not accepted have no content, their reports are those of C86."
  },
  {
   "property": "C88",
   "status": "partial",
   "theorems": [
    "Verif.Props.C88_lines",
    "Verif.Props.C88_parts_partial",
    "Verif.Props.C88_merge",
    "Verif.Props.C88_unique_ids_violated",
    "Verif.Props.C88_xml_lines",
    "Verif.Props.C88_xml_partial",
    "Verif.Props.C88_xml_unique_ids_violated",
    "Verif.Props.C88_xml_shadowed_violated"
   ],
   "note": "Missing, because the code lacks it: identifiers are not compared (violated theorems); in XML, parts in an attribute that is given again later are not looked at (violated theorem)."
  },
  {
   "property": "C89",
   "status": "partial",
   "theorems": [
    "Verif.Props.C89_json",
    "Verif.Props.C89_xml",
    "Verif.Props.C89_names",
    "Verif.Props.C89_data",
    "Verif.Props.C89_xml_data",
    "Verif.Props.C89_rules_partial",
    "Verif.Props.C89_xml_rules_partial",
    "Verif.Props.C89_rules_violated"
   ],
   "note": "Missing, because the code lacks it: lines about constraints use the Python names of attributes, which lead nowhere (C89_rules_violated); with the names replaced they lead to the object (C89_rules_partial, C89_xml_rules_partial). In XML documents, nothing is expected inside of elements that are no objects at first sight, as in C86."
  },
  {
   "property": "C90",
   "status": "proved",
   "theorems": [
    "Verif.Props.C90_json",
    "Verif.Props.C90_xml",
    "Verif.Props.C90_repairs",
    "Verif.Props.C90_data",
    "Verif.Props.C90_xml_repairs",
    "Verif.Props.C90_xml_data",
    "Verif.Props.C90_rules",
    "Verif.Props.C90_xml_rules"
   ],
   "note": "The lines of the second stage (constraints) are compared by place, rule and level (C90_rules, C90_xml_rules); the rules of objects around the part depend on it and may change. In XML, the replaced element keeps its name where the name says which attribute it is."
  },
  {
   "property": "C91",
   "status": "partial",
   "theorems": [
    "Verif.Props.C91_wording",
    "Verif.Props.C91_lines",
    "Verif.Props.C91_true_partial",
    "Verif.Props.C91_document_partial",
    "Verif.Props.C91_revision_violated",
    "Verif.Props.C91_key_number_violated",
    "Verif.Props.C91_broker_violated",
    "Verif.Props.C91_kind_violated",
    "Verif.Props.C91_data_type_violated",
    "Verif.Props.C91_element_type_violated"
   ],
   "note": "Wrong texts: AASd-005 (version and revision exchanged), AASd-125 (number one too small), the message broker (names observed), AASd-119 (names AASd-129), AASc-3a-004 to 006 (data types are called invalid, whatever they are), AASd-108 for abstract types. For each, it is proved exactly when the text is true. The texts were compared with those of model.py by tools/check_texts.py."
  },
  {
   "property": "C92",
   "status": "partial",
   "theorems": [
    "Verif.Props.C92_json_report",
    "Verif.Props.C92_xml_report",
    "Verif.Props.C92_json",
    "Verif.Props.C92_xml",
    "Verif.Props.C92_data",
    "Verif.Props.C92_xml_data",
    "Verif.Props.C92_broken",
    "Verif.Props.C92_rules",
    "Verif.Props.C92_xml_rules",
    "Verif.Props.C92_printed",
    "Verif.Props.C92_single_child_violated",
    "Verif.Props.C92_quoted",
    "Verif.Props.C92_one_line_violated",
    "Verif.Props.C92_one_line_partial",
    "Verif.Props.C92_xml_one_line_partial",
    "Verif.Props.C92_xml_one_line_violated"
   ],
   "note": "A text with line feeds in the name of a member puts any line into the printed report (C92_one_line_violated; in XML in a namespace, C92_xml_one_line_violated); without line feeds in names and values there are none (C92_one_line_partial, C92_xml_one_line_partial). The value of an operation variable without exactly one child is reported as DataSpecificationContent (C92_single_child_violated; the spec XSays says exactly when this text appears). str() of numbers, lists and dictionaries, str.isprintable and str.upper of a character are parameters. The texts were compared with those of the code by tools/check_texts.py."
  },
  {
   "property": "C93",
   "status": "partial",
   "theorems": [
    "Verif.Props.C93_json_report",
    "Verif.Props.C93_xml_report",
    "Verif.Props.C93_submodel_partial",
    "Verif.Props.C93_environment_partial",
    "Verif.Props.C93_place",
    "Verif.Props.C93_one_mistake",
    "Verif.Props.C93_numbers",
    "Verif.Props.C93_order",
    "Verif.Props.C93_place_violated",
    "Verif.Props.C93_enum_violated",
    "Verif.Props.C93_one_line_violated",
    "Verif.Props.C93_one_line_partial"
   ],
   "note": "Lines about wrong numbers of elements have no place, so the collection remains unknown (C93_place_violated); values outside of an enumeration are left out after another mistake (C93_enum_violated); values with line feeds are shown over several lines (C93_one_line_violated). The partial theorems describe the lines exactly, with their order (Listed, C93_order); the levels and the number of lines are those of Templates.lean (C93_json_report, C93_xml_report)."
  },
  {
   "property": "C94",
   "status": "partial",
   "theorems": [
    "Verif.Props.C94_requests",
    "Verif.Props.C94_client",
    "Verif.Props.C94_dry",
    "Verif.Props.C94_json",
    "Verif.Props.C94_xml_partial",
    "Verif.Props.C94_xml_violated",
    "Verif.Props.C94_package"
   ],
   "note": "The model type has no effect for XML files (C94_xml_violated); the partial theorem describes what happens instead: they are checked as environments."
  },
  {
   "property": "C95",
   "status": "partial",
   "theorems": [
    "Verif.Props.C95_blocks_partial",
    "Verif.Props.C95_raises",
    "Verif.Props.C95_open_violated",
    "Verif.Props.C95_executed"
   ],
   "note": "A last block that is not closed is left out (C95_open_violated). Running the blocks is not modelled, only which contents are run."
  },
  {
   "property": "C96",
   "status": "partial",
   "theorems": [
    "Verif.Props.C96_release_partial",
    "Verif.Props.C96_current",
    "Verif.Props.C96_digits_violated"
   ],
   "note": "Digits of other scripts are accepted (C96_digits_violated). The output of git and the lines of the files are parameters."
  },
  {
   "property": "C97",
   "status": "partial",
   "theorems": [
    "Verif.Props.C97_latest",
    "Verif.Props.C97_api_partial",
    "Verif.Props.C97_file_violated",
    "Verif.Props.C97_templates"
   ],
   "note": "The checks of files ignore the version (C97_file_violated)."
  },
  {
   "property": "C98",
   "status": "partial",
   "theorems": [
    "Verif.Props.C98_services",
    "Verif.Props.C98_report",
    "Verif.Props.C98_paths_partial",
    "Verif.Props.C98_paths_violated",
    "Verif.Props.C98_ids_partial",
    "Verif.Props.C98_ids_violated"
   ],
   "note": "The identifier of the shell has padding, so the paths of the services for a single shell or submodel are none of a repository (C98_ids_violated). GetDescription and the setup of GenerateSerializationByIds are requested below the shell (C98_paths_violated). The containers and the cells (round of a float) are parameters."
  },
  {
   "property": "C99",
   "status": "partial",
   "theorems": [
    "Verif.Props.C99_ends",
    "Verif.Props.C99_rows",
    "Verif.Props.C99_counts_partial",
    "Verif.Props.C99_names",
    "Verif.Props.C99_generate_violated",
    "Verif.Props.C99_other_files_violated"
   ],
   "note": "Missing, because the code lacks it: other names in the directory of results count as accepted samples (C99_other_files_violated), and samples can not be generated (C99_generate_violated). Containers and the generator are parameters."
  },
  {
   "property": "C100",
   "status": "proved",
   "theorems": [
    "Verif.Props.C100_lines"
   ],
   "note": "For all trees of relationships; printing is the list of lines."
  },
  {
   "property": "C101",
   "status": "partial",
   "theorems": [
    "Verif.Props.C101_complete",
    "Verif.Props.C101_sound_partial",
    "Verif.Props.C101_parse_partial",
    "Verif.Props.C101_passed_partial",
    "Verif.Props.C101_event_violated",
    "Verif.Props.C101_utc_violated",
    "Verif.Props.C101_tag_violated"
   ],
   "note": "The meta-model of the specification is written down anew in Spec/Metamodel.lean. Complete without exception (C101_complete). Partial the other way: an EventElement of no kind and a last update that is not in UTC pass (C101_event_violated, C101_utc_violated); a submodel element checked as its own class need not name it (C101_tag_violated). The type of the elements of a list is checked as a constraint, behind the format. Which strings have which type is the matter of C27."
  },
  {
   "property": "C102",
   "status": "partial",
   "theorems": [
    "Verif.Props.C102_complete",
    "Verif.Props.C102_document",
    "Verif.Props.C102_content_partial",
    "Verif.Props.C102_boolean_violated"
   ],
   "note": "The XML format of the specification is written down anew in Spec/MetamodelXml.lean. Every instance is accepted (C102_complete, C102_document). The boolean 1 is read as False (C102_boolean_violated). Partial the other way (C102_content_partial): the exceptions of C101, and elements that are not in the format but accepted (C66_format_violated)."
  },
  {
   "property": "C103",
   "status": "proved",
   "theorems": [
    "Verif.Props.C103_bounded",
    "Verif.Props.C103_total",
    "Verif.Props.C103_number",
    "Verif.Props.C103_reached"
   ],
   "note": "The numbers for each operation are in Spec/Requests.lean. Proved for all servers from a bound on the queries of a program (RequestLemmas.lean, RequestLemmas2.lean); C103_reached shows that the number is reached for the submodel service, so it is exact there."
  },
  {
   "property": "C104",
   "status": "proved",
   "theorems": [
    "Verif.Props.C104_lines",
    "Verif.Props.C104_files",
    "Verif.Props.C104_package"
   ],
   "note": "The mistakes and their lines are written down anew in Spec/Packages.lean. Parts at the top level are taken to be in the folder / as the code does (see C32). That every linked file is checked needs the hypotheses of C33 (last part of C104_files)."
  },
  {
   "property": "C105",
   "status": "proved",
   "theorems": [
    "Verif.Props.C105_reached",
    "Verif.Props.C105_order",
    "Verif.Props.C105_ignored",
    "Verif.Props.C105_last"
   ],
   "note": "Equality of the whole reports, and of exceptions. Reached parts as the code understands them (parts at the top level are in the folder /, see C32). The scans of two archives have different limits for the depth; that they do not matter is scanF_more."
  },
  {
   "property": "C106",
   "status": "proved",
   "theorems": [
    "Verif.Props.C106_shares",
    "Verif.Props.C106_raises",
    "Verif.Props.C106_filters"
   ],
   "note": "For servers without state; the example beside the theorems shows that a server with state is judged differently. C106_filters is for the services of the engine, the others for arbitrary lists of operations. That classes of tests share no variables between operations is part of the model (see C75)."
  },
  {
   "property": "C107",
   "status": "proved",
   "theorems": [
    "Verif.Props.C107_submodel",
    "Verif.Props.C107_environment",
    "Verif.Props.C107_report",
    "Verif.Props.C107_report_xml",
    "Verif.Props.C107_added",
    "Verif.Props.C107_exchanged",
    "Verif.Props.C107_verdict"
   ],
   "note": "C107_report is for JSON documents whose reports about the meta-model are the same; C107_submodel and C107_environment do not depend on the format. The order among elements with the same semantic id does show in the lines (paths are counted), so only the verdict is independent of it (C107_verdict)."
  },
  {
   "property": "C108",
   "status": "proved",
   "theorems": [
    "Verif.Props.C108_types",
    "Verif.Props.C108_strings",
    "Verif.Props.C108_sharp",
    "Verif.Props.C108_json",
    "Verif.Props.C108_xml",
    "Verif.Props.C108_json_file",
    "Verif.Props.C108_xml_file",
    "Verif.Props.C108_package",
    "Verif.Props.C108_command"
   ],
   "note": "Names of members and tags do not count as texts: they are never converted. The limit is the parameter lim of the model, sys.get_int_max_str_digits() in the code; C108_sharp gives xs:integer as the type judged differently. What json.loads does with long integers of the document itself is part of C77; C108_json_file, C108_xml_file and C108_package start from what the parsers make of the files."
  }
 ]
}