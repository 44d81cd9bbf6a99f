NOTES['C01'] = 'Trees built from finished results; C01_heap lifts it to mutable objects, C01_undisciplined_violated shows that results must not be changed after they were appended.'
NOTES['C02'] = 'append and sequences of appends.'
NOTES['C03'] = 'to_dict/from_json on a JSON datatype; exact characterisation for arbitrary trees in C03_iff_consistent.'
NOTES['C04'] = 'to_lines of every tree.'
NOTES['C05'] = '_to_html of every tree; of the surrounding template file only the style of .sub-results and .visible is used (Seen).'
NOTES['C06'] = 'All programs of start/write/abort/raise/query operations over the global stack; exec refines a stack-free meaning.'
NOTES['C07'] = 'abort inside any nesting of blocks.'
NOTES['C08'] = 'foreign exceptions: propagated or recorded by the first catch-all block; C08_unwound_entries_lost: what was written in unwound blocks is lost.'
NOTES['C09'] = 'write without an open context raises and changes nothing.'
NOTES['C10'] = 'Equality with a declarative glob relation for all patterns except sets that begin with a reversed range followed by "!"; for those the code (python fnmatch) differs, see C10_reversed_range_violated.'
NOTES['C11'] = 'Rejection, blank filters, monotonicity.'

NOTES['C18'] = 'Exact for all texts up to one final line feed (accepted by the code because `$` matches before it; C18_line_feed_violated) and up to the integer conversion limit of the interpreter (a longer year raises, see C28).'
NOTES['C19'] = 'isLeapYear for all years, also negative ones and 0.'
NOTES['C20'] = 'Exact up to one final line feed (C20_line_feed_violated) and the integer conversion limit.'
NOTES['C21'] = 'gYear, gYearMonth, gMonth, gDay, time exact; gMonthDay exact up to one final line feed (C21_line_feed_violated).'
NOTES['C22'] = 'Exact for all strings; proved through a verified regular expression matcher applied to the parsed source pattern.'

NOTES['C17'] = 'Range check exact for every XSD integer text and for every visible ASCII text; exact characterisation of all accepted texts (Python int syntax) in C17_accepted_partial. Missing: rejection of text with underscores, white space or digits of other scripts, which the code accepts (C17_underscore_violated).'
NOTES['C23'] = 'Exact for all strings, including the non-strict behaviour of b64decode.'
NOTES['C24'] = 'Correct rounding of decimal literals to binary64 is modelled and proved; the accepted range is exact. The largest finite float itself is rejected by the code (C24_largest_float_rejected).'
NOTES['C28'] = 'Total for all types but dates. xs:date and xs:dateTime raise ValueError for years longer than the integer conversion limit of the interpreter (C28_long_year_violated).'

NOTES['C25'] = 'Exact characterisation of all accepted texts as IRI references by components; differs from RFC 3987 in two points: a final line feed is accepted (C25_line_feed_violated) and IPv6 addresses with other numbers of groups before :: are rejected (C25_ipv6_violated).'
NOTES['C26'] = 'Exact characterisation of all accepted texts by subtags; differs from BCP 47 in two points: a final line feed is accepted (C26_line_feed_violated) and grandfathered tags in another case are rejected (C26_grandfathered_case_violated). English: exact, with the treatment of line feeds in C26_english_violated.'

NOTES['C12'] = 'UTF-8 and base64url modelled completely; the decoder is an independent bit-string specification.'
NOTES['C13'] = 'urlencode modelled; the receiver is an independent percent/UTF-8 decoder. Values are represented by their str.'
NOTES['C14'] = 'URL passed to the transport, for all clients and requests.'
NOTES['C15'] = 'Exactly the headers of the request are sent. Missing: additional headers, which the code never sends (C15_additional_headers_violated, for every client).'
NOTES['C16'] = 'One step from the root and preservation of all settings. Missing: several steps; the code forgets all but the last (C16_last_step, C16_violated).'

NOTES['C29'] = 'Exact: the normal form is the place where a walk through the segments ends. Idempotent unless the normal form has surrounding white space (C29_white_space_violated).'
NOTES['C30'] = 'Fuel adequacy, exact condition for a normal end (all relationship parts reached are XML), each part followed at most once. The recursion limit of the interpreter is not modelled.'
NOTES['C31'] = 'Verdict exact, with parts of the top level placed in the folder / as the code does; for packages without relationships of such parts also in terms of the standard (C31_standard).'
NOTES['C32'] = 'Missing: relationships of parts at the top level of the archive, which the code looks for under a wrong name (C32_top_level_violated). Exact in terms of the code (C32_found) and for packages without such relationships (C32_flat).'
NOTES['C34'] = 'For arbitrary tables of deprecated types and arbitrary subsets of rewritten relationships: same verdict, same failures, same tree of relationships.'
NOTES['C33'] = 'The meta-model checks are parameters. Exact verdict if the origin part is linked in the plain way only and no check raises KeyError; no false alarms and exact origin of exceptions for all packages. Missing: packages in which the origin part is found through another relationship first (C33_second_link_violated) and KeyError raised by a check (C33_key_error_violated).'
NOTES['C34'] = 'For arbitrary subsets of rewritten relationships and arbitrary files: same verdict, same failures, same tree of relationships, same exceptions.'
NOTES['C35'] = 'For every schema, type and JSON value (without duplicate member names, as json.load yields).'
NOTES['C36'] = 'For every schema, JSON and XML.'
NOTES['C37'] = 'JSON and XML; the paths of the structured messages, the wording is not modelled.'
NOTES['C38'] = 'Any number of reorderings at any depth; also the messages are the same up to their order.'
NOTES['C40'] = 'JSON and XML, every object, for every schema with distinct attribute names.'
NOTES['C41'] = 'For every schema and every set of checks; exact list of reported violations, in their order (C41_once), and no place is visited twice (C41_places; C64_places for the meta-model), exact condition for exceptions.'
NOTES['C27'] = 'All string classes, for all strings; formats through the verified regular expression matcher. Missing: a final line feed, which the code accepts for points in time and paths (C27_line_feed_violated), and what C25 and C28 miss.'
NOTES['C39'] = 'The naming rule for all snake_case names, the names of all attributes of all classes of the meta-model.'
NOTES['C24'] = 'Correct rounding of decimal literals to binary64 is modelled and proved; the accepted range is exact. Decimals: exact for texts of digits, signs and points, sound for visible ASCII. The largest finite float itself is rejected by the code (C24_largest_float_rejected).'

NOTES['C42'] = 'Every rule exact for every reference. AASd-128: the index is what int() reads (C42_index: the integers, for visible ASCII without underscore; C42_index_violated: "1_0" is accepted).'
NOTES['C43'] = 'Exact for submodels, collections, lists and operations. Missing: uniqueness in entities and annotated relationships, which the code does not check (C43_entity_violated, C43_annotations_violated), and operation variables without idShort, for which it raises AttributeError (C43_operation_variable_violated).'
NOTES['C44'] = 'AASd-107 and 114 exact. AASd-108 exact unless the declared type is abstract (C44_types_violated: specialisations are rejected); AASd-109 exact for the elements, not for the declaration in an empty list (C44_declared_violated).'
NOTES['C45'] = 'Exact but for the reserved name in another case (C45_case_violated).'
NOTES['C46'] = 'Exact; AASd-129 for the elements at the top level only (C46_nested_violated).'
NOTES['C47'] = 'AASc-3a-002, 007..010 exact. AASc-3a-004..006: the code compares an enum member with texts, hence reports every concept description of that category with IEC 61360 content (C47_data_types_violated).'
NOTES['C48'] = 'Exact in terms of the texts of C82. Missing: dates with too many digits in the year raise (C48_reported_partial, C28).'
NOTES['C61'] = 'Exact but for the two deviations of C26. The class LangStringSet itself has no maximum; no attribute has that type.'
NOTES['C62'] = 'Exact.'
NOTES['C63'] = 'Exact for events; for shells the check detects every such reference but raises AttributeError instead of a violation (C63_shells_violated).'
NOTES['C64'] = 'All classes but LangStringSet (which no attribute has as type). Exact for JSON; for XML on documents in the XML format and far from it (C64_xml); exact for all of them in C83.'
NOTES['C65'] = 'For every schema; XML: for documents in the XML format exactly, for all others up to the deviations listed with XDescribes.'
NOTES['C66'] = 'Acceptance is proved, and that nothing is accepted but documents in the format up to the deviations listed with XDescribes (repeated attributes, texts other than true as false, names of list elements, text between elements, namespace of the content of data specifications). C66_format_violated shows them, and the IndexError for elements without name.'
NOTES['C49'] = 'Paths and order for every submodel of every document read without error (any adapter); distinct as lists of names and as texts, given AASd-002, 022 and 117. C49_statements_violated: statements of entities have no path and are not listed, which the property (collections and lists) does not ask for.'
NOTES['C52'] = 'Every submodel and environment of the right type; exact conditions for verdict and exceptions. Missing: lists of elements pass for collections (C52_list_violated), empty collections are rejected (C52_empty_violated), and the check raises on submodels without elements, on other elements in place of collections and on dates in other formats than YYYY-MM-DD (C52_crash_violated). Without these exactly the property (C52_strict_partial).'
NOTES['C60'] = 'For every finite class graph (what Python knows about the classes is a parameter) in which no two reachable types have the same text; the symbol table of the meta-model without hypotheses (C60_model); functions, with one table for all their parameters (C60_function_partial). Missing: types sharing a text share an entry (C60_same_text_violated); types of parameters are not compared (C60_functions_violated).'
NOTES['C50'] = 'Exact condition for exceptions and exact verdict for every JSON document (C50_json_partial). Missing: the documents on which the check does raise (C50_violated), for example a submodel of a supported template without elements.'
NOTES['C51'] = 'Lookup of model types exact, and shown to be the lookup in the symbol table of C60. Exact verdict for every class, JSON and XML. Missing: the check raises on every valid instance of a class other than environments and shells (C51_other_types_violated, C51_texts_violated), and XML files are always checked as environments (C51_xml_file_violated).'
NOTES['C53'] = 'For all reflected functions and enums: every generated value is outside of the domain as sent over the wire; exactly one value is generated wherever an invalid one exists; the calls made are the valid call changed in exactly one argument. C53_covers lists the types for which the generation raises instead (numbers not named limit, empty enums, lists). C53_python: Python itself could not decode the invalid base64url text either.'
NOTES['C54'] = 'C54_report: every run of execute_tests ends with an exception or with a complete report (Spec.Api.Complete: each selected operation once, setup, every generated negative call and every test once, in order of lines, summary); C54_counts: the counters are the numbers of passed and failed tests of the report; C54_summary: the last lines show them. ConfusionMatrix (library) is modelled as four counters.'
NOTES['C55'] = 'C55_dry: nothing is sent; C55_filter: the program with a filter equals the program for the selected operations; C55_reported: the entries in order.'
NOTES['C56'] = 'C56_unreachable, C56_setup_partial, C56_verdict for all servers. Only exceptions of the check itself count as failed setup: any other exception (e.g. IndexError on an empty list, a lost connection) leaves the whole run, C56_setup_exception_violated.'
NOTES['C57'] = 'C57_content, C57_decode, C57_step, C57_test: for all responses the step of shared.py (invoke_and_decode) accepts exactly acceptable responses; C57_error: exact for negative tests; C57_shown: the two lines about a request and its response. Decoding of JSON text and the transport are parameters.'
NOTES['C67'] = 'For every server and every configuration.'
NOTES['C68'] = 'C68_exceptions_partial: the only exceptions of the engine are of four classes; C68_tests_partial: they come from setups, except for one test. Missing: C68_crash_violated shows valid data on which runs crash (no shells, no idShort, no globalAssetId, no submodels, no elements).'
NOTES['C69'] = 'C69_table: the operations; C69_paths_partial: the paths of all requests of the tests. Missing: two operations are sent to a path with an additional slash (C69_slash_violated). The paths were written down from the service specifications; those of GenerateSerializationByIds under /aas and /submodel follow the code.'
NOTES['C70'] = 'C70_negative: exact for all operations and servers. C70_signatures: the arguments declared by the suites are those the operations take. C70_binding: which keyword arguments a call accepts, and what it binds them to. C70_arguments: every argument that is given is sent, under the name of the specification, and nothing else; no parameter of a method is left out. C70_parameters_partial: missing are the parameters that are texts (C70_parameters_violated).'
NOTES['C58'] = 'Exact condition for exit code 0, for all files, servers and options (parsing of options by argparse is a parameter). Missing: results with lone surrogates cannot be printed as text or HTML, so the code then depends on the format (C58_unprintable_violated).'
NOTES['C59'] = 'For all texts, options and servers. An unknown version ends with UnboundLocalError behind the message, which still gives exit code 1.'
NOTES['C71'] = 'Parsing is exact. C71_sent_violated: no request of any run carries the headers.'
NOTES['C72'] = 'generate_files can not succeed, file.generate does not exist (C72_generate_violated).'
NOTES['C73'] = 'C73_positive: exact for all operations and servers, C73_results for whole runs, C73_order: order and titles of the tests. Missing: elements of lists are never requested (C73_paths_violated); six operations accept every status (C73_status_violated), the cursor is never sent and two blob tests send something else than their names say (C73_parameters_violated).'
NOTES['C74'] = 'Exact for all bodies; C74_document and C74_entries relate responses to the checks of documents.'
NOTES['C76'] = 'C76_complete: servers that fulfil the demands pass, with the numbers of the tables; C76_sound: passing implies that the responses of the run were as demanded.'
NOTES['C75'] = 'C75_setup: requests and end of every setup; C75_tests: the ids found are those in the paths of all tests; C75_decided: the tables leave no choice.'
NOTES['C77'] = 'Library code (json of Python 3.11), modelled because file.py depends on how it fails; compared with Python on random texts. Exact for all texts. Which float a text with fraction or exponent is, is a parameter.'
NOTES['C78'] = 'C78_reads: the bytes from which a value is read are exactly the encodings of its texts. C78_file_partial: exact for every document in every encoding, C78_malformed: other texts in UTF-8 are reported, C78_unread: what happens to all other bytes. Missing: bytes that are not UTF-8 raise UnicodeDecodeError (C78_bytes_violated), integers with too many digits ValueError (C78_numbers_violated); there are no others (C78_raises).'
NOTES['C79'] = 'Exact for texts (C79_strings, C79_pairs); values with other numbers than integers under the hypothesis that the text of a float is read as this float.'
NOTES['C80'] = 'Exact for JSON files of any bytes and every class as model type, for XML files with any tree of elements (via C83), and for packages with plain links to the origin part. Documents on which a check raises have exit code 1 although valid (C80_violated); the XML model type is ignored (C51_xml_file_violated).'
NOTES['C81'] = 'For all data, files and packages; what the XML reader itself raises is a parameter.'
NOTES['C82'] = 'Exact for all texts of all types. Digits and white space of other scripts are those of Spec/Unicode.lean (C82_digits, C82_spaces).'
NOTES['C83'] = 'Exact for all trees of elements. str.upper of the first letter of names is exact where its outcome is an ASCII letter, which is all that matters for the comparison to class names.'
NOTES['C85'] = 'Missing, because the code lacks it: values outside of an enumeration after another mistake, and the place of wrong numbers of elements (violated theorems). The texts of the lines are abstracted to their kind; the names of fields in them and the paths are exact.'
NOTES['C86'] = 'The texts of the lines are abstracted to their kind. XML: for documents on which the parser returns; it raises IndexError only for elements without a name (C66, C83). What is wrong with an element at first sight is told as the code does: the first of the reasons only.'
NOTES['C84'] = 'The limit is counted in nested calls of parse; Python counts frames, of which each call needs two to four. set_path nests less deeply; json and ElementTree have limits of their own, which are not modelled.'
NOTES['C87'] = 'The content of a document is that of C65 (JSON) and C83 (XML); documents that are not accepted have no content, their reports are those of C86.'
NOTES['C88'] = 'Missing, because the code lacks it: identifiers are not compared (violated theorems); in XML, parts in an attribute that is given again later are not looked at (violated theorem).'
NOTES['C89'] = 'Missing, because the code lacks it: lines about constraints use the Python names of attributes, which lead nowhere (C89_rules_violated); with the names replaced they lead to the object (C89_rules_partial, C89_xml_rules_partial). In XML documents, nothing is expected inside of elements that are no objects at first sight, as in C86.'
NOTES['C90'] = 'The lines of the second stage (constraints) are compared by place, rule and level (C90_rules, C90_xml_rules); the rules of objects around the part depend on it and may change. In XML, the replaced element keeps its name where the name says which attribute it is.'
NOTES['C91'] = 'Wrong texts: AASd-005 (version and revision exchanged), AASd-125 (number one too small), the message broker (names observed), AASd-119 (names AASd-129), AASc-3a-004 to 006 (data types are called invalid, whatever they are), AASd-108 for abstract types. For each, it is proved exactly when the text is true. The texts were compared with those of model.py by tools/check_texts.py.'
NOTES['C92'] = 'A text with line feeds in the name of a member puts any line into the printed report (C92_one_line_violated; in XML in a namespace, C92_xml_one_line_violated); without line feeds in names and values there are none (C92_one_line_partial, C92_xml_one_line_partial). The value of an operation variable without exactly one child is reported as DataSpecificationContent (C92_single_child_violated; the spec XSays says exactly when this text appears). str() of numbers, lists and dictionaries, str.isprintable and str.upper of a character are parameters. The texts were compared with those of the code by tools/check_texts.py.'
NOTES['C94'] = 'The model type has no effect for XML files (C94_xml_violated); the partial theorem describes what happens instead: they are checked as environments.'
NOTES['C95'] = 'A last block that is not closed is left out (C95_open_violated). Running the blocks is not modelled, only which contents are run.'
NOTES['C96'] = 'Digits of other scripts are accepted (C96_digits_violated). The output of git and the lines of the files are parameters.'
NOTES['C97'] = 'The checks of files ignore the version (C97_file_violated).'
NOTES['C98'] = 'The identifier of the shell has padding, so the paths of the services for a single shell or submodel are none of a repository (C98_ids_violated). GetDescription and the setup of GenerateSerializationByIds are requested below the shell (C98_paths_violated). The containers and the cells (round of a float) are parameters.'
NOTES['C93'] = 'Lines about wrong numbers of elements have no place, so the collection remains unknown (C93_place_violated); values outside of an enumeration are left out after another mistake (C93_enum_violated); values with line feeds are shown over several lines (C93_one_line_violated). The partial theorems describe the lines exactly, with their order (Listed, C93_order); the levels and the number of lines are those of Templates.lean (C93_json_report, C93_xml_report).'
NOTES['C99'] = 'Missing, because the code lacks it: other names in the directory of results count as accepted samples (C99_other_files_violated), and samples can not be generated (C99_generate_violated). Containers and the generator are parameters.'
NOTES['C100'] = 'For all trees of relationships; printing is the list of lines.'
NOTES['C101'] = 'The meta-model of the specification is written down anew in Spec/Metamodel.lean. Complete without exception (C101_complete). Partial the other way: an EventElement of no kind and a last update that is not in UTC pass (C101_event_violated, C101_utc_violated); a submodel element checked as its own class need not name it (C101_tag_violated). The type of the elements of a list is checked as a constraint, behind the format. Which strings have which type is the matter of C27.'
NOTES['C102'] = 'The XML format of the specification is written down anew in Spec/MetamodelXml.lean. Every instance is accepted (C102_complete, C102_document). The boolean 1 is read as False (C102_boolean_violated). Partial the other way (C102_content_partial): the exceptions of C101, and elements that are not in the format but accepted (C66_format_violated).'
NOTES['C103'] = 'The numbers for each operation are in Spec/Requests.lean. Proved for all servers from a bound on the queries of a program (RequestLemmas.lean, RequestLemmas2.lean); C103_reached shows that the number is reached for the submodel service, so it is exact there.'
NOTES['C104'] = 'The mistakes and their lines are written down anew in Spec/Packages.lean. Parts at the top level are taken to be in the folder / as the code does (see C32). That every linked file is checked needs the hypotheses of C33 (last part of C104_files).'
NOTES['C105'] = 'Equality of the whole reports, and of exceptions. Reached parts as the code understands them (parts at the top level are in the folder /, see C32). The scans of two archives have different limits for the depth; that they do not matter is scanF_more.'
NOTES['C106'] = 'For servers without state; the example beside the theorems shows that a server with state is judged differently. C106_filters is for the services of the engine, the others for arbitrary lists of operations. That classes of tests share no variables between operations is part of the model (see C75).'
NOTES['C107'] = 'C107_report is for JSON documents whose reports about the meta-model are the same; C107_submodel and C107_environment do not depend on the format. The order among elements with the same semantic id does show in the lines (paths are counted), so only the verdict is independent of it (C107_verdict).'
NOTES['C108'] = 'Names of members and tags do not count as texts: they are never converted. The limit is the parameter lim of the model, sys.get_int_max_str_digits() in the code; C108_sharp gives xs:integer as the type judged differently. What json.loads does with long integers of the document itself is part of C77; C108_json_file, C108_xml_file and C108_package start from what the parsers make of the files.'
