{"id": "C01", "title": "A result is ok exactly when nothing under it failed", "statement": "For every result tree that is built by creating results and appending finished results, the level of the root is the worst level given to any node of the tree, and ok() is true exactly when no node anywhere in the tree was created with level ERROR or CRITICAL.", "quantifier": "all result trees of any depth and width, any messages, any levels, any order of appends", "why_tests_cant": "Trees are unbounded; a test only sees a few shapes.", "anchors": ["aas_test_engines/result.py:Level.__or__", "aas_test_engines/result.py:AasTestResult.append", "aas_test_engines/result.py:AasTestResult.ok"]}
{"id": "C02", "title": "Appending never hides a problem and never loses a sub-result", "statement": "append keeps all earlier sub-results in order and adds the new one last; it never lowers the level; once a result is not ok it stays not ok whatever is appended; the resulting level does not depend on the order of the appends.", "quantifier": "all results and all finite sequences of appends, including all permutations", "why_tests_cant": "Quantifies over all histories of appends.", "anchors": ["aas_test_engines/result.py:AasTestResult.append", "aas_test_engines/result.py:Level.__or__"]}
{"id": "C03", "title": "Serialised results can be read back without change", "statement": "For every result tree built through the public API, AasTestResult.from_json(r.to_dict()) has the same messages, levels and nesting as r, and ok() gives the same answer.", "quantifier": "all result trees built by construction and appending", "why_tests_cant": "Round trip over an infinite recursive domain.", "anchors": ["aas_test_engines/result.py:AasTestResult.to_dict", "aas_test_engines/result.py:AasTestResult.from_json"]}
{"id": "C04", "title": "The text report shows every result once, in order, indented by depth", "statement": "to_lines yields exactly one line per node of the tree, parents before children and siblings in order; the line of a node at depth d starts with 3*d blanks followed by the colour of the node's level, its message and the reset sequence.", "quantifier": "all result trees", "why_tests_cant": "Holds for trees of unbounded size and depth.", "anchors": ["aas_test_engines/result.py:AasTestResult.to_lines", "aas_test_engines/result.py:Level.color"]}
{"id": "C05", "title": "The HTML report is well nested and cannot be broken by message text", "statement": "For every result tree and every message text, the HTML generated for the tree has properly nested and closed div elements, and no character of a message can open a tag, close a tag or end an attribute: the messages can be recovered by unescaping. When the page is opened, the sub-results of a result are unfolded iff it failed, and its caret points down iff they are; so every failed result of a tree built through the API is visible. Nothing is lost: different trees have different pages.", "quantifier": "all result trees, all message strings (including ones containing <, >, &, quotes and closing tags)", "why_tests_cant": "Injection safety is a statement about all strings.", "anchors": ["aas_test_engines/result.py:AasTestResult._to_html", "aas_test_engines/result.py:AasTestResult.to_html"]}
{"id": "C06", "title": "Result contexts are always closed, in the right order", "statement": "Whatever a block opened with start(...) does - write, nest further blocks, abort, raise any exception - after the with statement the set of open contexts is exactly the one before it, and the block that is closed is the one opened last.", "quantifier": "all programs made of start/write/abort/raise, arbitrarily nested, any initial stack of open contexts", "why_tests_cant": "Quantifies over all programs and all exception points.", "anchors": ["aas_test_engines/result.py:ContextManager.__enter__", "aas_test_engines/result.py:ContextManager.__exit__", "aas_test_engines/result.py:managers"]}
{"id": "C07", "title": "abort ends only the innermost block", "statement": "An abort inside a block records the abort message as the last entry of that block, attaches the block to its parent, and execution continues with the statement after the with statement; everything written before the abort in the block and everything written after the with statement in the parent is kept, in program order. A default abort makes the block and all enclosing blocks not ok.", "quantifier": "all programs, all nesting depths, all abort positions", "why_tests_cant": "Quantifies over all programs and all positions of the failure.", "anchors": ["aas_test_engines/result.py:abort", "aas_test_engines/result.py:ResultException", "aas_test_engines/result.py:ContextManager.__exit__"]}
{"id": "C08", "title": "Foreign exceptions are never swallowed silently", "statement": "An exception which is not an abort leaves every enclosing block unless one was started with catch_all_exceptions; such a block records it as CRITICAL, so that the block and all its ancestors are not ok. In particular, if a program finishes normally, then no exception was dropped without a CRITICAL entry.", "quantifier": "all programs and all exceptions", "why_tests_cant": "Quantifies over all exception points and nestings.", "anchors": ["aas_test_engines/result.py:ContextManager.__exit__", "aas_test_engines/result.py:start"]}
{"id": "C09", "title": "write outside of a context raises and changes nothing", "statement": "write with no open context raises RuntimeError and has no effect; write with an open context appends exactly one entry to the innermost open block and to no other.", "quantifier": "all context stacks and all messages", "why_tests_cant": "Quantifies over all reachable states.", "anchors": ["aas_test_engines/result.py:write"]}
{"id": "C10", "title": "Test filters follow the include/exclude glob rules", "statement": "An operation is selected by a filter INC~EXC exactly when (INC has no non-blank pattern or some pattern of INC matches the whole name) and no non-blank pattern of EXC matches the whole name, where * matches any string, ? any single character, [..] and [!..] character sets, and everything else itself.", "quantifier": "all filter strings and all operation names", "why_tests_cant": "Glob matching ranges over infinitely many patterns and names.", "anchors": ["aas_test_engines/config.py:TestCaseFilter.__init__", "aas_test_engines/config.py:TestCaseFilter.selects"]}
{"id": "C11", "title": "Malformed filters are rejected, everything else is accepted", "statement": "Constructing a filter raises InvalidFilterException exactly when the string contains more than one '~'; the empty filter selects every operation; adding an exclude pattern never adds operations and adding an include pattern to a non-empty include list never removes any.", "quantifier": "all filter strings, all names", "why_tests_cant": "Universal statement over strings; monotonicity relates pairs of runs.", "anchors": ["aas_test_engines/config.py:TestCaseFilter"]}
{"id": "C12", "title": "Identifiers survive URL-safe base64", "statement": "For every identifier, base64_urlsafe gives a string over A-Z a-z 0-9 - _ without padding which decodes back to the UTF-8 bytes of exactly that identifier; hence distinct identifiers have distinct encodings. It fails only for strings that have no UTF-8 form (lone surrogates).", "quantifier": "all strings", "why_tests_cant": "Round trip and injectivity over all strings.", "anchors": ["aas_test_engines/data_types.py:base64_urlsafe", "aas_test_engines/reflect.py:StringFormattedValue.__str__", "aas_test_engines/test_cases/v3_0/interfaces/shared.py:Base64String"]}
{"id": "C13", "title": "Query parameters arrive at the server as they were given", "statement": "make_url leaves the path untouched, omits parameters whose value is None, and encodes the others such that splitting at & and = and percent-decoding gives back exactly the names and values in order; no value can add a parameter or start a fragment. The query is in the normal form of RFC 3986: escapes have capital letters, and neither an unreserved character nor a space is escaped.", "quantifier": "all paths, all parameter dictionaries, all names and values", "why_tests_cant": "Round trip and non-injection over all strings.", "anchors": ["aas_test_engines/http.py:Request.make_url"]}
{"id": "C14", "title": "Path prefixes are only removed at segment boundaries", "statement": "HttpClient.send requests host (without one trailing slash) + prefixes + path; if the result starts with remove_path_prefix and the prefix ends the URL or is followed by '/', exactly the prefix is removed, otherwise nothing is removed; with an empty prefix the URL is unchanged.", "quantifier": "all hosts, prefixes, paths, parameters and remove_path_prefix values", "why_tests_cant": "Quantifies over all strings; boundary mistakes only show on particular ones.", "anchors": ["aas_test_engines/http.py:HttpClient.send", "aas_test_engines/http.py:HttpClient.descend"]}
{"id": "C15", "title": "Additional headers are sent with every request", "statement": "Every request sent by a client contains all additional headers the client was created with (--header option), also after descend().", "quantifier": "all clients, all requests, all headers", "why_tests_cant": "Quantifies over all clients and requests.", "anchors": ["aas_test_engines/http.py:HttpClient.__init__", "aas_test_engines/http.py:HttpClient.send", "aas_test_engines/__main__.py:run_api_test"]}
{"id": "C16", "title": "Descending accumulates prefixes", "statement": "client.descend(a).descend(b) sends requests below a+b of the original client, i.e. a descended client keeps the position of the client it was derived from.", "quantifier": "all clients, all chains of prefixes", "why_tests_cant": "Quantifies over chains of any length.", "anchors": ["aas_test_engines/http.py:HttpClient.descend"]}
{"id": "C17", "title": "Bounded integer types accept exactly their value range", "statement": "For xs:byte, short, int, long, their unsigned versions, and (non)positive/(non)negative/unbounded integers: the decimal representation of an integer n (with optional sign and leading zeros) is accepted if and only if n is in the XSD value range of the type; text that does not denote an integer is rejected.", "quantifier": "all integers of any size, all 13 integer types, all strings", "why_tests_cant": "Infinitely many integers; off-by-one errors only show at eight particular bounds.", "anchors": ["aas_test_engines/data_types.py:_is_bounded_integer", "aas_test_engines/data_types.py:validators"]}
{"id": "C18", "title": "xs:date accepts exactly the dates that exist", "statement": "A string is accepted as xs:date iff it is [-]YYYY-MM-DD with an optional timezone where the year has at least four digits, no superfluous leading zero and is not 0000, and MM-DD exists in that year of the proleptic Gregorian calendar, and the timezone is Z or within +-14:00.", "quantifier": "all strings, all years of any size (also BCE)", "why_tests_cant": "Unbounded years and all strings.", "anchors": ["aas_test_engines/data_types.py:is_xs_date", "aas_test_engines/data_types.py:_construct_matches_xs_date"]}
{"id": "C19", "title": "Leap years follow the Gregorian rule, also before year 1", "statement": "A year is treated as leap iff its astronomical number (y for y>0, y+1 for y<0) is divisible by 4 and not by 100, or divisible by 400.", "quantifier": "all integers except 0", "why_tests_cant": "Infinitely many years.", "anchors": ["aas_test_engines/data_types.py:_is_leap_year"]}
{"id": "C20", "title": "xs:dateTime and the UTC variant accept exactly valid instants", "statement": "A string is accepted as xs:dateTime iff it is a valid date (C18, without timezone), 'T', a time of day (hh<24, mm<60, ss<60 with optional fraction, or 24:00:00 with zero fraction), and an optional timezone; the UTC variant requires Z, +00:00 or -00:00.", "quantifier": "all strings", "why_tests_cant": "All strings.", "anchors": ["aas_test_engines/data_types.py:is_xs_date_time", "aas_test_engines/data_types.py:is_xs_date_time_utc"]}
{"id": "C21", "title": "Partial dates and times accept exactly their lexical space", "statement": "gYear, gYearMonth, gMonth, gDay, gMonthDay and time accept exactly the strings with fields in the calendar ranges (gMonthDay: the day exists in that month of a leap year) and an optional timezone within +-14:00.", "quantifier": "all strings", "why_tests_cant": "All strings.", "anchors": ["aas_test_engines/data_types.py:validators", "aas_test_engines/data_types.py:is_xs_g_month_day"]}
{"id": "C22", "title": "xs:duration accepts exactly the XSD duration lexical form", "statement": "A string is accepted iff it is -?P followed by year/month/day fields and an optional T part with hour/minute/second fields, each at most once and in order, at least one field overall and at least one after T, and only seconds may have a fraction.", "quantifier": "all strings", "why_tests_cant": "All strings.", "anchors": ["aas_test_engines/data_types.py:validators"]}
{"id": "C23", "title": "Binary types accept everything that is valid", "statement": "xs:hexBinary accepts every even-length string of hex digits and nothing but hex digit pairs separated by blanks; xs:base64Binary accepts every correctly padded base64 string and rejects every string whose alphabet characters cannot be grouped and padded.", "quantifier": "all strings", "why_tests_cant": "All strings.", "anchors": ["aas_test_engines/data_types.py:is_hex_binary", "aas_test_engines/data_types.py:is_base64_binary"]}
{"id": "C24", "title": "boolean, decimal, float and double accept every valid literal in range", "statement": "xs:boolean accepts exactly true,false,1,0; every XSD decimal literal is accepted as xs:decimal; INF, -INF and NaN are accepted as float/double, and a decimal literal is accepted as float/double exactly if its rounded value lies strictly inside the finite range.", "quantifier": "all strings, numbers of any magnitude and precision", "why_tests_cant": "All strings; rounding boundaries.", "anchors": ["aas_test_engines/data_types.py:is_decimal", "aas_test_engines/data_types.py:_is_bounded_double", "aas_test_engines/data_types.py:is_float", "aas_test_engines/data_types.py:is_double", "aas_test_engines/data_types.py:validators"]}
{"id": "C25", "title": "Accepted anyURI values are well formed IRIs", "statement": "A value accepted as xs:anyURI contains only characters allowed in an RFC 3987 IRI reference, each % is followed by two hex digits, at most one # occurs (before the fragment), and every URI made of scheme, authority and path segments of unreserved characters is accepted.", "quantifier": "all strings", "why_tests_cant": "All strings.", "anchors": ["aas_test_engines/data_types.py:_construct_matches_xs_any_uri", "aas_test_engines/data_types.py:is_any_uri"]}
{"id": "C26", "title": "Language tags are accepted exactly per BCP 47", "statement": "A string is accepted as a language tag iff it is a langtag, privateuse or grandfathered tag of BCP 47; the check for English accepts exactly en/EN, alone or followed by '-' and anything.", "quantifier": "all strings", "why_tests_cant": "All strings.", "anchors": ["aas_test_engines/data_types.py:is_bcp_lang_string", "aas_test_engines/data_types.py:is_bcp_47_for_english"]}
{"id": "C27", "title": "String-valued attributes are accepted exactly within their limits", "statement": "For every string type of the meta-model, a string is accepted iff its length is within the type's bounds, all characters are XML serialisable (AASd-130) and it is in the pattern of the type (idShort, version, content type, date, xs types...).", "quantifier": "all strings and all string classes of the meta-model", "why_tests_cant": "All strings.", "anchors": ["aas_test_engines/reflect.py:StringFormattedValue.__init__", "aas_test_engines/test_cases/v3_0/model.py:Identifier", "aas_test_engines/test_cases/v3_0/model.py:IdShortType", "aas_test_engines/test_cases/v3_0/model.py:VersionType", "aas_test_engines/test_cases/v3_0/model.py:ContentType"]}
{"id": "C28", "title": "Every value type has a validator and validators never raise", "statement": "For each of the 30 value types and every string the value check returns a verdict (no KeyError, no other exception).", "quantifier": "all value types times all strings", "why_tests_cant": "All strings.", "anchors": ["aas_test_engines/data_types.py:DataTypeDefXsd", "aas_test_engines/data_types.py:validators", "aas_test_engines/test_cases/v3_0/model.py:validate"]}
{"id": "C29", "title": "Path normalisation cannot escape the package", "statement": "normpath returns a path without empty, '.' or '..' segments and without trailing slash (except for the root), keeps absolute paths absolute, never climbs above the root, and resolves '..' against the preceding segment; normalising a normalised path with no blanks changes nothing.", "quantifier": "all path strings", "why_tests_cant": "All strings; path traversal bugs hide in unusual ones.", "anchors": ["aas_test_engines/opc.py:normpath", "aas_test_engines/opc.py:splitpath"]}
{"id": "C30", "title": "Package scanning terminates on every package", "statement": "Scanning the relationships of an OPC package always terminates, also if relationships form cycles, and follows the relationships of each part at most once.", "quantifier": "all archives, all relationship graphs (cyclic ones included)", "why_tests_cant": "Quantifies over all graphs.", "anchors": ["aas_test_engines/opc.py:_scan_relationships", "aas_test_engines/opc.py:_check_relationships"]}
{"id": "C31", "title": "A package that passes has no dangling relationship", "statement": "If the package check is ok then the content types part exists with the right root tag, the root relationships exist, and for every relationship found the target is a member of the archive; conversely every relationship found whose target is missing makes the check fail.", "quantifier": "all archives", "why_tests_cant": "Quantifies over all graphs and archives.", "anchors": ["aas_test_engines/opc.py:read_opc", "aas_test_engines/opc.py:_check_content_type", "aas_test_engines/opc.py:_scan_relationships"]}
{"id": "C32", "title": "Relationships of every reachable part are followed", "statement": "If part p is reachable from the package root through relationships and has a relationships part (dir/_rels/name.rels), then all relationships in it are scanned.", "quantifier": "all archives and all reachable parts", "why_tests_cant": "Reachability over all graphs.", "anchors": ["aas_test_engines/opc.py:_scan_relationships", "aas_test_engines/opc.py:splitpath"]}
{"id": "C33", "title": "Every AAS file linked from an AASX origin is checked", "statement": "If an AASX package passes, then every XML/JSON part linked as aas-spec from a part linked as aasx-origin from the root was checked and passed; if any linked file is not a valid environment, the package fails.", "quantifier": "all archives, all file contents", "why_tests_cant": "Quantifies over all packages and contents.", "anchors": ["aas_test_engines/file.py:_check_files", "aas_test_engines/file.py:check_aasx_data"]}
{"id": "C34", "title": "Deprecated relationship types are treated like their replacements", "statement": "Replacing relationship types by their deprecated spelling never changes the verdict (ok or not) of the package check nor which files are checked; it only adds warnings.", "quantifier": "all archives and all subsets of relationships rewritten", "why_tests_cant": "Relates pairs of runs over all archives.", "anchors": ["aas_test_engines/opc.py:_scan_relationships", "aas_test_engines/file.py:DEPRECATED_TYPES"]}
{"id": "C35", "title": "The JSON meta-model check is sound and complete", "statement": "For every class of the meta-model and every JSON value, parsing reports no error if and only if the value conforms to the class: right JSON types, all required attributes, no unknown attributes, enum values and string formats respected, right modelType where needed, recursively.", "quantifier": "all JSON values, all types of the schema (any schema)", "why_tests_cant": "Infinitely many documents of unbounded depth.", "anchors": ["aas_test_engines/test_cases/v3_0/parse.py:parse", "aas_test_engines/test_cases/v3_0/parse.py:parse_concrete_object", "aas_test_engines/test_cases/v3_0/parse.py:parse_abstract_object", "aas_test_engines/test_cases/v3_0/adapter.py:JsonAdapter"]}
{"id": "C36", "title": "A document that passes the meta-model check yields a fully typed object", "statement": "If parsing reports no error, the resulting object contains no INVALID placeholder anywhere and every attribute has a value of the declared type; if it reports an error the verdict is not ok and constraints are not evaluated on the broken object.", "quantifier": "all JSON and XML documents", "why_tests_cant": "Quantifies over all documents.", "anchors": ["aas_test_engines/test_cases/v3_0/parse.py:parse", "aas_test_engines/test_cases/v3_0/parse.py:INVALID", "aas_test_engines/test_cases/v3_0/parse.py:_parse_and_check"]}
{"id": "C37", "title": "Every meta-model error points to the place it is about", "statement": "The path printed in each meta-model error resolves to an existing location of the checked document.", "quantifier": "all documents and all errors reported", "why_tests_cant": "Quantifies over all documents.", "anchors": ["aas_test_engines/test_cases/v3_0/parse.py", "aas_test_engines/test_cases/v3_0/adapter.py:AdapterPath"]}
{"id": "C38", "title": "Attribute order does not matter", "statement": "Reordering the members of JSON objects anywhere in a document changes neither the parsed object nor the verdict.", "quantifier": "all JSON documents and all permutations of members", "why_tests_cant": "Relates pairs of runs over all documents.", "anchors": ["aas_test_engines/test_cases/v3_0/parse.py:parse_concrete_object"]}
{"id": "C39", "title": "Attribute names are unambiguous", "statement": "For every class, different attributes have different names in JSON/XML, no attribute is called modelType, and names are the lowerCamelCase form of the Python attribute.", "quantifier": "all classes and all pairs of attributes; all snake_case names for the naming rule", "why_tests_cant": "Needs all pairs of all classes, including inherited attributes.", "anchors": ["aas_test_engines/test_cases/v3_0/parse.py:to_lower_camel_case", "aas_test_engines/reflect.py:_reflect_class"]}
{"id": "C40", "title": "Objects serialised to JSON or XML are accepted and read back unchanged", "statement": "For every well-typed meta-model object, parsing its JSON form and parsing its XML form both report no error and give back that object, so both formats lead to the same verdict.", "quantifier": "all well-typed objects of all classes", "why_tests_cant": "Round trip over all objects.", "anchors": ["aas_test_engines/test_cases/v3_0/adapter.py:JsonAdapter", "aas_test_engines/test_cases/v3_0/adapter.py:XmlAdapter", "aas_test_engines/test_cases/v3_0/parse.py:parse"]}
{"id": "C41", "title": "Constraint checking visits every object", "statement": "A parsed object passes the constraint check iff every object nested anywhere in its attributes satisfies all constraints of its class; a violation at any depth makes the verdict not ok and is reported with the path of the object.", "quantifier": "all objects of any depth", "why_tests_cant": "Unbounded nesting.", "anchors": ["aas_test_engines/test_cases/v3_0/parse.py:check_constraints"]}
{"id": "C42", "title": "Constraints on references (AASd-121..128) hold exactly as specified", "statement": "For every reference, the check reports a violation iff the reference violates one of the AASd-121, 122, 123, 124, 125, 126, 127, 128 rules as stated in the specification.", "quantifier": "all references, all key chains of any length, all key types and values", "why_tests_cant": "Key chains are unbounded; interplay of eight rules.", "anchors": ["aas_test_engines/test_cases/v3_0/model.py:Reference"]}
{"id": "C43", "title": "idShort rules (AASd-022, 117, 120, 134) hold exactly as specified", "statement": "Violations are reported iff two elements of the same namespace share an idShort (submodel, collection, operation variables), an element outside of a list has no idShort, or an element in a list has one.", "quantifier": "all element lists of any length", "why_tests_cant": "Unbounded lists.", "anchors": ["aas_test_engines/test_cases/v3_0/model.py:ensure_unique_id_shorts", "aas_test_engines/test_cases/v3_0/model.py:ensure_have_id_shorts", "aas_test_engines/test_cases/v3_0/model.py:SubmodelElementList"]}
{"id": "C44", "title": "List constraints (AASd-107, 108, 109, 114) hold exactly as specified", "statement": "Violations are reported iff the list's elements disagree with the declared semanticId, element type or value type, or have different semanticIds among each other.", "quantifier": "all submodel element lists", "why_tests_cant": "Unbounded lists; pairwise conditions.", "anchors": ["aas_test_engines/test_cases/v3_0/model.py:SubmodelElementList"]}
{"id": "C45", "title": "Asset and entity constraints (AASd-014, 116, 131) hold exactly as specified", "statement": "Violations are reported iff an asset information has neither globalAssetId nor specificAssetIds, a specific asset id is named globalAssetId (case-insensitively; the name is reserved), or an entity's asset ids do not fit its entity type.", "quantifier": "all asset informations and entities", "why_tests_cant": "All attribute combinations and strings.", "anchors": ["aas_test_engines/test_cases/v3_0/model.py:AssetInformation", "aas_test_engines/test_cases/v3_0/model.py:Entity"]}
{"id": "C46", "title": "Semantics, template and administration constraints (AASd-002, 005, 090, 118, 119, 129, 133) hold exactly as specified", "statement": "Violations are reported iff the respective rule is broken.", "quantifier": "all objects of the classes concerned", "why_tests_cant": "All attribute combinations.", "anchors": ["aas_test_engines/test_cases/v3_0/model.py:HasSemantics", "aas_test_engines/test_cases/v3_0/model.py:AdministrativeInformation", "aas_test_engines/test_cases/v3_0/model.py:Submodel", "aas_test_engines/test_cases/v3_0/model.py:SpecificAssetId", "aas_test_engines/test_cases/v3_0/model.py:Referable"]}
{"id": "C47", "title": "Concept description constraints (AASc-3a-002, 004..010) hold exactly as specified", "statement": "A concept description with an IEC 61360 content is reported iff its preferredName lacks English, or value/valueList are not exclusive, or its category requires a data type/definition/unit it does not have.", "quantifier": "all concept descriptions", "why_tests_cant": "All attribute combinations.", "anchors": ["aas_test_engines/test_cases/v3_0/model.py:ConceptDescription", "aas_test_engines/test_cases/v3_0/model.py:DataSpecificationIec61360"]}
{"id": "C48", "title": "Values must match their declared value type", "statement": "For every property, range, qualifier and extension, a violation is reported iff a value is present and not in the lexical space of the declared value type.", "quantifier": "all values and value types", "why_tests_cant": "All strings.", "anchors": ["aas_test_engines/test_cases/v3_0/model.py:Property", "aas_test_engines/test_cases/v3_0/model.py:Range", "aas_test_engines/test_cases/v3_0/model.py:Qualifier", "aas_test_engines/test_cases/v3_0/model.py:Extension", "aas_test_engines/test_cases/v3_0/model.py:validate"]}
{"id": "C49", "title": "Every element reachable from a submodel has its path", "statement": "After parsing, every element reachable from a submodel through collections and lists has an idShortPath consisting of the idShorts and list indices leading to it, elements() lists each of them exactly once in document order, and with unique idShorts the paths are pairwise different.", "quantifier": "all submodels of any depth", "why_tests_cant": "Unbounded nesting.", "anchors": ["aas_test_engines/test_cases/v3_0/model.py:Submodel.update_id_shorts", "aas_test_engines/test_cases/v3_0/model.py:Submodel.elements", "aas_test_engines/test_cases/v3_0/model.py:IdShortPath"]}
{"id": "C50", "title": "Checking a JSON document never crashes", "statement": "check_json_data returns a result for every JSON value; it never raises.", "quantifier": "all JSON values", "why_tests_cant": "All documents.", "anchors": ["aas_test_engines/file.py:check_json_data", "aas_test_engines/test_cases/v3_0/__init__.py:json_to_obj"]}
{"id": "C51", "title": "A model type can be selected for any format", "statement": "check_json_data/check_json_file/check_xml_data/check_xml_file with model_type=T check the document against T, and return a result for every valid instance of T.", "quantifier": "all model types, all documents", "why_tests_cant": "All documents.", "anchors": ["aas_test_engines/file.py:check_xml_file", "aas_test_engines/file.py:check_json_file", "aas_test_engines/test_cases/v3_0/__init__.py:json_to_obj", "aas_test_engines/test_cases/v3_0/__init__.py:xml_to_obj", "aas_test_engines/reflect.py:SymbolTable.lookup"]}
{"id": "C52", "title": "Submodel template checks enforce cardinalities", "statement": "A submodel with the semanticId of a supported template passes the template check iff for each field of the template, recursively, the number of elements with the field's semanticId is within the cardinality and each such element has the right kind of value.", "quantifier": "all submodels", "why_tests_cant": "Unbounded elements and nesting.", "anchors": ["aas_test_engines/test_cases/v3_0/parse_submodel.py:_parse_elements", "aas_test_engines/test_cases/v3_0/submodel_templates.py:parse_submodel_templates"]}
{"id": "C53", "title": "Generated negative inputs are really invalid", "statement": "Each invalid value generated for an argument is outside of the argument's domain (no enum member, not decodable as base64url, not a boolean, negative limit), and each generated call differs from the valid call in exactly that argument.", "quantifier": "all enum classes, all argument lists, all valid argument assignments", "why_tests_cant": "All enums and argument dictionaries.", "anchors": ["aas_test_engines/test_cases/v3_0/generate.py:generate_invalid_values", "aas_test_engines/test_cases/v3_0/generate.py:generate_calls"]}
{"id": "C54", "title": "The confusion matrix counts every executed test exactly once", "statement": "After execute_tests the four counters add up to the number of executed test cases; negative/positive tests are counted as passed iff their result is ok, and the summary lines show these counts.", "quantifier": "all servers' behaviours, all suites, all test outcomes including aborts", "why_tests_cant": "Quantifies over all server behaviours.", "anchors": ["aas_test_engines/test_cases/v3_0/api.py:_execute", "aas_test_engines/test_cases/v3_0/api.py:execute_tests"]}
{"id": "C55", "title": "Dry runs send nothing and filtered operations are not touched", "statement": "With dry=True no request is sent; an operation not selected by the filter causes no request and no entry in the report; with no filter all operations of the suite are reported in order.", "quantifier": "all suites, filters, servers", "why_tests_cant": "Quantifies over all server behaviours and filters.", "anchors": ["aas_test_engines/test_cases/v3_0/api.py:execute_tests", "aas_test_engines/test_cases/v3_0/api.py:_check_server"]}
{"id": "C56", "title": "A server that cannot be reached fails the run", "statement": "If the server cannot be reached the result is not ok (CRITICAL), no operation is tested and all counters are zero; if setup of one operation fails, its tests are skipped, the result is not ok and the remaining operations are still tested.", "quantifier": "all suites and server behaviours", "why_tests_cant": "Quantifies over all failure points.", "anchors": ["aas_test_engines/test_cases/v3_0/api.py:_check_server", "aas_test_engines/test_cases/v3_0/api.py:execute_tests"]}
{"id": "C57", "title": "Responses are accepted exactly if status and content are as expected", "statement": "A positive test step succeeds iff the status code is the expected one and the body is JSON conforming to the declared type; status codes >= 500 always fail, and negative tests succeed iff the server answers with a client error status and a conforming error body. Of each request the URL is shown, of each response the status and at most the first 300 characters of its content.", "quantifier": "all status codes and bodies", "why_tests_cant": "All responses.", "anchors": ["aas_test_engines/test_cases/v3_0/interfaces/shared.py"]}
{"id": "C58", "title": "The exit code reflects the verdict", "statement": "check_file and check_server exit with 0 iff the result is ok, independent of the output format.", "quantifier": "all results, all output formats", "why_tests_cant": "All results.", "anchors": ["aas_test_engines/__main__.py:run_file_test", "aas_test_engines/__main__.py:run_api_test"]}
{"id": "C59", "title": "A suite is selected by a unique substring", "statement": "check_server runs suite S iff S is the only supported suite containing the given text; full suite names always select themselves; otherwise no suite is run and the exit code is 1.", "quantifier": "all strings", "why_tests_cant": "All strings.", "anchors": ["aas_test_engines/__main__.py:run_api_test"]}
{"id": "C60", "title": "Reflection terminates and covers exactly the reachable types", "statement": "reflect(cls) terminates for every (also recursive) class graph; the symbol table contains exactly the types reachable through attributes, list items and subclasses, each once, and after resolving no placeholder remains. reflect_function(fn) succeeds iff all types of the signature are supported; its arguments are the annotated parameters in order with their types, required iff not Optional, and functions with different parameters are different.", "quantifier": "all finite class graphs, including cyclic ones, and all functions over them", "why_tests_cant": "Quantifies over all class graphs.", "anchors": ["aas_test_engines/reflect.py:_reflect", "aas_test_engines/reflect.py:_reflect_class", "aas_test_engines/reflect.py:SymbolTable._resolve", "aas_test_engines/reflect.py:reflect_function", "aas_test_engines/reflect.py:FunctionType.__eq__"]}
{"id": "C61", "title": "Language strings have a language tag and a text of the allowed length", "statement": "For every language string a violation is reported iff its language is not a well-formed BCP 47 tag, or its text is empty or longer than its class allows (128 for names, 1023 for texts, 18 short names, 255 preferred names).", "quantifier": "all language strings, all texts", "why_tests_cant": "All strings.", "anchors": ["aas_test_engines/test_cases/v3_0/model.py:LangStringSet"]}
{"id": "C62", "title": "Data specifications refer to IEC 61360", "statement": "For every embedded data specification a warning is reported iff its reference is not an external reference to the IEC 61360 template.", "quantifier": "all embedded data specifications", "why_tests_cant": "All references.", "anchors": ["aas_test_engines/test_cases/v3_0/model.py:EmbeddedDataSpecification"]}
{"id": "C63", "title": "References to elements of the environment are model references", "statement": "A violation is reported iff observed or messageBroker of an event, derivedFrom or a submodel of a shell is no model reference.", "quantifier": "all events and shells", "why_tests_cant": "All references and lists.", "anchors": ["aas_test_engines/test_cases/v3_0/model.py:BasicEventElement", "aas_test_engines/test_cases/v3_0/model.py:AssetAdministrationShell"]}
{"id": "C64", "title": "The verdict on a whole document is exactly conformance plus the rules", "statement": "Checking a document for a class of the meta-model gives a positive verdict iff the document conforms to the class and no object in it breaks a rule; every broken rule is reported with the path of the object, and nothing else; an exception leaves the check only where a listed check raises.", "quantifier": "all JSON documents, all classes of the meta-model, any nesting", "why_tests_cant": "Quantifies over all documents and all rules at every depth.", "anchors": ["aas_test_engines/test_cases/v3_0/parse.py:parse_and_check_json", "aas_test_engines/test_cases/v3_0/parse.py:check_constraints", "aas_test_engines/test_cases/v3_0/model.py"]}
{"id": "C65", "title": "The content read is the content of the document", "statement": "What is read without error from a JSON document is the value the document describes (relation defined without the parser), and a document describes at most one value: no member is dropped, changed or invented.", "quantifier": "all schemas, all JSON documents", "why_tests_cant": "Quantifies over all documents.", "anchors": ["aas_test_engines/test_cases/v3_0/parse.py:parse", "aas_test_engines/test_cases/v3_0/adapter.py:JsonAdapter"]}
{"id": "C66", "title": "XML documents are accepted iff they are in the XML format", "statement": "A document in the XML format of the meta-model (element names, wrapped objects of abstract types, every attribute once, lists with elements called like their class, booleans true and false) is accepted; whatever is accepted is in that format; the check never raises.", "quantifier": "all schemas with suitable names, in particular the meta-model; all XML documents", "why_tests_cant": "Quantifies over all documents.", "anchors": ["aas_test_engines/test_cases/v3_0/adapter.py:XmlAdapter", "aas_test_engines/test_cases/v3_0/parse.py:parse"]}
{"id": "C67", "title": "The API tests only read", "statement": "Whatever the server answers, every request of a run is a GET request without body to the host that is tested.", "quantifier": "all servers (any behaviour, also depending on the past), all suites, all configurations", "why_tests_cant": "Quantifies over all behaviours of servers; a test can only try some servers.", "anchors": ["aas_test_engines/test_cases/v3_0/api.py:execute_tests", "aas_test_engines/test_cases/v3_0/interfaces/shared.py:invoke", "aas_test_engines/http.py:HttpClient.send"]}
{"id": "C68", "title": "Runs of the API tests end with a report", "statement": "An exception leaves a run only if the transport, the JSON decoder or the check of a constraint raised it, or if the suite or version is unknown: the engine itself does not crash, whatever valid data the server returns.", "quantifier": "all servers, all suites", "why_tests_cant": "Quantifies over all servers.", "anchors": ["aas_test_engines/test_cases/v3_0/api.py:execute_tests", "aas_test_engines/test_cases/v3_0/interfaces/aas_repo.py", "aas_test_engines/test_cases/v3_0/interfaces/submodel.py", "aas_test_engines/test_cases/v3_0/interfaces/submodel_repo.py"]}
{"id": "C69", "title": "Every operation of a service is tested at its path", "statement": "The table of suites has exactly the operations of the services, and all requests of the tests of an operation go to the path of the operation, with identifiers encoded in base64url.", "quantifier": "all servers, all operations of all services", "why_tests_cant": "The paths depend on what the server returned before.", "anchors": ["aas_test_engines/test_cases/v3_0/api.py:available_suites", "aas_test_engines/test_cases/v3_0/interfaces/aas.py", "aas_test_engines/test_cases/v3_0/interfaces/aas_repo.py", "aas_test_engines/test_cases/v3_0/interfaces/submodel.py", "aas_test_engines/test_cases/v3_0/interfaces/submodel_repo.py", "aas_test_engines/test_cases/v3_0/interfaces/serialization.py", "aas_test_engines/test_cases/v3_0/interfaces/description.py"]}
{"id": "C70", "title": "Negative tests send exactly one invalid value and expect a client error", "statement": "Each negative test of each operation sends one request in which exactly one parameter has an invalid value, at its place in path or query, and passes iff the response has a status of 4xx and an error result as content; there is one for every parameter. Every argument of a call is sent, under its name in the specification.", "quantifier": "all servers, all operations of all services", "why_tests_cant": "Quantifies over all servers and their responses.", "anchors": ["aas_test_engines/test_cases/v3_0/generate.py:generate_calls", "aas_test_engines/test_cases/v3_0/interfaces/shared.py:invoke_and_decode", "aas_test_engines/test_cases/v3_0/api.py:_execute_syntactic_tests"]}
{"id": "C71", "title": "Headers of the command line", "statement": "--header name:value is accepted iff it has a colon; name and value are what is before and after the first one, without surrounding white space; the last value given for a name wins; all requests carry the headers.", "quantifier": "all texts, all lists of headers, all servers", "why_tests_cant": "Quantifies over all texts and all runs.", "anchors": ["aas_test_engines/__main__.py:_parse_header_value", "aas_test_engines/__main__.py:run_api_test", "aas_test_engines/http.py:HttpClient.send"]}
{"id": "C72", "title": "The named command is run", "statement": "main runs exactly the command that is named, with its options; without a command or with an unknown one nothing is done and the exit code is 1; every command can succeed.", "quantifier": "all command lines", "why_tests_cant": "All command lines.", "anchors": ["aas_test_engines/__main__.py:main", "aas_test_engines/__main__.py:generate_files"]}
{"id": "C73", "title": "Positive tests send what the setup found and accept exactly the right responses", "statement": "Each positive test of each operation sends one request with the query parameters its name says, built from what the server answered during the setup, and passes iff the response has status 200 and content of the type that the operation returns, and this content satisfies the demand of the test (number of entries, same id, same idShort, reference to the id); each result of a run is that of one of these tests.", "quantifier": "all servers, all operations of all services", "why_tests_cant": "Quantifies over all servers and their responses.", "anchors": ["aas_test_engines/test_cases/v3_0/interfaces/aas_repo.py", "aas_test_engines/test_cases/v3_0/interfaces/aas.py", "aas_test_engines/test_cases/v3_0/interfaces/submodel.py", "aas_test_engines/test_cases/v3_0/interfaces/submodel_repo.py", "aas_test_engines/test_cases/v3_0/interfaces/serialization.py", "aas_test_engines/test_cases/v3_0/interfaces/description.py", "aas_test_engines/test_cases/v3_0/api.py:_execute_semantic_tests"]}
{"id": "C74", "title": "Bodies of responses are judged like documents", "statement": "A body counts as rejection, description, page, reference or object of the meta-model iff it has the members that the specification of the interfaces demands and no others; an object of the meta-model is accepted from a server iff it is accepted from a file, a page iff each of its entries is accepted on its own.", "quantifier": "all responses, all kinds of content", "why_tests_cant": "Quantifies over all bodies.", "anchors": ["aas_test_engines/test_cases/v3_0/interfaces/shared.py:invoke_and_decode", "aas_test_engines/test_cases/v3_0/interfaces/shared.py:ErrorResult", "aas_test_engines/test_cases/v3_0/interfaces/aas_repo.py", "aas_test_engines/test_cases/v3_0/interfaces/submodel.py", "aas_test_engines/test_cases/v3_0/interfaces/submodel_repo.py", "aas_test_engines/test_cases/v3_0/parse.py:parse_and_check_json"]}
{"id": "C75", "title": "Setups ask for what the tests need, and the tests use it", "statement": "Before the tests of an operation the engine sends exactly the requests of the operation's plan, in order, and stops at the first response that is invalid or lacks what is needed; it then raises the exception of the table, or fails. Otherwise all tests of the operation request its path with the id of the server's first shell or submodel (or of the first submodel of that shell) in place of the ids. The responses decide the end.", "quantifier": "all servers, all operations of all services", "why_tests_cant": "Quantifies over all servers and their responses.", "anchors": ["aas_test_engines/test_cases/v3_0/api.py:aas_repo_prefix", "aas_test_engines/test_cases/v3_0/api.py:aas_repo_submodel_prefix", "aas_test_engines/test_cases/v3_0/api.py:submodel_repo_submodel_prefix", "aas_test_engines/test_cases/v3_0/api.py:aas_submodel_prefix", "aas_test_engines/test_cases/v3_0/interfaces/aas_repo.py", "aas_test_engines/test_cases/v3_0/interfaces/aas.py", "aas_test_engines/test_cases/v3_0/interfaces/submodel.py", "aas_test_engines/test_cases/v3_0/interfaces/submodel_repo.py", "aas_test_engines/test_cases/v3_0/interfaces/serialization.py"]}
{"id": "C76", "title": "Which servers pass the API tests", "statement": "A server that answers every request of the setups of the chosen operations with what the tests need, rejects every request with an invalid value, and answers every request of the positive tests as demanded, passes: the run raises no exception, reports no failure, and counts exactly the tests of the tables. Conversely, if a server passes, then the responses in this run to the requests of the setups, of all negative and of all positive tests of each chosen operation were as demanded.", "quantifier": "all servers, all services and filters, all clients without prefixes", "why_tests_cant": "Quantifies over all servers; completeness and soundness are about whole runs with any responses.", "anchors": ["aas_test_engines/test_cases/v3_0/api.py:execute_tests", "aas_test_engines/test_cases/v3_0/api.py:_execute", "aas_test_engines/test_cases/v3_0/api.py:_execute_syntactic_tests", "aas_test_engines/test_cases/v3_0/api.py:_execute_semantic_tests", "aas_test_engines/test_cases/v3_0/api.py:_check_server", "aas_test_engines/test_cases/v3_0/interfaces/shared.py"]}
{"id": "C77", "title": "JSON texts are read as the grammar says", "statement": "json.loads accepts exactly the texts of the grammar of RFC 8259 (and NaN, Infinity, -Infinity), and gives the value they stand for: escapes, pairs of surrogates, integers, the last of members with the same name. All other texts raise JSONDecodeError with a place in the text; the only other exception is ValueError, for integers that are too long.", "quantifier": "all texts", "why_tests_cant": "Quantifies over all texts.", "anchors": ["aas_test_engines/file.py:check_json_file"]}
{"id": "C78", "title": "JSON files are checked whatever their encoding, and never crash the check", "statement": "A document is checked in the same way in UTF-8, UTF-16 and UTF-32, with or without byte order mark; a file that is not JSON is reported with the place of the error; check_json_file returns a result for every file.", "quantifier": "all sequences of bytes, all documents, all forms of Unicode", "why_tests_cant": "Quantifies over all files.", "anchors": ["aas_test_engines/file.py:check_json_file", "aas_test_engines/__main__.py:run_file_test"]}
{"id": "C79", "title": "JSON output can be read again", "statement": "What json.dumps writes is printable ASCII, and json.loads reads it as the same value, unless texts have separate surrogates that form a pair, which become one character; check_file --output json prints one such line for every result, from which from_json rebuilds the result.", "quantifier": "all JSON values, all results, all consoles that can print ASCII", "why_tests_cant": "Quantifies over all values and results.", "anchors": ["aas_test_engines/__main__.py:run_file_test", "aas_test_engines/result.py:AasTestResult.to_dict", "aas_test_engines/result.py:AasTestResult.from_json"]}
{"id": "C80", "title": "The exit code of check_file tells whether the file is valid", "statement": "The exit code of check_file is 0 if the bytes of the file are a document (JSON text in an encoding of Unicode, XML, or an AASX package with such documents) that conforms to the meta-model, breaks no rule and follows the templates of its submodels, and 1 otherwise.", "quantifier": "all files (sequences of bytes, XML trees, packages), all model types, formats and outputs", "why_tests_cant": "Quantifies over all files, and joins all layers from the bytes to the exit code.", "anchors": ["aas_test_engines/__main__.py:run_file_test", "aas_test_engines/file.py:check_json_file", "aas_test_engines/file.py:check_xml_file", "aas_test_engines/file.py:check_aasx_file", "aas_test_engines/test_cases/v3_0/__init__.py:json_to_obj", "aas_test_engines/test_cases/v3_0/__init__.py:xml_to_obj"]}
{"id": "C81", "title": "The checks raise no other exceptions than those of wrong attributes, types and values", "statement": "If the check of data or of a file raises an exception, then it is AttributeError, TypeError or ValueError (UnicodeDecodeError, and errors of the XML reader for files; IndexError only for elements without name; ParseError only for the XML of a package); in particular no KeyError, which file.py would take for a missing file in a package, comes out of the check of a file.", "quantifier": "all data, all files, all model types, all packages", "why_tests_cant": "An exception of another kind could come from any of the functions for some document.", "anchors": ["aas_test_engines/file.py:check_json_file", "aas_test_engines/file.py:check_xml_file", "aas_test_engines/file.py:check_aasx_data", "aas_test_engines/test_cases/v3_0/__init__.py:json_to_obj", "aas_test_engines/test_cases/v3_0/__init__.py:xml_to_obj"]}
{"id": "C82", "title": "Which values a type accepts is determined, for every text", "statement": "For each of the 30 XSD value types and each string type of the meta-model, the set of accepted texts is exactly the one written down: XML Schema's lexical space, extended by what Python's int, float and Decimal read (white space, digits of other scripts, underscores, infinities) and by one line feed after dates and URIs; the check raises exactly for dates whose years have more digits than the interpreter converts to an integer, and for no other text.", "quantifier": "all texts, all value types, all string types, all limits of the interpreter", "why_tests_cant": "The set of texts is infinite, and the deviations from XML Schema are in rare characters and in lengths no test writes.", "anchors": ["aas_test_engines/test_cases/v3_0/model.py:validate", "aas_test_engines/data_types.py:validators", "aas_test_engines/data_types.py:is_decimal", "aas_test_engines/data_types.py:_is_bounded_double"]}
{"id": "C83", "title": "Which XML documents are accepted is determined, for every tree of elements", "statement": "An XML element is read without a report iff it is accepted in the written-down sense: namespace and text of objects, names where the type is abstract or the class demands a model type, content of dataSpecificationContent and of the value of operation variables, the last of repeated attributes, texts with at most childless first children; it then has exactly one content. The order of attributes does not matter. The verdict on the document and the exit code follow from this content alone; documents that are not accepted are reported, or an element without a name makes the check raise IndexError.", "quantifier": "all trees of XML elements, all classes, all schemas for the reading part", "why_tests_cant": "Quantifies over all documents; the deviations from the format are combinations no test writes.", "anchors": ["aas_test_engines/test_cases/v3_0/adapter.py:XmlAdapter", "aas_test_engines/test_cases/v3_0/parse.py:parse", "aas_test_engines/test_cases/v3_0/__init__.py:xml_to_obj", "aas_test_engines/file.py:check_xml_file"]}
{"id": "C84", "title": "The recursion limit has no effect but a RecursionError, reached exactly by deeper content", "statement": "If nested calls of parse are limited, the check of a document gives the same result as without limit or raises RecursionError. Documents with no more levels than the limit are checked as without limit. For documents of the format the limit is reached iff their content has more levels. So for every limit there are valid documents, in JSON and XML, that pass without limit and raise with it. The same holds for nested calls of check_constraints, and a limit for these that is higher than that for parse is never reached.", "quantifier": "all documents, all model types, all limits, both formats", "why_tests_cant": "Quantifies over all limits and all depths; a test has one limit and a few depths.", "anchors": ["aas_test_engines/test_cases/v3_0/parse.py:parse", "aas_test_engines/test_cases/v3_0/parse.py:parse_list", "aas_test_engines/test_cases/v3_0/parse.py:parse_concrete_object", "aas_test_engines/test_cases/v3_0/parse.py:check_constraints", "aas_test_engines/test_cases/v3_0/__init__.py:json_to_obj", "aas_test_engines/test_cases/v3_0/__init__.py:xml_to_obj"]}
{"id": "C85", "title": "Every mistake of a submodel with a template is reported, with its place", "statement": "For a submodel of a supported template, whenever the check ends: each element that is not as its field demands (class, presence and type of the value, enumeration, number of elements, recursively in collections) is named in the report with its path of fields and positions, and the report has no other lines; the constraint on the nameplate is reported exactly if there is nothing else.", "quantifier": "all typed submodels, all templates, all nestings", "why_tests_cant": "Quantifies over all combinations of mistakes at all places of all nestings.", "anchors": ["aas_test_engines/test_cases/v3_0/parse_submodel.py:_parse", "aas_test_engines/test_cases/v3_0/parse_submodel.py:_parse_elements", "aas_test_engines/test_cases/v3_0/parse_submodel.py:_parse_enum", "aas_test_engines/test_cases/v3_0/parse_submodel.py:to_camel_case", "aas_test_engines/test_cases/v3_0/submodel_templates.py:parse_submodel_templates"]}
{"id": "C86", "title": "Every mistake of a document is reported, with its kind and its place", "statement": "The meta-model part of the report on a JSON or XML document has a line for each mistake of the document (wrong JSON type, child elements, text or namespace, value outside of an enumeration or in the wrong format, empty list, missing, wrong or unknown model type, missing or unknown attribute) with the path to it, each exactly once, and no other lines. A document has no mistakes iff it conforms to (is accepted for) the type. With mistakes, the constraints are not checked, and the report says so.", "quantifier": "all documents, all schemas with distinct names, all types, both formats", "why_tests_cant": "Quantifies over all combinations of mistakes at all places; a test has a few documents with one mistake each.", "anchors": ["aas_test_engines/test_cases/v3_0/parse.py:parse", "aas_test_engines/test_cases/v3_0/parse.py:parse_concrete_object", "aas_test_engines/test_cases/v3_0/parse.py:parse_abstract_object", "aas_test_engines/test_cases/v3_0/parse.py:parse_list", "aas_test_engines/test_cases/v3_0/parse.py:_parse_and_check", "aas_test_engines/test_cases/v3_0/adapter.py:JsonAdapter", "aas_test_engines/test_cases/v3_0/adapter.py:XmlAdapter"]}
{"id": "C87", "title": "The report depends on nothing but the content of the document", "statement": "Two documents with the same content lead to equal reports, line by line, or to the same exception, whether they are JSON or XML, whatever the order of their attributes; so the command line prints the same and ends with the same code for a JSON file and an XML file of the same environment. Every accepted document of one format has a counterpart of the same content in the other format.", "quantifier": "all pairs of documents of the same content in either format, all model types, all wordings of the lines", "why_tests_cant": "Quantifies over all pairs of documents; tests have no pairs at all.", "anchors": ["aas_test_engines/test_cases/v3_0/__init__.py:json_to_obj", "aas_test_engines/test_cases/v3_0/__init__.py:xml_to_obj", "aas_test_engines/test_cases/v3_0/parse.py:parse", "aas_test_engines/test_cases/v3_0/adapter.py:JsonAdapter", "aas_test_engines/test_cases/v3_0/adapter.py:XmlAdapter", "aas_test_engines/__main__.py:run_file_test"]}
{"id": "C88", "title": "An environment is valid iff its parts are valid and have different identifiers", "statement": "An environment passes the check iff it has no other attributes than lists of shells, submodels and concept descriptions, each with at least one element, each element passes in an environment of its own, and their identifiers are different. The lines on broken rules are those of the parts, with the attribute and the position in front.", "quantifier": "all JSON documents, all XML documents whose root is not named as a content of a data specification", "why_tests_cant": "Quantifies over all combinations of parts.", "anchors": ["aas_test_engines/test_cases/v3_0/__init__.py:json_to_obj", "aas_test_engines/test_cases/v3_0/parse.py:_parse_and_check", "aas_test_engines/test_cases/v3_0/parse.py:check_constraints", "aas_test_engines/test_cases/v3_0/model.py:Environment", "aas_test_engines/test_cases/v3_0/submodel_templates.py:parse_submodel_templates"]}
{"id": "C89", "title": "The place in a line of the report can be found in the document", "statement": "Every line about a mistake ends with ' @ ' and a path; whatever stands in front of it, the line can be read in one way only, the names of the path lead from the top of the document to exactly one part, and the mistake is one of this part with regard to the type expected there. Every such part has its line, and different lines have different texts. The same holds for lines about broken constraints.", "quantifier": "all documents, both formats, all wordings of the lines, all types", "why_tests_cant": "Names, texts of the document and numbers could be confused in some line for some document.", "anchors": ["aas_test_engines/test_cases/v3_0/adapter.py:AdapterPath", "aas_test_engines/test_cases/v3_0/parse.py:parse", "aas_test_engines/test_cases/v3_0/parse.py:check_constraints", "aas_test_engines/test_cases/v3_0/adapter.py:JsonAdapter", "aas_test_engines/test_cases/v3_0/adapter.py:XmlAdapter"]}
{"id": "C90", "title": "A change of one part of a document changes the lines about this part only", "statement": "Where a part of a document is replaced by another value and an attribute or list element of some type is expected there, the report on the meta-model has afterwards exactly the lines about all other places as before and the lines about the new part. In particular, when parts are repaired one after the other, no new line appears, and the document conforms to the meta-model as soon as a part at, or around, every reported place was repaired. For documents that conform before and after the change, where an object was replaced: in the new part exactly the rules are broken that it breaks on its own, and all objects that are neither inside nor around it break the same rules as before.", "quantifier": "all documents, both formats, all places, all replacements, all sequences of repairs", "why_tests_cant": "A repair in some place could bring up or hide a mistake elsewhere, for some document.", "anchors": ["aas_test_engines/test_cases/v3_0/parse.py:parse", "aas_test_engines/test_cases/v3_0/parse.py:parse_concrete_object", "aas_test_engines/test_cases/v3_0/parse.py:parse_abstract_object", "aas_test_engines/test_cases/v3_0/parse.py:parse_list", "aas_test_engines/test_cases/v3_0/adapter.py:JsonAdapter", "aas_test_engines/test_cases/v3_0/adapter.py:XmlAdapter"]}
{"id": "C91", "title": "What a line about a broken constraint says is true", "statement": "The text of every line of the constraint check is true of the object at its place: the positions of keys, elements and data specifications it shows are those of the offending ones, the values, references and element paths are those of the object, the rule it names is violated, and its level is that of the rule. The texts do not influence which lines appear, where, with which level, or which exceptions are raised.", "quantifier": "all typed objects of all classes, all checks, all places in documents", "why_tests_cant": "Most texts carry numbers and values computed from the object; a wrong offset or a swapped name shows only for some positions and is hidden by tests of the verdict.", "anchors": ["aas_test_engines/__main__.pyReference.check_aasd_125", "aas_test_engines/__main__.pyAdministrativeInformation.check_constraint_aasd_005", "aas_test_engines/__main__.pyBasicEventElement.check_message_broker", "aas_test_engines/__main__.pySubmodelElementList.check_aasd_108", "aas_test_engines/__main__.pySubmodel.check_aasd_119", "aas_test_engines/__main__.pyConceptDescription._check_iec_61360", "aas_test_engines/test_cases/v3_0/parse.py:check_constraints"]}
{"id": "C92", "title": "A line about a mistake of a document says what is wrong", "statement": "Every line of the report on the meta-model has a text about the mistake of the part at its place: it shows the value, name, namespace or attribute that is wrong, or a true statement about the length, the characters or the format of the string. The kind of the mistake can be read from the text, every mistake has such a line, and no line occurs twice. What is printed for each is one line. The texts do not influence which lines appear, with which level, or which exceptions are raised.", "quantifier": "all documents, both formats, all types of the meta-model, all ways in which the interpreter shows numbers, lists and characters", "why_tests_cant": "Texts are made from the document in many places; tests compare verdicts, and the texts only for some documents, so that swapped texts, values of another part and ambiguous texts are not noticed.", "anchors": ["aas_test_engines/test_cases/v3_0/parse.py:parse", "aas_test_engines/test_cases/v3_0/parse.py:_parse_and_check", "aas_test_engines/test_cases/v3_0/adapter.py:JsonAdapter", "aas_test_engines/test_cases/v3_0/adapter.py:XmlAdapter", "aas_test_engines/test_cases/v3_0/adapter.py:AdapterPath", "aas_test_engines/reflect.py:StringFormattedValue.__init__"]}
{"id": "C93", "title": "A line about a submodel with a template says what is wrong where", "statement": "The result for a submodel starts with its id and the name of its template. Below is one line for every mistake, in the order of the fields and elements, and no other line: what is wrong with the element, with its value and the data type or enumeration expected, and behind ' @ ' its place, which consists of names of fields and positions and leads to exactly one element of the submodel; or the field with a wrong number of elements, with the number found, the semantic id and the bound. What is printed for each is one line. The texts do not influence the levels and the number of lines, or which exceptions are raised.", "quantifier": "all submodels and environments of the meta-model, all documents of both formats, all templates, all ways in which the interpreter shows characters", "why_tests_cant": "Texts and places are made from nested fields, positions and counts; tests compare the verdict only.", "anchors": ["aas_test_engines/test_cases/v3_0/parse_submodel.py:_parse", "aas_test_engines/test_cases/v3_0/parse_submodel.py:_parse_elements", "aas_test_engines/test_cases/v3_0/parse_submodel.py:_parse_string", "aas_test_engines/test_cases/v3_0/parse_submodel.py:_parse_enum", "aas_test_engines/test_cases/v3_0/submodel_templates.py:parse_submodel_templates", "aas_test_engines/test_cases/v3_0/adapter.py:AdapterPath", "aas_test_engines/test_cases/v3_0/__init__.py:json_to_obj"]}
{"id": "C94", "title": "Options of the command line reach the checks", "statement": "check_server only sends GET requests without a body to the given server (the host without one final slash), checks certificates unless --no-verify is given, and sends nothing with --dry; the prefix to remove, the headers, the suite and the filter are those given. check_file checks JSON and XML files as the given model type (Environment by default), and refuses other types for packages.", "quantifier": "all options, all servers, all contents of files, all consoles", "why_tests_cant": "Swapped or negated options show in what is sent in all runs, against all servers; tests would need a server with an invalid certificate.", "anchors": ["aas_test_engines/__main__.py:run_file_test", "aas_test_engines/__main__.py:run_api_test", "aas_test_engines/file.py:check_xml_file"]}
{"id": "C95", "title": "Every code block of the README is checked", "statement": "bin/check_readme.py finds every fenced code block of the README with exactly its content, in order, and runs exactly those that no marker precedes since the last block; it raises iff a marker is within a block.", "quantifier": "all lists of lines", "why_tests_cant": "A state machine over all texts; a block that is lost is not noticed, because all others pass.", "anchors": ["bin/check_readme.py"]}
{"id": "C96", "title": "A release has one version", "statement": "bin/check_version_strings.py passes iff git returns one tag v and three numbers (digits 0-9) separated by dots, and both pyproject.toml and aas_test_engines/__init__.py have the line with this version; for the files as they are this is v1.0.2 only.", "quantifier": "all outputs of git, all contents of the two files", "why_tests_cant": "The tags that a pattern accepts are infinitely many, among them unexpected ones (digits of other scripts).", "anchors": ["bin/check_version_strings.py", "aas_test_engines/__init__.py:version"]}
{"id": "C97", "title": "Only supported versions of the specification are checked", "statement": "The latest version is supported. A run of the API tests with a version and a suite that supported_versions lists runs this suite; all others are refused before anything is sent, and so are checks of files with an unsupported version. The templates that are listed for a version are those that are applied.", "quantifier": "all versions and suites, all files, all servers", "why_tests_cant": "Versions that are ignored show only with versions that do not exist yet.", "anchors": ["aas_test_engines/api.py:supported_versions", "aas_test_engines/api.py:latest_version", "aas_test_engines/api.py:execute_tests", "aas_test_engines/file.py:supported_versions", "aas_test_engines/file.py:latest_version", "aas_test_engines/file.py:check_json_data", "aas_test_engines/test_cases/v3_0/submodel_templates.py:supported_templates"]}
{"id": "C98", "title": "Every server is checked against every service at the paths of its repository", "statement": "bin/check_servers.py runs all operations of every service of the engine against every server, writes one page for each pair that no other pair overwrites, and prints a table whose cells show the result of their own pair. The requests of each operation go to the path that the specification gives for it in the repositories of the server, with identifiers in base64url; for the services of a single shell or submodel this is the path below the shell and the submodel of the test data.", "quantifier": "all answers of all servers, all results, all exceptions of runs and writes", "why_tests_cant": "The script needs containers of four servers and is not part of the tests; a request to a wrong path counts as a mistake of the server.", "anchors": ["bin/check_servers.py:profiles", "bin/check_servers.py:servers", "bin/check_servers.py:main", "aas_test_engines/http.py:HttpClient"]}
{"id": "C99", "title": "The comparison of libraries counts every sample once", "statement": "bin/check_sdks.py prints one matrix for each library, which depends on the results of this library only. Every sample is counted exactly once: as accepted if the library wrote a file with its name, otherwise as rejected, and as valid or invalid by its name. Results that exist already are used again, samples are written under different names, and a second run counts the same samples.", "quantifier": "all directories of samples and results, all outcomes of containers, all sequences of generated samples", "why_tests_cant": "The script needs containers of three libraries and is not part of the tests.", "anchors": ["bin/check_sdks.py"]}
{"id": "C100", "title": "The listing of the relationships of a package is complete", "statement": "Relationship.dump prints one line for each relationship, parents before their sub relationships and siblings in order, indented by two blanks for each level, with the target and the part of the type after its last slash.", "quantifier": "all trees of relationships", "why_tests_cant": "Trees of every depth and width.", "anchors": ["aas_test_engines/opc.py:Relationship.dump"]}
{"id": "C101", "title": "The meta-model of the engine is that of the specification", "statement": "A JSON document is an instance of a class for the engine iff it is one according to the meta-model of the specification (Part 1, version 3.0): the same classes with the same attributes and cardinalities, the same literals of enumerations, the same classes for abstract ones, model types where they are needed.", "quantifier": "all JSON documents and all classes of the meta-model", "why_tests_cant": "Documents of every shape; a test sees single attributes of single classes.", "anchors": ["aas_test_engines/test_cases/v3_0/model.py:class Environment", "aas_test_engines/test_cases/v3_0/model.py:class EventElement", "aas_test_engines/test_cases/v3_0/model.py:class BasicEventElement", "aas_test_engines/test_cases/v3_0/parse.py:parse"]}
{"id": "C102", "title": "XML documents in the format of the specification are accepted", "statement": "Every XML element that is an instance of a class in the format of the specification (Part 1, version 3.0; attributes in any order) is accepted by the engine, so that nothing but broken rules is reported, and it is read with its content; what is accepted has the content of an instance.", "quantifier": "all XML documents and all classes of the meta-model", "why_tests_cant": "Documents of every shape; a test sees single elements, and names such as langStringNameType, wrapped choices and the forms of booleans are easily missed.", "anchors": ["aas_test_engines/test_cases/v3_0/adapter.py:XmlAdapter", "aas_test_engines/test_cases/v3_0/model.py:class Environment", "aas_test_engines/test_cases/v3_0/parse.py:parse"]}
{"id": "C103", "title": "The number of requests of a check of a server is limited", "statement": "A check of a server sends at most a number of requests that depends on the service and the filter only: for each operation one for what it is below of, one for the entry of the setup, one for each invalid value and one for each test and type of element. It does not depend on how many entries the server has, how many pages it offers or what it answers; for all services it is 425 at most, and a server with an element of each type gets as many as the table says.", "quantifier": "all servers (every answer to every history of requests), services, configurations and filters", "why_tests_cant": "A server with many entries or with pages that never end is not set up in tests.", "anchors": ["aas_test_engines/test_cases/v3_0/api.py:execute_tests", "aas_test_engines/test_cases/v3_0/api.py:_execute_semantic_tests", "aas_test_engines/test_cases/v3_0/generate.py:generate_calls", "aas_test_engines/test_cases/v3_0/interfaces/submodel.py:check_type"]}
{"id": "C104", "title": "Every mistake of a package is reported once, with its place", "statement": "The failed lines of the check of an AASX package are exactly the lines about its mistakes, one for each: missing or wrong content types, missing root relationships, relationships with another root, elements that are no relationship or lack a type or a target, parts that relationships lead to and that do not exist (one line, however many relationships lead there). Each is below the heading of the part it is about or of a part that refers to it. For a package without such mistakes the failed lines are those of the checks of the linked files, below their names.", "quantifier": "all packages, types that are deprecated, files and engines for the meta-model", "why_tests_cant": "Packages of every shape, with cycles and several mistakes; tests have single mistakes.", "anchors": ["aas_test_engines/opc.py:_scan_relationships", "aas_test_engines/opc.py:_check_content_type", "aas_test_engines/opc.py:read_opc", "aas_test_engines/file.py:_check_files", "aas_test_engines/file.py:check_aasx_data"]}
{"id": "C105", "title": "The report about a package depends only on what relationships lead to", "statement": "Two packages get the same report, word for word, if they agree in the content types, in the relationships of the package and of every part that can be reached, in which of the parts named there exist, and in the content of the files linked as specifications. So the order of the members of an archive does not matter, members to which nothing leads do not matter, and of members with the same name only the last one counts.", "quantifier": "all pairs of packages, files and engines for the meta-model", "why_tests_cant": "Pairs of archives of every shape; members nobody looks at are not in tests.", "anchors": ["aas_test_engines/opc.py:_scan_relationships", "aas_test_engines/opc.py:read_opc", "aas_test_engines/file.py:_check_files", "aas_test_engines/file.py:check_aasx_data"]}
{"id": "C106", "title": "Operations are tested independently of each other", "statement": "With a server that always gives the same answer to the same request, the report of a check is put together from the reports of checks of the single operations: the same results in the order of the operations, the sums of the counters, the requests one after the other; an exception is that of the first operation that raises one when it is checked alone. So a filter does not change the result of an operation it selects, to the last line.", "quantifier": "all servers without state, services, configurations, filters and lists of operations", "why_tests_cant": "Pairs of runs with different filters; tests look at single runs.", "anchors": ["aas_test_engines/test_cases/v3_0/api.py:execute_tests", "aas_test_engines/test_cases/v3_0/api.py:_execute", "aas_test_engines/result.py:start"]}
{"id": "C107", "title": "What a template does not mention does not matter", "statement": "The lines about a submodel with a supported template depend only on its semantic id, its id, whether it has elements, and, for each field of the template in order, the elements with the semantic id of the field: of these, whether they are properties with the same text and data type, whether they are multi-language properties with a value, or, for collections, the elements for the fields of the inner template. Elements with other semantic ids may be added anywhere, neighbours with different semantic ids exchanged; the verdict, and whether an exception is raised, do not depend on the order of the elements at all. The lines about an environment depend only on its submodels with supported templates, in order.", "quantifier": "for all pairs of typed submodels and environments that agree on what is mentioned", "why_tests_cant": "relates two runs on arbitrary pairs of documents of any depth; a test compares a few pairs", "anchors": ["aas_test_engines/test_cases/v3_0/parse_submodel.py:_parse_elements", "aas_test_engines/test_cases/v3_0/parse_submodel.py:_parse", "aas_test_engines/test_cases/v3_0/parse_submodel.py:parse_submodel", "aas_test_engines/test_cases/v3_0/submodel_templates.py:parse_submodel_templates"]}
{"id": "C108", "title": "A limit on the digits of numbers matters only for long texts", "statement": "Python interpreters refuse to convert numerals with more digits than a configurable limit. Texts of at most n characters are judged in the same way, for every data type and every formatted string, by all interpreters that convert numerals of n digits; documents all of whose texts have at most n characters get the same report, word for word, or the same exception; so do files and packages of such documents, and the command check_file prints the same and has the same exit code. The bound is sharp: with a limit of n digits there is a text of n + 1 characters that is judged differently.", "quantifier": "all limits, data types, texts, JSON and XML documents, files and packages with texts up to any length", "why_tests_cant": "Compares interpreters with different settings on arbitrary documents; tests run with one setting.", "anchors": ["aas_test_engines/data_types.py:_is_bounded_integer", "aas_test_engines/data_types.py:is_xs_date", "aas_test_engines/test_cases/v3_0/parse.py:_parse_and_check", "aas_test_engines/test_cases/v3_0/model.py:validate"]}
