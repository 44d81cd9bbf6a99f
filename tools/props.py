import json
P=[]
def p(id,title,statement,quantifier,why,anchors):
    P.append(dict(id=id,title=title,statement=statement,quantifier=quantifier,why_tests_cant=why,anchors=anchors))
R="aas_test_engines/result.py"; F="aas_test_engines/file.py"; C="aas_test_engines/config.py"; H="aas_test_engines/http.py"
O="aas_test_engines/opc.py"; D="aas_test_engines/data_types.py"; RF="aas_test_engines/reflect.py"; M="aas_test_engines/__main__.py"
V="aas_test_engines/test_cases/v3_0/"
p("C01","A result is ok exactly when nothing under it failed",
 "For every result tree that is built by creating results and appending finished results, the level of the root is the worst level given to any node of the tree, and ok() is true exactly when no node anywhere in the tree was created with level ERROR or CRITICAL.",
 "all result trees of any depth and width, any messages, any levels, any order of appends",
 "Trees are unbounded; a test only sees a few shapes.",
 [R+":Level.__or__",R+":AasTestResult.append",R+":AasTestResult.ok"])
p("C02","Appending never hides a problem and never loses a sub-result",
 "append keeps all earlier sub-results in order and adds the new one last; it never lowers the level; once a result is not ok it stays not ok whatever is appended; the resulting level does not depend on the order of the appends.",
 "all results and all finite sequences of appends, including all permutations",
 "Quantifies over all histories of appends.",
 [R+":AasTestResult.append",R+":Level.__or__"])
p("C03","Serialised results can be read back without change",
 "For every result tree built through the public API, AasTestResult.from_json(r.to_dict()) has the same messages, levels and nesting as r, and ok() gives the same answer.",
 "all result trees built by construction and appending",
 "Round trip over an infinite recursive domain.",
 [R+":AasTestResult.to_dict",R+":AasTestResult.from_json"])
p("C04","The text report shows every result once, in order, indented by depth",
 "to_lines yields exactly one line per node of the tree, parents before children and siblings in order; the line of a node at depth d starts with 3*d blanks followed by the colour of the node's level, its message and the reset sequence.",
 "all result trees",
 "Holds for trees of unbounded size and depth.",
 [R+":AasTestResult.to_lines",R+":Level.color"])
p("C05","The HTML report is well nested and cannot be broken by message text",
 "For every result tree and every message text, the HTML generated for the tree has properly nested and closed div elements, and no character of a message can open a tag, close a tag or end an attribute: the messages can be recovered by unescaping. When the page is opened, the sub-results of a result are unfolded iff it failed, and its caret points down iff they are; so every failed result of a tree built through the API is visible. Nothing is lost: different trees have different pages.",
 "all result trees, all message strings (including ones containing <, >, &, quotes and closing tags)",
 "Injection safety is a statement about all strings.",
 [R+":AasTestResult._to_html",R+":AasTestResult.to_html"])
p("C06","Result contexts are always closed, in the right order",
 "Whatever a block opened with start(...) does - write, nest further blocks, abort, raise any exception - after the with statement the set of open contexts is exactly the one before it, and the block that is closed is the one opened last.",
 "all programs made of start/write/abort/raise, arbitrarily nested, any initial stack of open contexts",
 "Quantifies over all programs and all exception points.",
 [R+":ContextManager.__enter__",R+":ContextManager.__exit__",R+":managers"])
p("C07","abort ends only the innermost block",
 "An abort inside a block records the abort message as the last entry of that block, attaches the block to its parent, and execution continues with the statement after the with statement; everything written before the abort in the block and everything written after the with statement in the parent is kept, in program order. A default abort makes the block and all enclosing blocks not ok.",
 "all programs, all nesting depths, all abort positions",
 "Quantifies over all programs and all positions of the failure.",
 [R+":abort",R+":ResultException",R+":ContextManager.__exit__"])
p("C08","Foreign exceptions are never swallowed silently",
 "An exception which is not an abort leaves every enclosing block unless one was started with catch_all_exceptions; such a block records it as CRITICAL, so that the block and all its ancestors are not ok. In particular, if a program finishes normally, then no exception was dropped without a CRITICAL entry.",
 "all programs and all exceptions",
 "Quantifies over all exception points and nestings.",
 [R+":ContextManager.__exit__",R+":start"])
p("C09","write outside of a context raises and changes nothing",
 "write with no open context raises RuntimeError and has no effect; write with an open context appends exactly one entry to the innermost open block and to no other.",
 "all context stacks and all messages",
 "Quantifies over all reachable states.",
 [R+":write"])
p("C10","Test filters follow the include/exclude glob rules",
 "An operation is selected by a filter INC~EXC exactly when (INC has no non-blank pattern or some pattern of INC matches the whole name) and no non-blank pattern of EXC matches the whole name, where * matches any string, ? any single character, [..] and [!..] character sets, and everything else itself.",
 "all filter strings and all operation names",
 "Glob matching ranges over infinitely many patterns and names.",
 [C+":TestCaseFilter.__init__",C+":TestCaseFilter.selects"])
p("C11","Malformed filters are rejected, everything else is accepted",
 "Constructing a filter raises InvalidFilterException exactly when the string contains more than one '~'; the empty filter selects every operation; adding an exclude pattern never adds operations and adding an include pattern to a non-empty include list never removes any.",
 "all filter strings, all names",
 "Universal statement over strings; monotonicity relates pairs of runs.",
 [C+":TestCaseFilter"])
p("C12","Identifiers survive URL-safe base64",
 "For every identifier, base64_urlsafe gives a string over A-Z a-z 0-9 - _ without padding which decodes back to the UTF-8 bytes of exactly that identifier; hence distinct identifiers have distinct encodings. It fails only for strings that have no UTF-8 form (lone surrogates).",
 "all strings",
 "Round trip and injectivity over all strings.",
 [D+":base64_urlsafe",RF+":StringFormattedValue.__str__",V+"interfaces/shared.py:Base64String"])
p("C13","Query parameters arrive at the server as they were given",
 "make_url leaves the path untouched, omits parameters whose value is None, and encodes the others such that splitting at & and = and percent-decoding gives back exactly the names and values in order; no value can add a parameter or start a fragment. The query is in the normal form of RFC 3986: escapes have capital letters, and neither an unreserved character nor a space is escaped.",
 "all paths, all parameter dictionaries, all names and values",
 "Round trip and non-injection over all strings.",
 [H+":Request.make_url"])
p("C14","Path prefixes are only removed at segment boundaries",
 "HttpClient.send requests host (without one trailing slash) + prefixes + path; if the result starts with remove_path_prefix and the prefix ends the URL or is followed by '/', exactly the prefix is removed, otherwise nothing is removed; with an empty prefix the URL is unchanged.",
 "all hosts, prefixes, paths, parameters and remove_path_prefix values",
 "Quantifies over all strings; boundary mistakes only show on particular ones.",
 [H+":HttpClient.send",H+":HttpClient.descend"])
p("C15","Additional headers are sent with every request",
 "Every request sent by a client contains all additional headers the client was created with (--header option), also after descend().",
 "all clients, all requests, all headers",
 "Quantifies over all clients and requests.",
 [H+":HttpClient.__init__",H+":HttpClient.send",M+":run_api_test"])
p("C16","Descending accumulates prefixes",
 "client.descend(a).descend(b) sends requests below a+b of the original client, i.e. a descended client keeps the position of the client it was derived from.",
 "all clients, all chains of prefixes",
 "Quantifies over chains of any length.",
 [H+":HttpClient.descend"])
p("C17","Bounded integer types accept exactly their value range",
 "For xs:byte, short, int, long, their unsigned versions, and (non)positive/(non)negative/unbounded integers: the decimal representation of an integer n (with optional sign and leading zeros) is accepted if and only if n is in the XSD value range of the type; text that does not denote an integer is rejected.",
 "all integers of any size, all 13 integer types, all strings",
 "Infinitely many integers; off-by-one errors only show at eight particular bounds.",
 [D+":_is_bounded_integer",D+":validators"])
p("C18","xs:date accepts exactly the dates that exist",
 "A string is accepted as xs:date iff it is [-]YYYY-MM-DD with an optional timezone where the year has at least four digits, no superfluous leading zero and is not 0000, and MM-DD exists in that year of the proleptic Gregorian calendar, and the timezone is Z or within +-14:00.",
 "all strings, all years of any size (also BCE)",
 "Unbounded years and all strings.",
 [D+":is_xs_date",D+":_construct_matches_xs_date"])
p("C19","Leap years follow the Gregorian rule, also before year 1",
 "A year is treated as leap iff its astronomical number (y for y>0, y+1 for y<0) is divisible by 4 and not by 100, or divisible by 400.",
 "all integers except 0",
 "Infinitely many years.",
 [D+":_is_leap_year"])
p("C20","xs:dateTime and the UTC variant accept exactly valid instants",
 "A string is accepted as xs:dateTime iff it is a valid date (C18, without timezone), 'T', a time of day (hh<24, mm<60, ss<60 with optional fraction, or 24:00:00 with zero fraction), and an optional timezone; the UTC variant requires Z, +00:00 or -00:00.",
 "all strings",
 "All strings.",
 [D+":is_xs_date_time",D+":is_xs_date_time_utc"])
p("C21","Partial dates and times accept exactly their lexical space",
 "gYear, gYearMonth, gMonth, gDay, gMonthDay and time accept exactly the strings with fields in the calendar ranges (gMonthDay: the day exists in that month of a leap year) and an optional timezone within +-14:00.",
 "all strings",
 "All strings.",
 [D+":validators",D+":is_xs_g_month_day"])
p("C22","xs:duration accepts exactly the XSD duration lexical form",
 "A string is accepted iff it is -?P followed by year/month/day fields and an optional T part with hour/minute/second fields, each at most once and in order, at least one field overall and at least one after T, and only seconds may have a fraction.",
 "all strings",
 "All strings.",
 [D+":validators"])
p("C23","Binary types accept everything that is valid",
 "xs:hexBinary accepts every even-length string of hex digits and nothing but hex digit pairs separated by blanks; xs:base64Binary accepts every correctly padded base64 string and rejects every string whose alphabet characters cannot be grouped and padded.",
 "all strings",
 "All strings.",
 [D+":is_hex_binary",D+":is_base64_binary"])
p("C24","boolean, decimal, float and double accept every valid literal in range",
 "xs:boolean accepts exactly true,false,1,0; every XSD decimal literal is accepted as xs:decimal; INF, -INF and NaN are accepted as float/double, and a decimal literal is accepted as float/double exactly if its rounded value lies strictly inside the finite range.",
 "all strings, numbers of any magnitude and precision",
 "All strings; rounding boundaries.",
 [D+":is_decimal",D+":_is_bounded_double",D+":is_float",D+":is_double",D+":validators"])
p("C25","Accepted anyURI values are well formed IRIs",
 "A value accepted as xs:anyURI contains only characters allowed in an RFC 3987 IRI reference, each % is followed by two hex digits, at most one # occurs (before the fragment), and every URI made of scheme, authority and path segments of unreserved characters is accepted.",
 "all strings",
 "All strings.",
 [D+":_construct_matches_xs_any_uri",D+":is_any_uri"])
p("C26","Language tags are accepted exactly per BCP 47",
 "A string is accepted as a language tag iff it is a langtag, privateuse or grandfathered tag of BCP 47; the check for English accepts exactly en/EN, alone or followed by '-' and anything.",
 "all strings",
 "All strings.",
 [D+":is_bcp_lang_string",D+":is_bcp_47_for_english"])
p("C27","String-valued attributes are accepted exactly within their limits",
 "For every string type of the meta-model, a string is accepted iff its length is within the type's bounds, all characters are XML serialisable (AASd-130) and it is in the pattern of the type (idShort, version, content type, date, xs types...).",
 "all strings and all string classes of the meta-model",
 "All strings.",
 [RF+":StringFormattedValue.__init__",V+"model.py:Identifier",V+"model.py:IdShortType",V+"model.py:VersionType",V+"model.py:ContentType"])
p("C28","Every value type has a validator and validators never raise",
 "For each of the 30 value types and every string the value check returns a verdict (no KeyError, no other exception).",
 "all value types times all strings",
 "All strings.",
 [D+":DataTypeDefXsd",D+":validators",V+"model.py:validate"])
p("C29","Path normalisation cannot escape the package",
 "normpath returns a path without empty, '.' or '..' segments and without trailing slash (except for the root), keeps absolute paths absolute, never climbs above the root, and resolves '..' against the preceding segment; normalising a normalised path with no blanks changes nothing.",
 "all path strings",
 "All strings; path traversal bugs hide in unusual ones.",
 [O+":normpath",O+":splitpath"])
p("C30","Package scanning terminates on every package",
 "Scanning the relationships of an OPC package always terminates, also if relationships form cycles, and follows the relationships of each part at most once.",
 "all archives, all relationship graphs (cyclic ones included)",
 "Quantifies over all graphs.",
 [O+":_scan_relationships",O+":_check_relationships"])
p("C31","A package that passes has no dangling relationship",
 "If the package check is ok then the content types part exists with the right root tag, the root relationships exist, and for every relationship found the target is a member of the archive; conversely every relationship found whose target is missing makes the check fail.",
 "all archives",
 "Quantifies over all graphs and archives.",
 [O+":read_opc",O+":_check_content_type",O+":_scan_relationships"])
p("C32","Relationships of every reachable part are followed",
 "If part p is reachable from the package root through relationships and has a relationships part (dir/_rels/name.rels), then all relationships in it are scanned.",
 "all archives and all reachable parts",
 "Reachability over all graphs.",
 [O+":_scan_relationships",O+":splitpath"])
p("C33","Every AAS file linked from an AASX origin is checked",
 "If an AASX package passes, then every XML/JSON part linked as aas-spec from a part linked as aasx-origin from the root was checked and passed; if any linked file is not a valid environment, the package fails.",
 "all archives, all file contents",
 "Quantifies over all packages and contents.",
 [F+":_check_files",F+":check_aasx_data"])
p("C34","Deprecated relationship types are treated like their replacements",
 "Replacing relationship types by their deprecated spelling never changes the verdict (ok or not) of the package check nor which files are checked; it only adds warnings.",
 "all archives and all subsets of relationships rewritten",
 "Relates pairs of runs over all archives.",
 [O+":_scan_relationships",F+":DEPRECATED_TYPES"])
p("C35","The JSON meta-model check is sound and complete",
 "For every class of the meta-model and every JSON value, parsing reports no error if and only if the value conforms to the class: right JSON types, all required attributes, no unknown attributes, enum values and string formats respected, right modelType where needed, recursively.",
 "all JSON values, all types of the schema (any schema)",
 "Infinitely many documents of unbounded depth.",
 [V+"parse.py:parse",V+"parse.py:parse_concrete_object",V+"parse.py:parse_abstract_object",V+"adapter.py:JsonAdapter"])
p("C36","A document that passes the meta-model check yields a fully typed object",
 "If parsing reports no error, the resulting object contains no INVALID placeholder anywhere and every attribute has a value of the declared type; if it reports an error the verdict is not ok and constraints are not evaluated on the broken object.",
 "all JSON and XML documents",
 "Quantifies over all documents.",
 [V+"parse.py:parse",V+"parse.py:INVALID",V+"parse.py:_parse_and_check"])
p("C37","Every meta-model error points to the place it is about",
 "The path printed in each meta-model error resolves to an existing location of the checked document.",
 "all documents and all errors reported",
 "Quantifies over all documents.",
 [V+"parse.py",V+"adapter.py:AdapterPath"])
p("C38","Attribute order does not matter",
 "Reordering the members of JSON objects anywhere in a document changes neither the parsed object nor the verdict.",
 "all JSON documents and all permutations of members",
 "Relates pairs of runs over all documents.",
 [V+"parse.py:parse_concrete_object"])
p("C39","Attribute names are unambiguous",
 "For every class, different attributes have different names in JSON/XML, no attribute is called modelType, and names are the lowerCamelCase form of the Python attribute.",
 "all classes and all pairs of attributes; all snake_case names for the naming rule",
 "Needs all pairs of all classes, including inherited attributes.",
 [V+"parse.py:to_lower_camel_case",RF+":_reflect_class"])
p("C40","Objects serialised to JSON or XML are accepted and read back unchanged",
 "For every well-typed meta-model object, parsing its JSON form and parsing its XML form both report no error and give back that object, so both formats lead to the same verdict.",
 "all well-typed objects of all classes",
 "Round trip over all objects.",
 [V+"adapter.py:JsonAdapter",V+"adapter.py:XmlAdapter",V+"parse.py:parse"])
p("C41","Constraint checking visits every object",
 "A parsed object passes the constraint check iff every object nested anywhere in its attributes satisfies all constraints of its class; a violation at any depth makes the verdict not ok and is reported with the path of the object.",
 "all objects of any depth",
 "Unbounded nesting.",
 [V+"parse.py:check_constraints"])
p("C42","Constraints on references (AASd-121..128) hold exactly as specified",
 "For every reference, the check reports a violation iff the reference violates one of the AASd-121, 122, 123, 124, 125, 126, 127, 128 rules as stated in the specification.",
 "all references, all key chains of any length, all key types and values",
 "Key chains are unbounded; interplay of eight rules.",
 [V+"model.py:Reference"])
p("C43","idShort rules (AASd-022, 117, 120, 134) hold exactly as specified",
 "Violations are reported iff two elements of the same namespace share an idShort (submodel, collection, operation variables), an element outside of a list has no idShort, or an element in a list has one.",
 "all element lists of any length",
 "Unbounded lists.",
 [V+"model.py:ensure_unique_id_shorts",V+"model.py:ensure_have_id_shorts",V+"model.py:SubmodelElementList"])
p("C44","List constraints (AASd-107, 108, 109, 114) hold exactly as specified",
 "Violations are reported iff the list's elements disagree with the declared semanticId, element type or value type, or have different semanticIds among each other.",
 "all submodel element lists",
 "Unbounded lists; pairwise conditions.",
 [V+"model.py:SubmodelElementList"])
p("C45","Asset and entity constraints (AASd-014, 116, 131) hold exactly as specified",
 "Violations are reported iff an asset information has neither globalAssetId nor specificAssetIds, a specific asset id is named globalAssetId (case-insensitively; the name is reserved), or an entity's asset ids do not fit its entity type.",
 "all asset informations and entities",
 "All attribute combinations and strings.",
 [V+"model.py:AssetInformation",V+"model.py:Entity"])
p("C46","Semantics, template and administration constraints (AASd-002, 005, 090, 118, 119, 129, 133) hold exactly as specified",
 "Violations are reported iff the respective rule is broken.",
 "all objects of the classes concerned",
 "All attribute combinations.",
 [V+"model.py:HasSemantics",V+"model.py:AdministrativeInformation",V+"model.py:Submodel",V+"model.py:SpecificAssetId",V+"model.py:Referable"])
p("C47","Concept description constraints (AASc-3a-002, 004..010) hold exactly as specified",
 "A concept description with an IEC 61360 content is reported iff its preferredName lacks English, or value/valueList are not exclusive, or its category requires a data type/definition/unit it does not have.",
 "all concept descriptions",
 "All attribute combinations.",
 [V+"model.py:ConceptDescription",V+"model.py:DataSpecificationIec61360"])
p("C48","Values must match their declared value type",
 "For every property, range, qualifier and extension, a violation is reported iff a value is present and not in the lexical space of the declared value type.",
 "all values and value types",
 "All strings.",
 [V+"model.py:Property",V+"model.py:Range",V+"model.py:Qualifier",V+"model.py:Extension",V+"model.py:validate"])
p("C49","Every element reachable from a submodel has its path",
 "After parsing, every element reachable from a submodel through collections and lists has an idShortPath consisting of the idShorts and list indices leading to it, elements() lists each of them exactly once in document order, and with unique idShorts the paths are pairwise different.",
 "all submodels of any depth",
 "Unbounded nesting.",
 [V+"model.py:Submodel.update_id_shorts",V+"model.py:Submodel.elements",V+"model.py:IdShortPath"])
p("C50","Checking a JSON document never crashes",
 "check_json_data returns a result for every JSON value; it never raises.",
 "all JSON values",
 "All documents.",
 [F+":check_json_data",V+"__init__.py:json_to_obj"])
p("C51","A model type can be selected for any format",
 "check_json_data/check_json_file/check_xml_data/check_xml_file with model_type=T check the document against T, and return a result for every valid instance of T.",
 "all model types, all documents",
 "All documents.",
 [F+":check_xml_file",F+":check_json_file",V+"__init__.py:json_to_obj",V+"__init__.py:xml_to_obj",RF+":SymbolTable.lookup"])
p("C52","Submodel template checks enforce cardinalities",
 "A submodel with the semanticId of a supported template passes the template check iff for each field of the template, recursively, the number of elements with the field's semanticId is within the cardinality and each such element has the right kind of value.",
 "all submodels",
 "Unbounded elements and nesting.",
 [V+"parse_submodel.py:_parse_elements",V+"submodel_templates.py:parse_submodel_templates"])
p("C53","Generated negative inputs are really invalid",
 "Each invalid value generated for an argument is outside of the argument's domain (no enum member, not decodable as base64url, not a boolean, negative limit), and each generated call differs from the valid call in exactly that argument.",
 "all enum classes, all argument lists, all valid argument assignments",
 "All enums and argument dictionaries.",
 [V+"generate.py:generate_invalid_values",V+"generate.py:generate_calls"])
p("C54","The confusion matrix counts every executed test exactly once",
 "After execute_tests the four counters add up to the number of executed test cases; negative/positive tests are counted as passed iff their result is ok, and the summary lines show these counts.",
 "all servers' behaviours, all suites, all test outcomes including aborts",
 "Quantifies over all server behaviours.",
 [V+"api.py:_execute",V+"api.py:execute_tests"])
p("C55","Dry runs send nothing and filtered operations are not touched",
 "With dry=True no request is sent; an operation not selected by the filter causes no request and no entry in the report; with no filter all operations of the suite are reported in order.",
 "all suites, filters, servers",
 "Quantifies over all server behaviours and filters.",
 [V+"api.py:execute_tests",V+"api.py:_check_server"])
p("C56","A server that cannot be reached fails the run",
 "If the server cannot be reached the result is not ok (CRITICAL), no operation is tested and all counters are zero; if setup of one operation fails, its tests are skipped, the result is not ok and the remaining operations are still tested.",
 "all suites and server behaviours",
 "Quantifies over all failure points.",
 [V+"api.py:_check_server",V+"api.py:execute_tests"])
p("C57","Responses are accepted exactly if status and content are as expected",
 "A positive test step succeeds iff the status code is the expected one and the body is JSON conforming to the declared type; status codes >= 500 always fail, and negative tests succeed iff the server answers with a client error status and a conforming error body. Of each request the URL is shown, of each response the status and at most the first 300 characters of its content.",
 "all status codes and bodies",
 "All responses.",
 [V+"interfaces/shared.py"])
p("C58","The exit code reflects the verdict",
 "check_file and check_server exit with 0 iff the result is ok, independent of the output format.",
 "all results, all output formats",
 "All results.",
 [M+":run_file_test",M+":run_api_test"])
p("C59","A suite is selected by a unique substring",
 "check_server runs suite S iff S is the only supported suite containing the given text; full suite names always select themselves; otherwise no suite is run and the exit code is 1.",
 "all strings",
 "All strings.",
 [M+":run_api_test"])
p("C60","Reflection terminates and covers exactly the reachable types",
 "reflect(cls) terminates for every (also recursive) class graph; the symbol table contains exactly the types reachable through attributes, list items and subclasses, each once, and after resolving no placeholder remains. reflect_function(fn) succeeds iff all types of the signature are supported; its arguments are the annotated parameters in order with their types, required iff not Optional, and functions with different parameters are different.",
 "all finite class graphs, including cyclic ones, and all functions over them",
 "Quantifies over all class graphs.",
 [RF+":_reflect",RF+":_reflect_class",RF+":SymbolTable._resolve",RF+":reflect_function",RF+":FunctionType.__eq__"])
p("C61","Language strings have a language tag and a text of the allowed length",
 "For every language string a violation is reported iff its language is not a well-formed BCP 47 tag, or its text is empty or longer than its class allows (128 for names, 1023 for texts, 18 short names, 255 preferred names).",
 "all language strings, all texts",
 "All strings.",
 [V+"model.py:LangStringSet"])
p("C62","Data specifications refer to IEC 61360",
 "For every embedded data specification a warning is reported iff its reference is not an external reference to the IEC 61360 template.",
 "all embedded data specifications",
 "All references.",
 [V+"model.py:EmbeddedDataSpecification"])
p("C63","References to elements of the environment are model references",
 "A violation is reported iff observed or messageBroker of an event, derivedFrom or a submodel of a shell is no model reference.",
 "all events and shells",
 "All references and lists.",
 [V+"model.py:BasicEventElement",V+"model.py:AssetAdministrationShell"])
p("C64","The verdict on a whole document is exactly conformance plus the rules",
 "Checking a document for a class of the meta-model gives a positive verdict iff the document conforms to the class and no object in it breaks a rule; every broken rule is reported with the path of the object, and nothing else; an exception leaves the check only where a listed check raises.",
 "all JSON documents, all classes of the meta-model, any nesting",
 "Quantifies over all documents and all rules at every depth.",
 [V+"parse.py:parse_and_check_json",V+"parse.py:check_constraints",V+"model.py"])
p("C65","The content read is the content of the document",
 "What is read without error from a JSON document is the value the document describes (relation defined without the parser), and a document describes at most one value: no member is dropped, changed or invented.",
 "all schemas, all JSON documents",
 "Quantifies over all documents.",
 [V+"parse.py:parse",V+"adapter.py:JsonAdapter"])
p("C66","XML documents are accepted iff they are in the XML format",
 "A document in the XML format of the meta-model (element names, wrapped objects of abstract types, every attribute once, lists with elements called like their class, booleans true and false) is accepted; whatever is accepted is in that format; the check never raises.",
 "all schemas with suitable names, in particular the meta-model; all XML documents",
 "Quantifies over all documents.",
 [V+"adapter.py:XmlAdapter",V+"parse.py:parse"])
I=V+"interfaces/"
p("C67","The API tests only read",
 "Whatever the server answers, every request of a run is a GET request without body to the host that is tested.",
 "all servers (any behaviour, also depending on the past), all suites, all configurations",
 "Quantifies over all behaviours of servers; a test can only try some servers.",
 [V+"api.py:execute_tests",I+"shared.py:invoke","aas_test_engines/http.py:HttpClient.send"])
p("C68","Runs of the API tests end with a report",
 "An exception leaves a run only if the transport, the JSON decoder or the check of a constraint raised it, or if the suite or version is unknown: the engine itself does not crash, whatever valid data the server returns.",
 "all servers, all suites",
 "Quantifies over all servers.",
 [V+"api.py:execute_tests",I+"aas_repo.py",I+"submodel.py",I+"submodel_repo.py"])
p("C69","Every operation of a service is tested at its path",
 "The table of suites has exactly the operations of the services, and all requests of the tests of an operation go to the path of the operation, with identifiers encoded in base64url.",
 "all servers, all operations of all services",
 "The paths depend on what the server returned before.",
 [V+"api.py:available_suites",I+"aas.py",I+"aas_repo.py",I+"submodel.py",I+"submodel_repo.py",I+"serialization.py",I+"description.py"])
p("C70","Negative tests send exactly one invalid value and expect a client error",
 "Each negative test of each operation sends one request in which exactly one parameter has an invalid value, at its place in path or query, and passes iff the response has a status of 4xx and an error result as content; there is one for every parameter. Every argument of a call is sent, under its name in the specification.",
 "all servers, all operations of all services",
 "Quantifies over all servers and their responses.",
 [V+"generate.py:generate_calls",I+"shared.py:invoke_and_decode",V+"api.py:_execute_syntactic_tests"])
p("C71","Headers of the command line",
 "--header name:value is accepted iff it has a colon; name and value are what is before and after the first one, without surrounding white space; the last value given for a name wins; all requests carry the headers.",
 "all texts, all lists of headers, all servers",
 "Quantifies over all texts and all runs.",
 [M+":_parse_header_value",M+":run_api_test","aas_test_engines/http.py:HttpClient.send"])
p("C72","The named command is run",
 "main runs exactly the command that is named, with its options; without a command or with an unknown one nothing is done and the exit code is 1; every command can succeed.",
 "all command lines",
 "All command lines.",
 [M+":main",M+":generate_files"])
p("C73","Positive tests send what the setup found and accept exactly the right responses",
 "Each positive test of each operation sends one request with the query parameters its name says, built from what the server answered during the setup, and passes iff the response has status 200 and content of the type that the operation returns, and this content satisfies the demand of the test (number of entries, same id, same idShort, reference to the id); each result of a run is that of one of these tests.",
 "all servers, all operations of all services",
 "Quantifies over all servers and their responses.",
 [I+"aas_repo.py",I+"aas.py",I+"submodel.py",I+"submodel_repo.py",I+"serialization.py",I+"description.py",V+"api.py:_execute_semantic_tests"])
p("C74","Bodies of responses are judged like documents",
 "A body counts as rejection, description, page, reference or object of the meta-model iff it has the members that the specification of the interfaces demands and no others; an object of the meta-model is accepted from a server iff it is accepted from a file, a page iff each of its entries is accepted on its own.",
 "all responses, all kinds of content",
 "Quantifies over all bodies.",
 [I+"shared.py:invoke_and_decode",I+"shared.py:ErrorResult",I+"aas_repo.py",I+"submodel.py",I+"submodel_repo.py",V+"parse.py:parse_and_check_json"])
p("C75","Setups ask for what the tests need, and the tests use it",
 "Before the tests of an operation the engine sends exactly the requests of the operation's plan, in order, and stops at the first response that is invalid or lacks what is needed; it then raises the exception of the table, or fails. Otherwise all tests of the operation request its path with the id of the server's first shell or submodel (or of the first submodel of that shell) in place of the ids. The responses decide the end.",
 "all servers, all operations of all services",
 "Quantifies over all servers and their responses.",
 [V+"api.py:aas_repo_prefix",V+"api.py:aas_repo_submodel_prefix",V+"api.py:submodel_repo_submodel_prefix",V+"api.py:aas_submodel_prefix",I+"aas_repo.py",I+"aas.py",I+"submodel.py",I+"submodel_repo.py",I+"serialization.py"])
p("C76","Which servers pass the API tests",
 "A server that answers every request of the setups of the chosen operations with what the tests need, rejects every request with an invalid value, and answers every request of the positive tests as demanded, passes: the run raises no exception, reports no failure, and counts exactly the tests of the tables. Conversely, if a server passes, then the responses in this run to the requests of the setups, of all negative and of all positive tests of each chosen operation were as demanded.",
 "all servers, all services and filters, all clients without prefixes",
 "Quantifies over all servers; completeness and soundness are about whole runs with any responses.",
 [V+"api.py:execute_tests",V+"api.py:_execute",V+"api.py:_execute_syntactic_tests",V+"api.py:_execute_semantic_tests",V+"api.py:_check_server",I+"shared.py"])
F="aas_test_engines/file.py"
p("C77","JSON texts are read as the grammar says",
 "json.loads accepts exactly the texts of the grammar of RFC 8259 (and NaN, Infinity, -Infinity), and gives the value they stand for: escapes, pairs of surrogates, integers, the last of members with the same name. All other texts raise JSONDecodeError with a place in the text; the only other exception is ValueError, for integers that are too long.",
 "all texts",
 "Quantifies over all texts.",
 [F+":check_json_file"])
p("C78","JSON files are checked whatever their encoding, and never crash the check",
 "A document is checked in the same way in UTF-8, UTF-16 and UTF-32, with or without byte order mark; a file that is not JSON is reported with the place of the error; check_json_file returns a result for every file.",
 "all sequences of bytes, all documents, all forms of Unicode",
 "Quantifies over all files.",
 [F+":check_json_file",M+":run_file_test"])
p("C79","JSON output can be read again",
 "What json.dumps writes is printable ASCII, and json.loads reads it as the same value, unless texts have separate surrogates that form a pair, which become one character; check_file --output json prints one such line for every result, from which from_json rebuilds the result.",
 "all JSON values, all results, all consoles that can print ASCII",
 "Quantifies over all values and results.",
 [M+":run_file_test","aas_test_engines/result.py:AasTestResult.to_dict","aas_test_engines/result.py:AasTestResult.from_json"])
p("C80","The exit code of check_file tells whether the file is valid",
 "The exit code of check_file is 0 if the bytes of the file are a document (JSON text in an encoding of Unicode, XML, or an AASX package with such documents) that conforms to the meta-model, breaks no rule and follows the templates of its submodels, and 1 otherwise.",
 "all files (sequences of bytes, XML trees, packages), all model types, formats and outputs",
 "Quantifies over all files, and joins all layers from the bytes to the exit code.",
 [M+":run_file_test",F+":check_json_file",F+":check_xml_file",F+":check_aasx_file",V+"__init__.py:json_to_obj",V+"__init__.py:xml_to_obj"])
p("C81","The checks raise no other exceptions than those of wrong attributes, types and values",
 "If the check of data or of a file raises an exception, then it is AttributeError, TypeError or ValueError (UnicodeDecodeError, and errors of the XML reader for files; IndexError only for elements without name; ParseError only for the XML of a package); in particular no KeyError, which file.py would take for a missing file in a package, comes out of the check of a file.",
 "all data, all files, all model types, all packages",
 "An exception of another kind could come from any of the functions for some document.",
 [F+":check_json_file",F+":check_xml_file",F+":check_aasx_data",V+"__init__.py:json_to_obj",V+"__init__.py:xml_to_obj"])
p("C82","Which values a type accepts is determined, for every text",
 "For each of the 30 XSD value types and each string type of the meta-model, the set of accepted texts is exactly the one written down: XML Schema's lexical space, extended by what Python's int, float and Decimal read (white space, digits of other scripts, underscores, infinities) and by one line feed after dates and URIs; the check raises exactly for dates whose years have more digits than the interpreter converts to an integer, and for no other text.",
 "all texts, all value types, all string types, all limits of the interpreter",
 "The set of texts is infinite, and the deviations from XML Schema are in rare characters and in lengths no test writes.",
 ["aas_test_engines/test_cases/v3_0/model.py:validate","aas_test_engines/data_types.py:validators","aas_test_engines/data_types.py:is_decimal","aas_test_engines/data_types.py:_is_bounded_double"])
p("C83","Which XML documents are accepted is determined, for every tree of elements",
 "An XML element is read without a report iff it is accepted in the written-down sense: namespace and text of objects, names where the type is abstract or the class demands a model type, content of dataSpecificationContent and of the value of operation variables, the last of repeated attributes, texts with at most childless first children; it then has exactly one content. The order of attributes does not matter. The verdict on the document and the exit code follow from this content alone; documents that are not accepted are reported, or an element without a name makes the check raise IndexError.",
 "all trees of XML elements, all classes, all schemas for the reading part",
 "Quantifies over all documents; the deviations from the format are combinations no test writes.",
 [V+"adapter.py:XmlAdapter",V+"parse.py:parse",V+"__init__.py:xml_to_obj",F+":check_xml_file"])
p("C84","The recursion limit has no effect but a RecursionError, reached exactly by deeper content",
 "If nested calls of parse are limited, the check of a document gives the same result as without limit or raises RecursionError. Documents with no more levels than the limit are checked as without limit. For documents of the format the limit is reached iff their content has more levels. So for every limit there are valid documents, in JSON and XML, that pass without limit and raise with it. The same holds for nested calls of check_constraints, and a limit for these that is higher than that for parse is never reached.",
 "all documents, all model types, all limits, both formats",
 "Quantifies over all limits and all depths; a test has one limit and a few depths.",
 [V+"parse.py:parse",V+"parse.py:parse_list",V+"parse.py:parse_concrete_object",V+"parse.py:check_constraints",V+"__init__.py:json_to_obj",V+"__init__.py:xml_to_obj"])
p("C85","Every mistake of a submodel with a template is reported, with its place",
 "For a submodel of a supported template, whenever the check ends: each element that is not as its field demands (class, presence and type of the value, enumeration, number of elements, recursively in collections) is named in the report with its path of fields and positions, and the report has no other lines; the constraint on the nameplate is reported exactly if there is nothing else.",
 "all typed submodels, all templates, all nestings",
 "Quantifies over all combinations of mistakes at all places of all nestings.",
 [V+"parse_submodel.py:_parse",V+"parse_submodel.py:_parse_elements",V+"parse_submodel.py:_parse_enum",V+"parse_submodel.py:to_camel_case",V+"submodel_templates.py:parse_submodel_templates"])
p("C86","Every mistake of a document is reported, with its kind and its place",
 "The meta-model part of the report on a JSON or XML document has a line for each mistake of the document (wrong JSON type, child elements, text or namespace, value outside of an enumeration or in the wrong format, empty list, missing, wrong or unknown model type, missing or unknown attribute) with the path to it, each exactly once, and no other lines. A document has no mistakes iff it conforms to (is accepted for) the type. With mistakes, the constraints are not checked, and the report says so.",
 "all documents, all schemas with distinct names, all types, both formats",
 "Quantifies over all combinations of mistakes at all places; a test has a few documents with one mistake each.",
 [V+"parse.py:parse",V+"parse.py:parse_concrete_object",V+"parse.py:parse_abstract_object",V+"parse.py:parse_list",V+"parse.py:_parse_and_check",V+"adapter.py:JsonAdapter",V+"adapter.py:XmlAdapter"])
p("C87","The report depends on nothing but the content of the document",
 "Two documents with the same content lead to equal reports, line by line, or to the same exception, whether they are JSON or XML, whatever the order of their attributes; so the command line prints the same and ends with the same code for a JSON file and an XML file of the same environment. Every accepted document of one format has a counterpart of the same content in the other format.",
 "all pairs of documents of the same content in either format, all model types, all wordings of the lines",
 "Quantifies over all pairs of documents; tests have no pairs at all.",
 [V+"__init__.py:json_to_obj",V+"__init__.py:xml_to_obj",V+"parse.py:parse",V+"adapter.py:JsonAdapter",V+"adapter.py:XmlAdapter","aas_test_engines/__main__.py:run_file_test"])
p("C88","An environment is valid iff its parts are valid and have different identifiers",
 "An environment passes the check iff it has no other attributes than lists of shells, submodels and concept descriptions, each with at least one element, each element passes in an environment of its own, and their identifiers are different. The lines on broken rules are those of the parts, with the attribute and the position in front.",
 "all JSON documents, all XML documents whose root is not named as a content of a data specification",
 "Quantifies over all combinations of parts.",
 [V+"__init__.py:json_to_obj",V+"parse.py:_parse_and_check",V+"parse.py:check_constraints",V+"model.py:Environment",V+"submodel_templates.py:parse_submodel_templates"])
p("C89","The place in a line of the report can be found in the document",
 "Every line about a mistake ends with ' @ ' and a path; whatever stands in front of it, the line can be read in one way only, the names of the path lead from the top of the document to exactly one part, and the mistake is one of this part with regard to the type expected there. Every such part has its line, and different lines have different texts. The same holds for lines about broken constraints.",
 "all documents, both formats, all wordings of the lines, all types",
 "Names, texts of the document and numbers could be confused in some line for some document.",
 [V+"adapter.py:AdapterPath",V+"parse.py:parse",V+"parse.py:check_constraints",V+"adapter.py:JsonAdapter",V+"adapter.py:XmlAdapter"])
p("C90","A change of one part of a document changes the lines about this part only",
 "Where a part of a document is replaced by another value and an attribute or list element of some type is expected there, the report on the meta-model has afterwards exactly the lines about all other places as before and the lines about the new part. In particular, when parts are repaired one after the other, no new line appears, and the document conforms to the meta-model as soon as a part at, or around, every reported place was repaired. For documents that conform before and after the change, where an object was replaced: in the new part exactly the rules are broken that it breaks on its own, and all objects that are neither inside nor around it break the same rules as before.",
 "all documents, both formats, all places, all replacements, all sequences of repairs",
 "A repair in some place could bring up or hide a mistake elsewhere, for some document.",
 [V+"parse.py:parse",V+"parse.py:parse_concrete_object",V+"parse.py:parse_abstract_object",V+"parse.py:parse_list",V+"adapter.py:JsonAdapter",V+"adapter.py:XmlAdapter"])
p("C91","What a line about a broken constraint says is true",
 "The text of every line of the constraint check is true of the object at its place: the positions of keys, elements and data specifications it shows are those of the offending ones, the values, references and element paths are those of the object, the rule it names is violated, and its level is that of the rule. The texts do not influence which lines appear, where, with which level, or which exceptions are raised.",
 "all typed objects of all classes, all checks, all places in documents",
 "Most texts carry numbers and values computed from the object; a wrong offset or a swapped name shows only for some positions and is hidden by tests of the verdict.",
 [M+"Reference.check_aasd_125",M+"AdministrativeInformation.check_constraint_aasd_005",M+"BasicEventElement.check_message_broker",M+"SubmodelElementList.check_aasd_108",M+"Submodel.check_aasd_119",M+"ConceptDescription._check_iec_61360",V+"parse.py:check_constraints"])
p("C92","A line about a mistake of a document says what is wrong",
 "Every line of the report on the meta-model has a text about the mistake of the part at its place: it shows the value, name, namespace or attribute that is wrong, or a true statement about the length, the characters or the format of the string. The kind of the mistake can be read from the text, every mistake has such a line, and no line occurs twice. What is printed for each is one line. The texts do not influence which lines appear, with which level, or which exceptions are raised.",
 "all documents, both formats, all types of the meta-model, all ways in which the interpreter shows numbers, lists and characters",
 "Texts are made from the document in many places; tests compare verdicts, and the texts only for some documents, so that swapped texts, values of another part and ambiguous texts are not noticed.",
 [V+"parse.py:parse",V+"parse.py:_parse_and_check",V+"adapter.py:JsonAdapter",V+"adapter.py:XmlAdapter",V+"adapter.py:AdapterPath",RF+":StringFormattedValue.__init__"])
p("C93","A line about a submodel with a template says what is wrong where",
 "The result for a submodel starts with its id and the name of its template. Below is one line for every mistake, in the order of the fields and elements, and no other line: what is wrong with the element, with its value and the data type or enumeration expected, and behind ' @ ' its place, which consists of names of fields and positions and leads to exactly one element of the submodel; or the field with a wrong number of elements, with the number found, the semantic id and the bound. What is printed for each is one line. The texts do not influence the levels and the number of lines, or which exceptions are raised.",
 "all submodels and environments of the meta-model, all documents of both formats, all templates, all ways in which the interpreter shows characters",
 "Texts and places are made from nested fields, positions and counts; tests compare the verdict only.",
 [V+"parse_submodel.py:_parse",V+"parse_submodel.py:_parse_elements",V+"parse_submodel.py:_parse_string",V+"parse_submodel.py:_parse_enum",V+"submodel_templates.py:parse_submodel_templates",V+"adapter.py:AdapterPath",V+"__init__.py:json_to_obj"])
p("C94","Options of the command line reach the checks",
 "check_server only sends GET requests without a body to the given server (the host without one final slash), checks certificates unless --no-verify is given, and sends nothing with --dry; the prefix to remove, the headers, the suite and the filter are those given. check_file checks JSON and XML files as the given model type (Environment by default), and refuses other types for packages.",
 "all options, all servers, all contents of files, all consoles",
 "Swapped or negated options show in what is sent in all runs, against all servers; tests would need a server with an invalid certificate.",
 ["aas_test_engines/__main__.py:run_file_test","aas_test_engines/__main__.py:run_api_test","aas_test_engines/file.py:check_xml_file"])
p("C95","Every code block of the README is checked",
 "bin/check_readme.py finds every fenced code block of the README with exactly its content, in order, and runs exactly those that no marker precedes since the last block; it raises iff a marker is within a block.",
 "all lists of lines",
 "A state machine over all texts; a block that is lost is not noticed, because all others pass.",
 ["bin/check_readme.py"])
p("C96","A release has one version",
 "bin/check_version_strings.py passes iff git returns one tag v and three numbers (digits 0-9) separated by dots, and both pyproject.toml and aas_test_engines/__init__.py have the line with this version; for the files as they are this is v1.0.2 only.",
 "all outputs of git, all contents of the two files",
 "The tags that a pattern accepts are infinitely many, among them unexpected ones (digits of other scripts).",
 ["bin/check_version_strings.py","aas_test_engines/__init__.py:version"])
p("C97","Only supported versions of the specification are checked",
 "The latest version is supported. A run of the API tests with a version and a suite that supported_versions lists runs this suite; all others are refused before anything is sent, and so are checks of files with an unsupported version. The templates that are listed for a version are those that are applied.",
 "all versions and suites, all files, all servers",
 "Versions that are ignored show only with versions that do not exist yet.",
 ["aas_test_engines/api.py:supported_versions","aas_test_engines/api.py:latest_version","aas_test_engines/api.py:execute_tests","aas_test_engines/file.py:supported_versions","aas_test_engines/file.py:latest_version","aas_test_engines/file.py:check_json_data","aas_test_engines/test_cases/v3_0/submodel_templates.py:supported_templates"])
p("C98","Every server is checked against every service at the paths of its repository",
 "bin/check_servers.py runs all operations of every service of the engine against every server, writes one page for each pair that no other pair overwrites, and prints a table whose cells show the result of their own pair. The requests of each operation go to the path that the specification gives for it in the repositories of the server, with identifiers in base64url; for the services of a single shell or submodel this is the path below the shell and the submodel of the test data.",
 "all answers of all servers, all results, all exceptions of runs and writes",
 "The script needs containers of four servers and is not part of the tests; a request to a wrong path counts as a mistake of the server.",
 ["bin/check_servers.py:profiles","bin/check_servers.py:servers","bin/check_servers.py:main","aas_test_engines/http.py:HttpClient"])
p("C99","The comparison of libraries counts every sample once",
 "bin/check_sdks.py prints one matrix for each library, which depends on the results of this library only. Every sample is counted exactly once: as accepted if the library wrote a file with its name, otherwise as rejected, and as valid or invalid by its name. Results that exist already are used again, samples are written under different names, and a second run counts the same samples.",
 "all directories of samples and results, all outcomes of containers, all sequences of generated samples",
 "The script needs containers of three libraries and is not part of the tests.",
 ["bin/check_sdks.py"])
p("C100","The listing of the relationships of a package is complete",
 "Relationship.dump prints one line for each relationship, parents before their sub relationships and siblings in order, indented by two blanks for each level, with the target and the part of the type after its last slash.",
 "all trees of relationships",
 "Trees of every depth and width.",
 ["aas_test_engines/opc.py:Relationship.dump"])
p("C101","The meta-model of the engine is that of the specification",
 "A JSON document is an instance of a class for the engine iff it is one according to the meta-model of the specification (Part 1, version 3.0): the same classes with the same attributes and cardinalities, the same literals of enumerations, the same classes for abstract ones, model types where they are needed.",
 "all JSON documents and all classes of the meta-model",
 "Documents of every shape; a test sees single attributes of single classes.",
 ["aas_test_engines/test_cases/v3_0/model.py:class Environment","aas_test_engines/test_cases/v3_0/model.py:class EventElement","aas_test_engines/test_cases/v3_0/model.py:class BasicEventElement","aas_test_engines/test_cases/v3_0/parse.py:parse"])
p("C102","XML documents in the format of the specification are accepted",
 "Every XML element that is an instance of a class in the format of the specification (Part 1, version 3.0; attributes in any order) is accepted by the engine, so that nothing but broken rules is reported, and it is read with its content; what is accepted has the content of an instance.",
 "all XML documents and all classes of the meta-model",
 "Documents of every shape; a test sees single elements, and names such as langStringNameType, wrapped choices and the forms of booleans are easily missed.",
 ["aas_test_engines/test_cases/v3_0/adapter.py:XmlAdapter","aas_test_engines/test_cases/v3_0/model.py:class Environment","aas_test_engines/test_cases/v3_0/parse.py:parse"])
p("C103","The number of requests of a check of a server is limited",
 "A check of a server sends at most a number of requests that depends on the service and the filter only: for each operation one for what it is below of, one for the entry of the setup, one for each invalid value and one for each test and type of element. It does not depend on how many entries the server has, how many pages it offers or what it answers; for all services it is 425 at most, and a server with an element of each type gets as many as the table says.",
 "all servers (every answer to every history of requests), services, configurations and filters",
 "A server with many entries or with pages that never end is not set up in tests.",
 ["aas_test_engines/test_cases/v3_0/api.py:execute_tests","aas_test_engines/test_cases/v3_0/api.py:_execute_semantic_tests","aas_test_engines/test_cases/v3_0/generate.py:generate_calls","aas_test_engines/test_cases/v3_0/interfaces/submodel.py:check_type"])
p("C104","Every mistake of a package is reported once, with its place",
 "The failed lines of the check of an AASX package are exactly the lines about its mistakes, one for each: missing or wrong content types, missing root relationships, relationships with another root, elements that are no relationship or lack a type or a target, parts that relationships lead to and that do not exist (one line, however many relationships lead there). Each is below the heading of the part it is about or of a part that refers to it. For a package without such mistakes the failed lines are those of the checks of the linked files, below their names.",
 "all packages, types that are deprecated, files and engines for the meta-model",
 "Packages of every shape, with cycles and several mistakes; tests have single mistakes.",
 ["aas_test_engines/opc.py:_scan_relationships","aas_test_engines/opc.py:_check_content_type","aas_test_engines/opc.py:read_opc","aas_test_engines/file.py:_check_files","aas_test_engines/file.py:check_aasx_data"])
p("C105","The report about a package depends only on what relationships lead to",
 "Two packages get the same report, word for word, if they agree in the content types, in the relationships of the package and of every part that can be reached, in which of the parts named there exist, and in the content of the files linked as specifications. So the order of the members of an archive does not matter, members to which nothing leads do not matter, and of members with the same name only the last one counts.",
 "all pairs of packages, files and engines for the meta-model",
 "Pairs of archives of every shape; members nobody looks at are not in tests.",
 ["aas_test_engines/opc.py:_scan_relationships","aas_test_engines/opc.py:read_opc","aas_test_engines/file.py:_check_files","aas_test_engines/file.py:check_aasx_data"])
p("C106","Operations are tested independently of each other",
 "With a server that always gives the same answer to the same request, the report of a check is put together from the reports of checks of the single operations: the same results in the order of the operations, the sums of the counters, the requests one after the other; an exception is that of the first operation that raises one when it is checked alone. So a filter does not change the result of an operation it selects, to the last line.",
 "all servers without state, services, configurations, filters and lists of operations",
 "Pairs of runs with different filters; tests look at single runs.",
 ["aas_test_engines/test_cases/v3_0/api.py:execute_tests","aas_test_engines/test_cases/v3_0/api.py:_execute","aas_test_engines/result.py:start"])
p("C107","What a template does not mention does not matter",
"The lines about a submodel with a supported template depend only on its semantic id, its id, whether it has elements, and, for each field of the template in order, the elements with the semantic id of the field: of these, whether they are properties with the same text and data type, whether they are multi-language properties with a value, or, for collections, the elements for the fields of the inner template. Elements with other semantic ids may be added anywhere, neighbours with different semantic ids exchanged; the verdict, and whether an exception is raised, do not depend on the order of the elements at all. The lines about an environment depend only on its submodels with supported templates, in order.",
"for all pairs of typed submodels and environments that agree on what is mentioned",
"relates two runs on arbitrary pairs of documents of any depth; a test compares a few pairs",
["aas_test_engines/test_cases/v3_0/parse_submodel.py:_parse_elements","aas_test_engines/test_cases/v3_0/parse_submodel.py:_parse","aas_test_engines/test_cases/v3_0/parse_submodel.py:parse_submodel","aas_test_engines/test_cases/v3_0/submodel_templates.py:parse_submodel_templates"])
p("C108","A limit on the digits of numbers matters only for long texts",
 "Python interpreters refuse to convert numerals with more digits than a configurable limit. Texts of at most n characters are judged in the same way, for every data type and every formatted string, by all interpreters that convert numerals of n digits; documents all of whose texts have at most n characters get the same report, word for word, or the same exception; so do files and packages of such documents, and the command check_file prints the same and has the same exit code. The bound is sharp: with a limit of n digits there is a text of n + 1 characters that is judged differently.",
 "all limits, data types, texts, JSON and XML documents, files and packages with texts up to any length",
 "Compares interpreters with different settings on arbitrary documents; tests run with one setting.",
 ["aas_test_engines/data_types.py:_is_bounded_integer","aas_test_engines/data_types.py:is_xs_date","aas_test_engines/test_cases/v3_0/parse.py:_parse_and_check","aas_test_engines/test_cases/v3_0/model.py:validate"])
with open('/verif/properties.jsonl','w') as f:
    for x in P: f.write(json.dumps(x,ensure_ascii=False)+"\n")
print(len(P))
