# Formal model of aas-test-engines (Lean 4)

Source modelled: `/repo/aas_test_engines` (Python). All line numbers in comments refer to the
files below that directory. The model lives in `lean/Verif/`.

## 1. Approach

* Every modelled Python function is a small total Lean function that mirrors it branch by branch.
  Python exceptions are values (`Except PyExc α` or an outcome type), loops are structural
  recursion or folds, unbounded recursion over graphs uses fuel together with a theorem that the
  fuel used is always enough.
* Python `str` is `Str := List Nat`, a list of code points. Lone surrogates are possible, as in
  Python. Literals are written `py "..."` (expanded at elaboration time).
* External things are parameters or data: archive contents, parsed XML trees, JSON values, server
  answers, the HTML template.
* Specifications are written separately (`Verif/Spec/*.lean`), in terms of the meaning of the
  inputs (dates, calendars, grammars, languages, conformance relations, constraint texts of the
  AAS specification), not by reusing the model's helpers.
* Property theorems live in `Verif/Props/*.lean`, one file per area, each with a concrete
  non-vacuity `example` next to it. Helper lemmas live beside the model or in `*Lemmas.lean`.
* Where the code violates the property users expect, the negation is proved with a concrete
  witness (`..._violated`), and the strongest true version is kept as `..._partial`.

## 2. Properties: what is modelled and how it is proved

| id | model | proof idea |
|----|-------|-----------|
| C01, C02 | `Result.lean`: `Level`, result trees, `append`, `ok` | induction over trees and append histories |
| C03 | `to_dict`/`from_json` on a JSON datatype | structural induction with a level-consistency invariant of built trees |
| C04 | `to_lines` | equality with a declarative pre-order listing |
| C05 | `_to_html`, `html.escape` | a tokenizer/unescaper spec recovers the tree, so that different trees have different pages (`C05_injective`); div balance by induction; what is folded is read with a stack of open lists (`seen`) |
| C06-C09 | `Context.lean`: big-step semantics of programs using start/write/abort/raise over the stack `managers` | induction over programs; refinement to a stack-free denotation |
| C10, C11 | `Config.lean`: `split`, `fnmatch.translate` as pattern compiler + matcher | matcher equals declarative glob relation |
| C12 | `Utf8.lean`, `Base64.lean` | decoder spec; induction over byte triples |
| C13-C16 | `Http.lean`: `make_url`, `urlencode`, `descend`, `send` | round trip with a query parser; case analysis |
| C17 | `DataTypes.lean`: Python `int()` on strings, bounds | value semantics of decimal numerals |
| C18-C22, C25, C26 | `Regex.lean`: regex AST, language, derivative matcher (proved correct); `DataTypes.lean`: the regexes of the code | language equalities / inclusions against grammar-style specs |
| C19 | `_is_leap_year` | arithmetic (`omega`) |
| C23, C24 | `bytes.fromhex`, `binascii.a2b_base64`, `Decimal()`/`float()` grammars | induction over strings |
| C27, C28 | `StringFormattedValue` and subclasses; `validators` | case analysis over the class table |
| C29 | `Opc.lean`: `normpath`, `splitpath` | invariant of the segment stack |
| C30-C32, C34 | `_scan_relationships` with fuel | fuel adequacy by counting unvisited names; invariants; simulation |
| C33 | `File.lean`: `_check_files`, `check_aasx_data` | composition with C31 |
| C35-C38 | `Adapter.lean`, `Parse.lean`: generic parser over a schema | induction over fuel/size against an inductive conformance relation |
| C39 | `Schema.lean`: class table, MRO, attribute lists | finite table by kernel evaluation |
| C40 | serialisers as spec | induction over well-typed values |
| C41 | `check_constraints` | induction over values |
| C42-C48 | `Model.lean`: every `check_*` method on dynamic objects | typed views of well-typed objects; equivalence with the constraint text |
| C49 | `_set_path`, `elements`, `IdShortPath` | induction over elements |
| C50, C51 | `json_to_obj`, `xml_to_obj`, `check_*` | witnesses for the crashes + exact crash conditions |
| C52 | `Templates.lean` | induction over template types |
| C53 | `generate.py` | arithmetic on lengths, a2b_base64 model |
| C54-C56 | `Api.lean`: `execute_tests` as a program over an abstract suite/server | induction over suites |
| C57 | `interfaces/shared.py` | decision logic; the lines about requests and responses (`Excerpt` in `Props/Responses.lean`) |
| C58, C59 | `Cli.lean` | case analysis; finite table of suites |
| C71, C72 | `Cli.lean` | case analysis, fold over the headers; C67 for what is sent |
| C60 | `Reflect.lean`: DFS with in-progress marks over an abstract class graph | fuel adequacy, reachability invariant; also for functions, one table for all parameters |
| C61-C63 | `Checks*.lean`: further `check_*` methods | as C42-C48 |
| C64 | parser and all checks together | composition of C36, C41 and the table of rules |
| C65, C66 | `Adapter.lean` for JSON and XML | inductive relations "the document describes the value" |
| C67-C70 | `Suites.lean`: all suites of `interfaces/*.py`, table and prefixes of `v3_0/api.py` | program logic (`ProgSat.lean`) over all servers; per-suite facts; tables by evaluation |
| C73 | `Suites.lean`; specification in `Spec/Positive.lean`: for each operation its tests, with parameters and demands | per-suite facts on requests and decisions (`SuiteFacts6`-`SuiteFacts10`), program logic |
| C74 | `Responses.lean`; forms of bodies in `Spec/Bodies.lean` | from C57 and C64: the response schema embeds the meta-model (`BodyLemmas.lean`) |
| C75 | `Suites.lean`; specification in `Spec/Setups.lean`: for each operation the requests of its setup, what is needed, and what happens if it is missing | one plan per prefix and per suite (`SetupFacts`, `SetupElements`, `SetupPrefixes`), composed along the tables of operations (`SetupTable`); determinacy by induction |
| C76 | `Api.lean`, `Suites.lean`; specification in `Spec/Compliant.lean`: what a server has to answer, and what it has answered if it passed | every test passes without an exception if the response is as demanded (C70, C73), the setup succeeds (C75); composed by induction along tests and operations (`CompliantLemmas`). The hypotheses are shown for a sample server (`Props/CompliantSamples.lean`) |
| C77 | `JsonText.lean`: Python's `json.loads`; specification in `Spec/JsonText.lean`: the grammar as an inductive relation between texts and values | soundness by induction over fuel, completeness by induction over derivations; runs with and without the limit for integers are compared |
| C78 | `JsonBytes.lean`, `JsonFile.lean`: detection of the encoding, codecs, `json.load`; specification in `Spec/JsonBytes.lean`: encoding forms | codecs by arithmetic on bytes; JSON texts begin with ASCII and have no NUL, which makes detection right; conversely whatever is decoded is the text of which the bytes are an encoding; C77 and C50 |
| C79 | `JsonDumps.lean`: `json.dumps`; `Spec/JsonDumps.lean` | what is written is a derivation of the grammar; C77, C03, C58 |
| C80 | `Cli.lean`, `File.lean`, `Engine.lean` and everything below | composition of C77, C78, C51, C33 and C58; `StripLemmas.lean`: no rule looks at the paths stored while parsing, so that the verdict is a property of the document; the violation by evaluation of one file |
| C81 | all functions that can raise, up to `Engine.lean` and `File.lean` | kinds of exceptions as invariants of the parser (`ParseLemmas3.lean`), the rules (`CheckTable.lean`) and the templates |
| C82 | `DataTypes.lean`, `Strings.lean`; specification of all accepted texts in `Spec/Values.lean`, digits and white space of other scripts in `Spec/Unicode.lean` | scanners of `float` and `Decimal` invert the grammar (`ValueLemmas.lean`); dates reduce to an interpreter without limit |
| C83 | `Adapter.lean`, `Parse.lean`, `Engine.lean`; exact relation in `Spec/XmlAccepted.lean` | both directions by induction over the reading relation (`XmlAccepted.lean`); verdict and exit code by composition with C64, C51, C80 |
| C84 | fuel of `parseF` in `Parse.lean` as limit, `check_constraints` with a limit in `Limits.lean`; levels in `Spec/Levels.lean` | more fuel changes nothing but `RecursionError` (induction over fuel); levels of documents as measure for the kinds of exceptions (C81); exact by induction over the reading relation (`LevelLemmas.lean`); deep documents by induction over the depth; levels of objects against levels of content for the constraint stage (`Limits.lean`) |
| C85 | `Templates.lean`; the mistakes as inductive relation in `Spec/Flaws.lean` | the report is the list of mistakes, by induction over the nesting of templates with the state of the result (`FlawLemmas.lean`); names of fields by the whole table; witnesses for the two violated parts |
| C86 | `Parse.lean`, `Adapter.lean`; the mistakes as inductive relations on documents in `Spec/Faults.lean` | the lines added by the parser are the mistakes in terms of the adapter, by induction on the fuel, disjoint because of their paths (`FaultLemmas.lean`); these are the mistakes of the document, for JSON (`FaultLemmas2.lean`) and XML (`FaultLemmas3.lean`) |
| C87 | `Engine.lean`, `File.lean`, `Cli.lean`; the content of documents in `Spec/Document.lean` and `Spec/XmlAccepted.lean` | values read by two adapters are equal, including stored paths, if they are equal without paths (`Read.strip_inj`); everything behind the parser is a function of the value; counterparts by serialisation (`Props/Formats.lean`) |
| C88 | as C80; the attributes of environments in `Props/Parts.lean`, XML in `Props/XmlParts.lean` | the objects nested in an environment are those of its parts; an environment has no rules of its own; templates are checked per submodel |
| C89 | paths of `Parse.lean`, their texts in `Wording.lean`; how a reader finds places in `Spec/Places.lean` | texts of paths have one reading (first and last occurrence of separators); mistakes and objects are found along their paths, by induction over C86's relations and over nested objects (`PlaceLemmas.lean`, `Props/Places.lean`); names by the whole table |
| C90 | as C86 and C89; changes of documents in `Spec/Repair.lean` | the mistakes of an object are its own, which depend on the names of its members and its model type only, and those of its members; induction over the place of the change (`RepairLemmas.lean`, `RepairLemmas2.lean`, `Props/Repair.lean`); for rules, the values the two documents describe differ in one place only (`Props/RepairRules.lean`) |
| C91 | the methods `check_...` with their full texts (`tellMethod` in `Messages.lean`); the meaning of every text in `Spec/Messages.lean` (`Means`) | same outcome as `runMethod` except for the text, for all values (`MessageLemmas.lean`); the conditions under which each text is raised are inverted (`MessageLemmas2.lean` to `5`); texts are told apart to refute the wrong ones (`MessageLemmas6.lean`); `Props/Messages.lean` |
| C92 | adapters, parser and constructors of strings once more, with the texts (`Telling.lean`, `Report.lean`); what the texts say in `Spec/Telling.lean` (`Says`, `XSays`, `FormatText`) and how the kind of mistake is read from them (`kindOf`) | simulation: each step with texts is the step without them, and each line is due to a part that is visited (`TellLemmas.lean`); parts, places and types are related to those of C89 (`TellLemmas2.lean`), strings to C43's formats (`TellLemmas3.lean`); texts are told apart by case analysis (`TellLemmas4.lean`), quoted strings are read back (`TellLemmas5.lean`); `Props/Telling.lean` |
| C93 | `parse_submodel.py` and `parse_submodel_templates` once more, with the texts (`TemplateTelling.lean`), and the engine with the texts of all lines (`textEngine`); lines, places and their order (`At`, `Listed`) and numbers in digits (`Decimal`) in `Spec/TemplateTelling.lean` | simulation: the same as without texts after forgetting them (`TemplateTellLemmas.lean`, `TemplateTellLemmas4.lean`); the lines and their order by induction over the nesting of templates (`TemplateTellLemmas2.lean`); places by induction over their construction, unique because of the names in the whole table (`TemplateTellLemmas3.lean`); numerals by strong induction (`DecimalLemmas.lean`); `Props/TemplateTelling.lean` |
| C94 | `Cli.lean`, `Suites.lean` | C59, C67 and C55 for what is sent; case analysis for files (`Props/Cli.lean`) |
| C95 | the loop of `bin/check_readme.py` (`Bin.lean`); what a block is: `Spec/Bin.lean` | every list of lines consists of closed blocks and other lines, followed by nothing, an open block or a marker in a block (`three_cases`); induction over this description for the loop (`Props/Bin.lean`) |
| C96 | `bin/check_version_strings.py` (`Bin.lean`) | language of the pattern (`RegexLemmas.lean`), `Props/Bin.lean` |
| C97 | `api.py`, the parameter `version` of `file.py` (`Versions.lean`) | case analysis; C80 and C83 for files, C52 for templates (`Props/Versions.lean`) |
| C98 | the tables and loops of `bin/check_servers.py` (`Servers.lean`); runs, writes and cells are parameters | induction over the loops; C69 and the whole table of operations by evaluation for the paths (`Props/Servers.lean`) |
| C99 | `bin/check_sdks.py` (`Sdks.lean`); containers and the generator of samples are parameters | induction over the loops (`SdksLemmas.lean`), `Props/Sdks.lean` |
| C100 | `Relationship.dump` (`Opc.lean`) | addresses of trees as for C04 (`OpcDump.lean`), `Props/Dump.lean` |
| C101 | the tables of `model.py` (`Schema.lean`) against a table written from the specification (`Spec/Metamodel.lean`) | comparison of the tables, then induction over the documents (`MetamodelLemmas.lean`, `Props/Metamodel.lean`) |
| C102 | the same tables with `adapter.py` `XmlAdapter`, against the XML format of the specification (`Spec/MetamodelXml.lean`) | induction over the instances, with the names of elements compared by table (`MetamodelXml.lean`, `Props/MetamodelXml.lean`) |
| C103 | `api.py` `execute_tests`, `generate.py` `generate_calls` and all test suites (`Suites.lean`) with the number of queries of a program | `AtMost`, a bound by induction over the program that composes along binds, blocks and loops; each suite against the table of `Spec/Requests.lean` (`RequestLemmas.lean`, `RequestLemmas2.lean`, `Props/Requests.lean`, `Props/RequestsReached.lean`) |
| C104 | `opc.py` and `file.py` as for C29-C34, against a list of the mistakes of a package (`Spec/Packages.lean`) | induction over the depth of the scan and the elements of a part: the lines of the mistakes of what is visited first, without repetition; with `visited_iff` these are all mistakes (`PackageLemmas.lean`, `Props/Packages.lean`) |
| C105 | `opc.py` and `file.py` as for C29-C34; two archives that agree in what can be reached (`Spec/Unused.lean`) | induction over the depth of the scan for both archives with the same depth, and more depth changes nothing; order, ignored and repeated members as special cases (`UnusedLemmas.lean`, `Props/Unused.lean`) |
| C106 | the runs of C54 with servers whose answers do not depend on the requests before (`Spec/Alone.lean`) | induction over programs: the requests before only stand in front of the others (`meaning_shift`); induction over the operations (`AloneLemmas.lean`, `Props/Alone.lean`) |
| C107 | the reports about templates of C93 on pairs of documents, with a relation between elements that mentions only what fields ask for (`Spec/Mentioned.lean`) | mutual induction over the rank of template types, per field; induction over the submodels (`MentionedLemmas.lean`, `Props/Mentioned.lean`) |
| C108 | the validators, the parser and the checks of the model with different values of the parameter `lim` (`Spec/Digits.lean`) | lengths of what `int` is applied to; induction over the recursion of the parser for two runs at once with a bound on the texts of the value; induction over values for `post_parse` and the constraints (`DigitLemmas.lean`, `DigitLemmas2.lean`, `Props/Digits.lean`); files and packages by comparing engines that agree on the files |

## 3. Trusted base

* Lean's kernel. Every property theorem depends at most on `propext`, `Classical.choice` and
  `Quot.sound`; there are no axioms of our own, and no compiled evaluation (`decide +kernel` is
  checked by the kernel).
* The transcription of the Python code into the model (each definition cites its lines). The class
  table of the meta-model and the submodel templates were extracted from the sources by
  `tools/gen_schema.py` and `tools/gen_templates.py` (they read the files as text).
* The behaviour of Python 3.11 built-ins and libraries as modelled (each model of a built-in says so):
  `int()`, `float()`, `Decimal()`, `bytes.fromhex`, `base64`, `re` (for the patterns used),
  `fnmatch.translate`, `str.split/strip/title/…`, `html.escape`, `urllib.parse.urlencode`, `json` (Python's own texts on random
  input were compared with the model's: values, messages and positions), `dict` order.

Modelled, by file:

| file | modelled |
|------|----------|
| `result.py` | all (HTML frame and `write_html` as text around the tree) |
| `config.py`, `http.py`, `data_types.py` | all |
| `opc.py` | all |
| `reflect.py` | all; the signatures of the operations of the tests are extracted by `tools/gen_tests.py` |
| `file.py` | all |
| `test_cases/v3_0/adapter.py`, `parse.py`, `model.py` | all |
| `test_cases/v3_0/submodel_templates.py`, `parse_submodel.py` | all |
| `test_cases/v3_0/generate.py`, `api.py`, `interfaces/*.py` | all |
| `api.py`, `exception.py`, `test_cases/v3_0/__init__.py` | all |
| `__main__.py` | all behind `argparse`; the options as texts are a parameter |
| `bin/check_readme.py`, `bin/check_version_strings.py` | all but running processes and reading files |
| `bin/check_servers.py` | tables, clients, configurations, loops and the printed table; containers and waiting for servers are not modelled |
| `bin/check_sdks.py` | all but the containers and the lines on standard output other than the matrices |

Parameters of the model, about which nothing is assumed unless a theorem says so:

* the archive (names and contents of parts, or an exception) and parsed XML trees: decoding of these bytes is
  not modelled. JSON is decoded from bytes (C77, C78); other theorems are about JSON values without any key twice
  (`WF`), which `json.loads` guarantees (C77_names);
* `float(text)` and `repr(float)` of numbers with fraction or exponent;
* the server: an arbitrary function from the requests so far and the current request to an answer (a
  response, a connection error, or another exception); `Sound` says that JSON contents have no key twice;
* the wording of messages where a theorem does not depend on it (`Cfg.text`); kind, place and level of
  messages are modelled, and the full texts of the constraint checks (C91), of the lines on the meta-model (C92) and on templates (C93), compared
  with the code by `tools/check_texts.py`;
* `str(value)` for numbers, lists and dictionaries, `str.isprintable` and `str.upper` for a character (`Words`);
* `sys.get_int_max_str_digits()` (`lim`);
* what Python knows about classes (`World` in `Reflect.lean`).

Not modelled: zip/XML decoding of raw bytes, decoding of responses (`response.json()`), TLS and sockets (`requests`), `argparse`, the
recursion limit in frames (C84 counts nested calls of `parse` and of `check_constraints`; documents nested some hundred levels deep raise
`RecursionError` in Python, and `json` and `ElementTree` have limits of their own), the
arithmetic of `fences`' ConfusionMatrix beyond four counters.

## 4. Where the code disagrees with the properties

Each has a theorem `…_violated` unless noted otherwise; the strongest true version is `…_partial`.

* **Results.** The level of a result is stale if a sub-result is changed after it was appended (C01). A
  foreign exception that unwinds a block drops everything written in it (C08). `[b-a!x]` in filters (C10).
* **Data types.** `xs:date`/`xs:dateTime` raise `ValueError` for very long years (C28). A trailing newline is
  accepted by dates, times, URIs, language tags and versions; `anyURI` with wrong IPv6 parts; grandfathered
  tags are case-sensitive; `base64Binary` accepts `!` and `====`; integers accept `1_0`, non-ASCII digits and
  surrounding spaces; decimals accept `1E5`, `-Infinity`, `sNaN123`; the largest finite float and double are
  rejected; `gYear` accepts `0000`.
* **HTTP.** Additional headers are never sent; `descend` drops prefixes given before; only one slash at the
  end of the host is removed.
* **OPC.** `normpath` is not idempotent with white space. A part found through another relationship before
  it is found as the origin keeps its files unchecked; relationships of parts at the root are ignored;
  malformed XML raises.
* **Documents.** A `Submodel` of a supported template without elements raises `TypeError`, shells with a
  `derivedFrom` that is no model reference raise `AttributeError` (C50). Checking for a class other than
  `Environment` raises on valid data; `model_type` is ignored for XML files (C51, C94). JSON files that are not UTF-8
  raise `UnicodeDecodeError`, integers with more than 4300 digits `ValueError` (C78).
* **Constraints.** AASd-116 is case-sensitive. The check of IEC 61360 contents of concept descriptions fails
  for every description of category PROPERTY, VALUE, REFERENCE, DOCUMENT with such content.
  `OperationVariable` without `idShort` raises instead of reporting. Statements of entities, annotations and
  operation variables have no path, and are not searched (C49); names need not be unique there; AASd-129
  covers top-level elements only; AASd-108 compares exact classes; AASd-109 is not enforced for empty lists;
  `post_parse` is not called for instances of subclasses read through an abstract type.
* **Texts of constraints.** AASd-005 is raised for a revision without version and says the opposite; AASd-125 numbers keys from
  the second one (one too small); the check of `messageBroker` says `observed`; AASd-119 says AASd-129; AASc-3a-004 to 006 call
  allowed data types invalid; AASd-108 asks for an instance of an abstract class where the element is one (`C91_*_violated`).
* **Texts on the meta-model.** The name of a member may contain line feeds, and with it any line of a report
  (`C92_one_line_violated`, `C92_xml_one_line_violated`); the value of an operation variable without exactly one child is called `DataSpecificationContent`
  (`C92_single_child_violated`).
* **XML.** Repeated elements (the last wins), any text other than `true` as false, any names of list items,
  text between elements, capitalised names are accepted; elements without a name raise `IndexError` (C66).
* **Depth.** For every recursion limit there are valid documents whose check raises `RecursionError` (`C84_deep`).
* **Reports on templates.** Values outside of an enumeration are not reported after any other mistake of the submodel
  (`C85_enum_violated`); wrong numbers of elements in nested collections are reported without their place
  (`C85_place_violated`, `C93_place_violated`); values are shown with their line feeds (`C93_one_line_violated`).
* **Environments.** Identifiers are not compared: the same shell, submodel or concept description may occur twice, and
  parts of different kinds may have the same identifier (`C88_unique_ids_violated`, `C88_xml_unique_ids_violated`). In
  XML, the parts in an attribute that is given again later are not checked at all (`C88_xml_shadowed_violated`).
* **Places.** The lines about broken constraints name attributes by their Python names (`concept_descriptions`), which
  do not occur in documents (`C89_rules_violated`); those about the meta-model use the names of the document.
* **Meta-model.** `EventElement` is not abstract, so elements of this class pass; the last update of an event may be in any time zone
  (`DateTimeUtc` is not used); submodel elements that are checked as their own class need no `modelType` (C101).
  In XML the boolean `1` is read as `False` (C102).
* **Templates.** Lists pass for collections, empty collections are rejected, missing elements and dates in
  other formats raise, unknown semantic ids give no message (C52).
* **Reflection.** Types with the same text share an entry (C60). Functions whose parameters have different types count as equal, so the
  check that both calls of a suite take the same parameters does not see it (C60_functions_violated).
* **API.** Exceptions of a setup other than those of the checks leave the whole run (C56), and so do those of
  the engine itself on servers without shells, on shells without `idShort`, `globalAssetId` or submodels, on
  submodels without elements, on collections without elements (C68). `GetAssetAdministrationShell` and
  `GetSubmodel` are requested with an additional slash; the submodels of the shell service are looked up at
  `/`; `GenerateSerializationByIds` looks for `/aas/shells` and `/submodel/shells` (C69). Parameters that are
  texts have no negative tests (C70). The tests of `GetThumbnail`, `GetFileByPath`, `GetSubmodel-ValueOnly`,
  `GetSubmodelById-ValueOnly` and `GetSubmodelElementByPath-Metadata`/`-ValueOnly` accept every status; the
  pagination tests never send the cursor; `test_core_with_blob_value` and `test_deep_with_blob_value` of
  `GetAllSubmodelElements` send other values than their names say; elements of
  lists are never requested by path (C73). The setup of
  `GetAllSubmodelElements-Reference` looks for no cursor, so its pagination test always ends with a warning.
* **Scripts and versions.** A last code block of the README that is not closed is not run (C95); tags with digits of other scripts are
  accepted (C96); the parameter `version` of the checks of files has no effect (C97); the
  identifier of the shell in `bin/check_servers.py` is in base64 with padding instead of base64url, and `GetDescription` and the setup of
  `GenerateSerializationByIds` are requested below a single shell or submodel (C98);
  `bin/check_sdks.py` can not generate samples and counts every file of a library as an accepted sample (C99).
* **Command line.** Headers given with `--header` are never sent (C71). `generate_files` calls a function that
  does not exist (C72). An unknown `--version` ends with `UnboundLocalError` behind the message. A result with
  a lone surrogate cannot be printed as text or HTML (C58).
