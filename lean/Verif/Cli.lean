import Verif.Suites
import Verif.Engine
import Verif.JsonDumps

/-!
# Model of `aas_test_engines/__main__.py`

`argparse` splits the command line into the texts of the options; this is a library and a parameter (`Parsers`). The conversion of these
texts (`type=...`, `choices=...`) and everything behind `parse_args` is modelled. The order in which several wrong options are found is
simplified: it is the order of the definitions.

Standard output is a list of lines. A line that cannot be encoded makes `print` raise `UnicodeEncodeError` (`Console.encodes`).
-/

namespace Verif.Cli
open Verif Verif.Http Verif.Generate Verif.Api
open Verif.Parse (Xml)

/-- the environment of the process -/
structure Console where
  /-- whether a text can be written to standard output -/
  encodes : Str → Bool
  /-- result.py 88-90: the file `data/template.html`, around the content -/
  page : Str → Str

/-- how a process ends -/
inductive Ended
  /-- `sys.exit(code)`, or the end of `main` with code 0 -/
  | exit (code : Nat)
  /-- an exception that is not caught; Python's exit code is 1 -/
  | raised (e : Exc)
  deriving DecidableEq

def Ended.code : Ended → Nat
  | .exit c => c
  | .raised _ => 1

/-- what a command prints, and how it ends -/
structure Outcome where
  out : List Str := []
  err : List Str := []
  ended : Ended
  deriving DecidableEq

/-- __main__.py 24-27 `OutputFormats` -/
inductive Output
  | text | json | html
  deriving DecidableEq, Repr

/-- `OutputFormats(value)`; `none` is `ValueError` -/
def Output.ofText (s : Str) : Option Output :=
  if s = py!"text" then some .text else if s = py!"json" then some .json else if s = py!"html" then some .html else none

/-- __main__.py 15-21 `InputFormats` -/
inductive Format
  | xml | json | aasx
  deriving DecidableEq, Repr

def Format.ofText (s : Str) : Option Format :=
  if s = py!"xml" then some .xml else if s = py!"json" then some .json else if s = py!"aasx" then some .aasx else none

/-- `print(line)` for lines until one cannot be encoded -/
def printAll (c : Console) : List Str → List Str × Option Exc
  | [] => ([], none)
  | l :: ls =>
    if c.encodes l then
      let r := printAll c ls
      (l :: r.1, r.2)
    else ([], some (excOf .unicodeEncodeError))

/-- __main__.py 66-73, 136-143; there are no fractions in the data of a result -/
def linesOf (c : Console) (output : Output) (result : Res Str) : List Str :=
  match output with
  | .text => result.toLines 0
  | .html => [c.page (result.toHtml 0)]
  | .json => [JsonText.dumps (fun _ => []) result.toDict]

/-- __main__.py 66-74, 136-144: the result is printed, `sys.exit(0 if result.ok() else 1)` -/
def report (c : Console) (output : Output) (result : Res Str) : Outcome :=
  match printAll c (linesOf c output result) with
  | (out, none) => { out, ended := .exit (if result.ok then 0 else 1) }
  | (out, some e) => { out, ended := .raised e }

/-! ## check_file -/

/-- the content of the file `args.file`, as it is read by `zipfile`, `json` and `ElementTree` -/
structure FileArg where
  zip : Except Str (Opc.Zip × (Str → File.Content Json Xml))
  content : File.Content Json Xml

/-- the options of `check_file`; `none` for options that are not given -/
structure FileArgs where
  file : FileArg
  modelType : Option Str := none
  format : Option Str := none
  output : Option Str := none

/-- `parser.error(...)` of `argparse`: usage and message on standard error -/
def usage (message : Str) : Outcome := { err := [message], ended := .exit 2 }

/-- __main__.py 56-65: the check -/
def checkFile (g : File.Engine Json Xml) (file : FileArg) (modelType : Str) : Format → Except Exc (Res Str)
  | .aasx =>
    if modelType ≠ py!"Environment" then .error ⟨.generic, py!"Cannot set --model_type for --format aasx"⟩
    else (File.checkAasxFile g file.zip).mapError excOf
  | .json => (File.checkJsonFile g file.content modelType).mapError excOf
  | .xml => (File.checkXmlFile g file.content modelType).mapError excOf

/-- __main__.py 38-74 `run_file_test` -/
def runFileTest (c : Console) (g : File.Engine Json Xml) (args : FileArgs) : Outcome :=
  match Format.ofText (args.format.getD py!"aasx") with
  | none => usage py!"argument --format"
  | some format =>
    match Output.ofText (args.output.getD py!"text") with
    | none => usage py!"argument --output"
    | some output =>
      match checkFile g args.file (args.modelType.getD py!"Environment") format with
      | .error e => { ended := .raised e }
      | .ok result => report c output result

/-! ## check_server -/

/-- `s.split(":", 1)` unpacked into two variables; `none` is `ValueError` -/
def splitOnce (sep : Nat) : Str → Option (Str × Str)
  | [] => none
  | c :: s => if c = sep then some ([], s) else (splitOnce sep s).map fun r => (c :: r.1, r.2)

/-- __main__.py 30-35 `_parse_header_value`; `none` is `ArgumentTypeError` -/
def parseHeaderValue (s : Str) : Option (Str × Str) :=
  (splitOnce (pc! ':') s).map fun r => (Py.strip r.1, Py.strip r.2)

/-- the values of `--header`; `none` if one is rejected -/
def parseHeaders : List Str → Option (List (Str × Str))
  | [] => some []
  | s :: l =>
    match parseHeaderValue s, parseHeaders l with
    | some h, some hs => some (h :: hs)
    | _, _ => none

/-- `d[k] = v` -/
def setKey (k v : Str) : List (Str × Str) → List (Str × Str)
  | [] => [(k, v)]
  | e :: d => if e.1 = k then (k, v) :: d else e :: setKey k v d

/-- `dict(pairs)` -/
def dictOf (pairs : List (Str × Str)) : List (Str × Str) := pairs.foldl (fun d e => setKey e.1 e.2 d) []

/-- the options of `check_server`; `none` for options that are not given -/
structure ServerArgs where
  server : Str
  suite : Str
  header : List Str := []
  dry : Bool := false
  version : Option Str := none
  noVerify : Bool := false
  filter : Option Str := none
  removePathPrefix : Option Str := none
  output : Option Str := none

/-- `--filter`: `none` if it is rejected (`InvalidFilterException`, which `argparse` does not catch) -/
def filterOf : Option Str → Option (Option Config.Filter)
  | none => some none
  | some s => (Config.mkFilter s).map some

def item (s : Str) : Str := py!" - " ++ s

/-- __main__.py 122-133: client and configuration -/
def clientOf (args : ServerArgs) (headers : List (Str × Str)) : Client :=
  Client.init args.server (!args.noVerify) (args.removePathPrefix.getD []) (dictOf headers)

def confOf (args : ServerArgs) (version suite : Str) (filter : Option Config.Filter) : Conf :=
  { suite := suite, version := some version, dry := args.dry, filter := filter }

/-- api.py 12-13 `supported_versions` -/
def supportedVersions (suites : List (Str × List Op)) : List (Str × List Str) := [(py!"3.0", suites.map (·.1))]

/-- __main__.py 106-144 -/
def runSuites (c : Console) (suites : List (Str × List Op)) (args : ServerArgs) (headers : List (Str × Str)) (filter : Option Config.Filter)
    (output : Output) : ApiM Outcome :=
  let version := args.version.getD py!"3.0"
  match (supportedVersions suites).find? fun v => v.1 == version with
  | none => .pure { err := [py!"Unknown version"], ended := .raised ⟨.unboundLocalError, py!"available_suites"⟩ }
  | some (_, available) =>
    match available.filter fun i => Py.contains i args.suite with
    | [] => .pure { err := (py!"Unknown suite") :: available.map item, ended := .exit 1 }
    | [suite] =>
      (executeTests suites (clientOf args headers) (confOf args version suite filter)).bind fun r =>
      .pure (report c output r.1)
    | several => .pure { err := (py!"Substring is not unique") :: several.map item, ended := .exit 1 }

/-- __main__.py 77-144 `run_api_test` -/
def runApiTest (c : Console) (suites : List (Str × List Op)) (args : ServerArgs) : ApiM Outcome :=
  match parseHeaders args.header with
  | none => .pure (usage py!"argument --header")
  | some headers =>
    match filterOf args.filter with
    | none => .raise ⟨.generic, py!"Separator ~ must only occur once"⟩
    | some filter =>
      match Output.ofText (args.output.getD py!"text") with
      | none => .pure (usage py!"argument --output")
      | some output => runSuites c suites args headers filter output

/-! ## generate_files, main -/

/-- __main__.py 147-158 `generate_files`; `file.generate` does not exist -/
def generateFiles (directory : Str) (directoryExists : Bool) : Outcome :=
  if directoryExists then { out := [py!"Directory '" ++ (directory ++ py!"' already exists, please remove it")], ended := .exit 1 }
  else { ended := .raised (excOf .attributeError) }

/-- `argparse`: the texts of the options, or the outcome of `parser.error`, `--help`, ... -/
structure Parsers where
  file : List Str → Except Outcome FileArgs
  server : List Str → Except Outcome ServerArgs
  directory : List Str → Except Outcome (Str × Bool)

/-- __main__.py 168-186 `main`; `argv` without the name of the program -/
def main (p : Parsers) (c : Console) (g : File.Engine Json Xml) (suites : List (Str × List Op)) (argv : List Str) : ApiM Outcome :=
  match argv with
  | [] => .pure { out := [py!"Usage"], ended := .exit 1 }
  | command :: rest =>
    if command = py!"check_file" then
      match p.file rest with
      | .error o => .pure o
      | .ok args => .pure (runFileTest c g args)
    else if command = py!"check_server" then
      match p.server rest with
      | .error o => .pure o
      | .ok args => runApiTest c suites args
    else if command = py!"generate_files" then
      match p.directory rest with
      | .error o => .pure o
      | .ok (d, e) => .pure (generateFiles d e)
    else .pure { out := [py!"Unknown command"], ended := .exit 1 }

end Verif.Cli
