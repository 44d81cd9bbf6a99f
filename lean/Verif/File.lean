import Verif.Opc

/-!
# Model of `aas_test_engines/file.py`

The checks of data against the meta-model (`json_to_obj`, `xml_to_obj`) are parameters here (`Engine`). What the JSON parser
and the XML parser make of the content of a file is part of the file (`Content`); for JSON this is `loadsBytes` (`ofBytes`).
The parameter `version`, which no function uses, is left out.
-/

namespace Verif.File
open Verif Opc

/-- why a parser gives no data -/
inductive Unread
  /-- `JSONDecodeError`, `ElementTree.ParseError`, with its text -/
  | malformed (text : Str)
  /-- any other exception: unknown encodings, wrong bytes, numbers with too many digits -/
  | raised (e : PyExc)
  deriving DecidableEq

/-- what the parsers make of a file -/
structure Content (J X : Type) where
  json : Except Unread J
  xml : Except Unread X

/-- `json_to_obj` and `xml_to_obj`: data and model type to a result -/
structure Engine (J X : Type) where
  json : J → Str → Except PyExc (Res Str)
  xml : X → Str → Except PyExc (Res Str)

def environment : Str := py!"Environment"

/-- file.py 26-28 `check_json_data` -/
def checkJsonData {J X} (g : Engine J X) (data : J) (modelType : Str) : Except PyExc (Res Str) := g.json data modelType

/-- file.py 31-36 `check_json_file` -/
def checkJsonFile {J X} (g : Engine J X) (file : Content J X) (modelType : Str) : Except PyExc (Res Str) :=
  match file.json with
  | .error (.malformed e) => .ok (Res.new (py!"Invalid JSON: " ++ e) .error)
  | .error (.raised e) => .error e
  | .ok data => checkJsonData g data modelType

/-- file.py 39-43 `check_xml_data` -/
def checkXmlData {J X} (g : Engine J X) (data : X) (modelType : Str) : Except PyExc (Res Str) := g.xml data modelType

/-- file.py 46-51 `check_xml_file`; `check_xml_data` is called with the default for `model_type` -/
def checkXmlFile {J X} (g : Engine J X) (file : Content J X) (_modelType : Str) : Except PyExc (Res Str) :=
  match file.xml with
  | .error (.malformed e) => .ok (Res.new (py!"Invalid xml: " ++ e) .error)
  | .error (.raised e) => .error e
  | .ok data => checkXmlData g data environment

/-- file.py 54-62 -/
def typeOrigin : Str := py!"http://admin-shell.io/aasx/relationships/aasx-origin"
def typeSpec : Str := py!"http://admin-shell.io/aasx/relationships/aas-spec"
def typeSuppl : Str := py!"http://admin-shell.io/aasx/relationships/aas-suppl"
def deprecatedTypes : List (Str × Str) :=
  [(py!"http://www.admin-shell.io/aasx/relationships/aasx-origin", typeOrigin),
   (py!"http://www.admin-shell.io/aasx/relationships/aas-spec", typeSpec),
   (py!"http://www.admin-shell.io/aasx/relationships/aas-suppl", typeSuppl)]

/-- file.py 79-88: one file; the exception `KeyError` comes from `zipfile.open` or from the check -/
def checkSpec {J X} (g : Engine J X) (z : Zip) (files : Str → Content J X) (target : Str) : Except PyExc (Res Str) := do
  let subResult := Res.new (py!"Checking " ++ target)
  if !z.namelist.contains target then throw .keyError
  let r ← if Py.endsWith target py!".xml" then checkXmlFile g (files target) environment
    else if Py.endsWith target py!".json" then checkJsonFile g (files target) environment
    else pure (Res.new py!"Unknown filetype" .warning)
  return subResult.append r

/-- file.py 77-92 `for aasx_spec in spec_rels`; `none`: the function returned early because of a `KeyError` -/
def checkSpecs {J X} (g : Engine J X) (z : Zip) (files : Str → Content J X) : Res Str → List Relationship →
    Except PyExc (Option (Res Str))
  | result, [] => .ok (some result)
  | result, spec :: specs =>
    match checkSpec g z files spec.target with
    | .error .keyError => .ok none
    | .error e => .error e
    | .ok r => checkSpecs g z files (result.append r) specs

/-- file.py 74-92 `for aasx_origin in origin_rels` -/
def checkOrigins {J X} (g : Engine J X) (z : Zip) (files : Str → Content J X) : Res Str → List Relationship →
    Except PyExc (Option (Res Str))
  | result, [] => .ok (some result)
  | result, origin :: origins =>
    let specs := origin.subRelsByType typeSpec
    let result := if specs.isEmpty then result.append (Res.new py!"No aas spec found" .warning) else result
    match checkSpecs g z files result specs with
    | .error e => .error e
    | .ok none => .ok none
    | .ok (some r) => checkOrigins g z files r origins

/-- file.py 65-93 `_check_files` -/
def checkFiles {J X} (g : Engine J X) (z : Zip) (files : Str → Content J X) (root : Relationship) : Except PyExc (Res Str) :=
  let result := Res.new py!"Checking files"
  let origins := root.subRelsByType typeOrigin
  let result := if origins.length ≠ 1
    then result.append (Res.new (py!"Expected exactly one aas origin, but found " ++ Py.natStr origins.length) .warning) else result
  match checkOrigins g z files result origins with
  | .error e => .error e
  | .ok none => .ok (Res.new py!"File does not exist")
  | .ok (some r) => .ok r

/-- file.py 96-107 `check_aasx_data` -/
def checkAasxData {J X} (g : Engine J X) (z : Zip) (files : Str → Content J X) : Except PyExc (Res Str) := do
  let result := Res.new py!"Checking AASX package"
  let (result, rels) ← readOpc z result deprecatedTypes
  if !result.ok then return result
  let r ← checkFiles g z files (.mk py!"ROOT" py!"/" rels)
  return result.append r

/-- file.py 110-116 `check_aasx_file`; the file is an archive or it cannot be read -/
def checkAasxFile {J X} (g : Engine J X) (file : Except Str (Zip × (Str → Content J X))) : Except PyExc (Res Str) :=
  match file with
  | .error e => .ok (Res.new (py!"Cannot read: " ++ e) .error)
  | .ok (z, files) => checkAasxData g z files

end Verif.File
