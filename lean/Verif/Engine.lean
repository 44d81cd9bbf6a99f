import Verif.AasSymbols
import Verif.Templates
import Verif.File

/-!
# Model of `aas_test_engines/test_cases/v3_0/__init__.py`: the checks of data against the meta-model

The adapters work on trees of known size, which bounds the recursion of the parser.
-/

namespace Verif.Engine
open Verif Verif.Parse Verif.Aas Verif.Reflect

/-- reflect.py 237-244 `symbol_table.lookup`, on the table of the meta-model (model.py 1469, `C60_model`); `C51_table` shows that this is
`Reflect.lookup` on that table -/
def symbol (typeName : Str) : Except PyExc AAnn :=
  match symbolTypes.filter (fun a => Py.endsWith (keyOf a) (pc! '.' :: typeName ++ py!"'>")) with
  | [a] => .ok a
  | _ => .error .valueError

/-- the type of the schema for an annotation -/
def ofAnn : AAnn → Ty Cls EnumCls SfvCls
  | .none => .none
  | .bool => .bool
  | .str => .str
  | .any => .any
  | .int => .number
  | .bytes => .bytes
  | .enum e => .enum e
  | .sfv s => .sfv s
  | .cls c => .cls c
  | .list i ae => .list (ofAnn i) ae
  | .optional a => ofAnn a
  | .forward _ => .none
  | .other _ => .none

/-- `__init__.py` 9-14 and 17-22, for both formats -/
def toObj {A : Type} (ops : Ops A) (lim : Option Nat) (fuel : Nat) (value : A) (modelType : Str) : Except PyExc (Res Note × AVal) := do
  let reflection ← symbol modelType
  let (result, env) ← parseAndCheck ops (schema lim) Fld.pyName (checks lim) fuel (ofAnn reflection) value
  if result.ok then
    let result ← Templates.parseSubmodelTemplates result env
    return (result, env)
  else return (result, env)

/-- `__init__.py` 9-14 `json_to_obj` -/
def jsonToObj (lim : Option Nat) (value : Json) (modelType : Str) : Except PyExc (Res Note × AVal) :=
  toObj jsonOps lim (value.size + 1) ⟨value, []⟩ modelType

/-- `__init__.py` 17-22 `xml_to_obj` -/
def xmlToObj (lim : Option Nat) (value : Xml) (modelType : Str) : Except PyExc (Res Note × AVal) :=
  toObj xmlOps lim (value.size + 1) ⟨value, []⟩ modelType

mutual
/-- a result with its messages as texts -/
def render (text : Note → Str) : Res Note → Res Str
  | .mk m l subs => .mk (text m) l (renderL text subs)
def renderL (text : Note → Str) : List (Res Note) → List (Res Str)
  | [] => []
  | r :: rs => render text r :: renderL text rs
end

/-- The checks used by `file.py`; the wording of the messages (`text`) is a parameter. -/
def engine (text : Note → Str) (lim : Option Nat) : File.Engine Json Xml where
  json data modelType := (jsonToObj lim data modelType).map fun p => render text p.1
  xml data modelType := (xmlToObj lim data modelType).map fun p => render text p.1

end Verif.Engine
