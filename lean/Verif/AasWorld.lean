import Verif.Reflect
import Verif.Model

/-!
# The classes of the meta-model as seen by reflection, and the symbol table (model.py 1469)
-/

namespace Verif.Aas
open Verif Verif.Reflect

abbrev AAnn := Ann Cls EnumCls SfvCls

/-- module of the classes -/
def modName (s : Str) : Str := py!"aas_test_engines.test_cases.v3_0.model." ++ s

/-- `typing._type_repr`, the text of an item type -/
def reprOf : AAnn → Str
  | .cls c => modName c.pyName
  | .sfv s => modName s.pyName
  | .enum e => modName e.pyName
  | .none => py!"None"
  | .bool => py!"bool"
  | .str => py!"str"
  | .any => py!"any"
  | .int => py!"int"
  | .bytes => py!"bytes"
  | .list i true => py!"typing.List[" ++ reprOf i ++ py!"]"
  | .list i false => py!"aas_test_engines.reflect.NonEmptyList[" ++ reprOf i ++ py!"]"
  | .optional a => py!"typing.Optional[" ++ reprOf a ++ py!"]"
  | .forward n => py!"ForwardRef('" ++ n ++ py!"')"
  | .other t => t

/-- `str(cls)` -/
def keyOf : AAnn → Str
  | .cls c => py!"<class '" ++ modName c.pyName ++ py!"'>"
  | .sfv s => py!"<class '" ++ modName s.pyName ++ py!"'>"
  | .enum e => py!"<enum '" ++ e.pyName ++ py!"'>"
  | .none => py!"None"
  | .bool => py!"<class 'bool'>"
  | .str => py!"<class 'str'>"
  | .any => py!"<built-in function any>"
  | .int => py!"<class 'int'>"
  | .bytes => py!"<class 'bytes'>"
  | a => reprOf a

/-- types of the schema as annotations -/
def toAnn : Parse.Ty Cls EnumCls SfvCls → AAnn
  | .str => .str
  | .none => .none
  | .number => .int
  | .bytes => .bytes
  | .bool => .bool
  | .any => .any
  | .enum e => .enum e
  | .sfv s => .sfv s
  | .cls c => .cls c
  | .list i ae => .list (toAnn i) ae

/-- `dataclasses.fields`; the only forward reference is `Optional["Reference"]` (model.py 300) -/
def pfields (c : Cls) : List (PField Cls EnumCls SfvCls) :=
  (fieldsOf c).map fun f =>
    match f.slot with
    | .excluded => ⟨f.name.pyName, .other py!"Optional[IdShortPath]", true, none⟩
    | .attr _ ty req =>
      let a := if f.name = .referredSemanticId then .forward py!"Reference" else toAnn ty
      ⟨f.name.pyName, if req then a else .optional a, false, none⟩

def world : World Cls EnumCls SfvCls where
  key := keyOf
  fields := pfields
  direct := directSubclasses
  isAbstract := isAbstract
  isDataclass := fun _ => true
  names := fun n => if n = py!"Reference" then some (.cls .reference) else none
  height := 6

end Verif.Aas
