import Verif.Telling
import Verif.Engine
import Verif.Messages

/-!
# Reports with texts

`parse.py` 190-219 with the texts of the lines. The texts of the constraints are those of `Messages.lean`.
-/

namespace Verif.Parse
open Verif

section
variable {A C E S F : Type}

/-- a heading -/
def heading (t : Str) : Line := ⟨.title t, t, []⟩

/-- parse.py 217 -/
def skippedLine : Line := ⟨.skipped, py!"Skipped checking of constraints", []⟩

/-- what is shown of a line; only headings have no place -/
def Line.said (l : Line) : Str :=
  match l.kind with
  | .title _ => l.text
  | .skipped => l.text
  | _ => l.shown

/-- the lines of `check_constraints`, parse.py 198, 212 -/
def Note.line (n : Note) : Line :=
  match n.kind with
  | .title t => ⟨n.kind, t, n.path⟩
  | .constraint t => ⟨n.kind, t, n.path⟩
  | _ => ⟨n.kind, [], n.path⟩

/-- parse.py 208-219 `_parse_and_check` -/
def tellAndCheck (W : Words) (ops : TOps A) (sc : Schema C E S F) (tx : Texts E S) (name : F → Str) (checks : C → List (Val C E S F → Chk Unit))
    (fuel : Nat) (ty : Ty C E S) (a : A) : Except PyExc (Res Line × Val C E S F) :=
  match tellF W ops sc tx fuel ty a (Res.new (heading py!"Check meta model")) with
  | .error e => .error e
  | .ok (env, resultMetaModel) =>
    let resultRoot := (Res.new (heading py!"Check")).append resultMetaModel
    if resultRoot.ok then
      match checkConstraints name checks env [] (Res.new ⟨.title py!"Check constraints", []⟩) with
      | .error e => .error e
      | .ok resultConstraints => .ok (resultRoot.append (resultConstraints.mapMsg Note.line), env)
    else .ok (resultRoot.append (Res.new skippedLine .warning), env)

end
end Verif.Parse

namespace Verif.Engine
open Verif Verif.Parse Verif.Aas

/-- `__init__.py` 10-11 and 18-19: the report before the checks of submodel templates -/
def tellObj {A : Type} (W : Words) (ops : TOps A) (lim : Option Nat) (fuel : Nat) (value : A) (modelType : Str) : Except PyExc (Res Line × AVal) := do
  let reflection ← symbol modelType
  tellAndCheck W ops (schema lim) (texts lim) Fld.pyName (tells lim) fuel (ofAnn reflection) value

/-- `__init__.py` 10-11, parse.py 222-223 -/
def jsonTell (W : Words) (lim : Option Nat) (value : Json) (modelType : Str) : Except PyExc (Res Line × AVal) :=
  tellObj W (jsonTells W) lim (value.size + 1) ⟨value, []⟩ modelType

/-- `__init__.py` 18-19, parse.py 226-227 -/
def xmlTell (W : Words) (lim : Option Nat) (value : Xml) (modelType : Str) : Except PyExc (Res Line × AVal) :=
  tellObj W (xmlTells W) lim (value.size + 1) ⟨value, []⟩ modelType

end Verif.Engine
