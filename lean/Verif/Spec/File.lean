import Verif.Spec.Opc
import Verif.File

/-! # Specification of the AASX check (C33, C34, C51) -/

namespace Verif.Spec
open Verif Opc File

/-- a relationship type in its current or its deprecated spelling -/
def IsOrigin (type : Str) : Prop :=
  type = py!"http://admin-shell.io/aasx/relationships/aasx-origin" ∨ type = py!"http://www.admin-shell.io/aasx/relationships/aasx-origin"
def IsSpec (type : Str) : Prop :=
  type = py!"http://admin-shell.io/aasx/relationships/aas-spec" ∨ type = py!"http://www.admin-shell.io/aasx/relationships/aas-spec"

/-- the part `q` is linked as specification by a part that is linked as origin by the package -/
def Linked (top : Str) (z : Zip) (q : Str) : Prop :=
  ∃ ot o dir file st, IsOrigin ot ∧ Declares z [] [] ot o ∧ HasPart z o ∧ Located top o dir file ∧ IsSpec st ∧ Declares z dir file st q

/-- what the check of a file against the meta-model says: by its suffix, or nothing for other files -/
inductive Verdict {J X : Type} (g : Engine J X) (files : Str → Content J X) (q : Str) : Except PyExc (Res Str) → Prop
  | xml (pre data) : q = pre ++ py!".xml" → (files q).xml = .ok data → Verdict g files q (g.xml data py!"Environment")
  | noXml (pre e) : q = pre ++ py!".xml" → (files q).xml = .error (.malformed e) → Verdict g files q (.ok (.mk (py!"Invalid xml: " ++ e) .error []))
  | xmlRaises (pre e) : q = pre ++ py!".xml" → (files q).xml = .error (.raised e) → Verdict g files q (.error e)
  | json (pre data) : q = pre ++ py!".json" → (files q).json = .ok data → Verdict g files q (g.json data py!"Environment")
  | noJson (pre e) : q = pre ++ py!".json" → (files q).json = .error (.malformed e) → Verdict g files q (.ok (.mk (py!"Invalid JSON: " ++ e) .error []))
  | jsonRaises (pre e) : q = pre ++ py!".json" → (files q).json = .error (.raised e) → Verdict g files q (.error e)
  | other : (¬ ∃ pre, q = pre ++ py!".xml") → (¬ ∃ pre, q = pre ++ py!".json") →
      Verdict g files q (.ok (.mk py!"Unknown filetype" .warning []))

/-- the file is a valid environment (or neither XML nor JSON by its name) -/
def Passes {J X : Type} (g : Engine J X) (files : Str → Content J X) (q : Str) : Prop := ∃ r, Verdict g files q (.ok r) ∧ r.ok = true

/-- All relationships to origin parts that can be found are origin relationships of the package. -/
def PlainOrigins (z : Zip) : Prop :=
  ∀ ot o, IsOrigin ot → Declares z [] [] ot o → ∀ dir file type, Reach py!"/" z dir file → Declares z dir file type o →
    dir = [] ∧ file = [] ∧ IsOrigin type

end Verif.Spec
