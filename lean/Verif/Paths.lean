import Verif.Model

/-! # The text of an idShort path (model.py 39-50) -/

namespace Verif.Aas
open Verif Verif.Parse

/-- model.py 40-47 `token_to_string` -/
def tokStr : Tok → Str
  | .unnamed => py!"?"
  | .idx n => Py.natStr n
  | .name s => s

/-- model.py 39-50 `IdShortPath.__str__`: `ri` and `rid` are the idShort and the id of the submodel -/
def pathStr (ri : Option Str) (rid : Str) (toks : List Tok) : Str :=
  Py.join py!"." (toks.map tokStr) ++ py!" in Submodel " ++ ri.getD [] ++ py!"[" ++ rid ++ py!"]"

end Verif.Aas
