import Verif.Parse

/-!
# The texts of lines of reports

`/repo/aas_test_engines/test_cases/v3_0/adapter.py` 5-15 and the f-strings `f"{...} @ {path}"` of `parse.py` 51, 59, 68, 76, 84, 89, 97, 105, 116, 122,
124, 137, 152 and 198. What stands in front of the place (`say`) is a parameter: it depends on the wording of exceptions.
-/

namespace Verif.Parse
open Verif

/-- `str(i)` of an element of a path -/
def PTok.text : PTok → Str
  | .key k => k
  | .idx n => Py.natStr n

/-- adapter.py 14-15 `AdapterPath.__str__` -/
def pathText (p : List PTok) : Str := py!"/" ++ Py.join py!"/" (p.map PTok.text)

/-- the text of a line about a place -/
def lineText (say : Kind → Str) (n : Note) : Str := say n.kind ++ py!" @ " ++ pathText n.path

end Verif.Parse
