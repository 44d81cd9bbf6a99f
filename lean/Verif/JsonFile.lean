import Verif.JsonBytes
import Verif.File

/-!
# Model of what `json.load` makes of a file that is opened for bytes (`json/__init__.py`, `json/decoder.py` of Python 3.11)

`check_json_file` (file.py 31-36) turns `JSONDecodeError` into a result and passes every other exception on.
-/

namespace Verif.JsonText
open Verif Verif.File

/-- `str(JSONDecodeError(msg, doc, pos))`: `doc.count('\n', 0, pos) + 1` and `pos - doc.rfind('\n', 0, pos)` -/
def errorText (doc msg : Str) (left : Nat) : Str :=
  let before := doc.take (doc.length - left)
  msg ++ (py!": line " ++ (Py.natStr (before.count 10 + 1) ++ (py!" column " ++
    (Py.natStr ((before.reverse.takeWhile (· != 10)).length + 1) ++ (py!" (char " ++ (Py.natStr before.length ++ py!")"))))))

/-- `json.load` -/
def load (p : Nums) (b : List Nat) : Except Unread Json :=
  match decodeBytes (detectEncoding b) b with
  | none => .error (.raised .unicodeDecodeError)
  | some s =>
    match decode p s with
    | .ok j => .ok j
    | .error (.syntax m n) => .error (.malformed (errorText s m n))
    | .error (.raised e) => .error (.raised e)

/-- a file with these bytes; `xml` is what the XML parser makes of it -/
def ofBytes {X : Type} (p : Nums) (xml : Except Unread X) (b : List Nat) : Content Json X := ⟨load p b, xml⟩

end Verif.JsonText
