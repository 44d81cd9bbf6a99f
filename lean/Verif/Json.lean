import Verif.Py

/-!
# JSON values as produced by `json.load`

Python dictionaries keep insertion order and have unique keys; an object is modelled as an
association list. `Json.WF` says that keys are unique in every object (which `json.load` ensures).
`num` stands for numbers that are equal to an integer (`1`, `1.0`), `float` for all other numbers;
the tag of `float` is an arbitrary identification of the number.
-/

namespace Verif

inductive Json
  | null
  | bool (b : Bool)
  | num (i : Int)
  | float (tag : Nat)
  | str (s : Str)
  | arr (l : List Json)
  | obj (kvs : List (Str × Json))
  deriving Inhabited, Repr

mutual
/-- number of nodes of a JSON value -/
def Json.size : Json → Nat
  | .arr l => 1 + Json.sizeL l
  | .obj kvs => 1 + Json.sizeO kvs
  | _ => 1
def Json.sizeL : List Json → Nat
  | [] => 0
  | j :: js => j.size + Json.sizeL js
def Json.sizeO : List (Str × Json) → Nat
  | [] => 0
  | (_, j) :: js => j.size + Json.sizeO js
end

/-- Dictionary lookup `d[k]` in an association list; `none` is `KeyError`. -/
def dictGet {α : Type} (k : Str) : List (Str × α) → Option α
  | [] => none
  | (k', v) :: rest => if k' = k then some v else dictGet k rest

end Verif
