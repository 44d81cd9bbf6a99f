import Verif.Generate

/-!
# Model of Python's `json.dumps` (`json/encoder.py`, `_json.c` of Python 3.11) with default arguments

Used in __main__.py 71, 142 (results) and http.py 28, 56 (bodies of requests). `real` gives the text of a number that is no integer (`float.__repr__`);
numbers that are equal to an integer are written as integers. Names of members are texts. `ValueError` for integers with more than
`sys.get_int_max_str_digits()` digits is left out: the integers of results are levels.
-/

namespace Verif.JsonText
open Verif Verif.Generate

mutual
/-- `_iterencode` -/
def dumps (real : Nat → Str) : Json → Str
  | .null => py!"null"
  | .bool true => py!"true"
  | .bool false => py!"false"
  | .num i => intStr i
  | .float n => real n
  | .str s => dumpsStr s
  | .arr l => pc! '[' :: (dumpsElements real l ++ [pc! ']'])
  | .obj kvs => pc! '{' :: (dumpsMembers real kvs ++ [pc! '}'])
/-- `_iterencode_list` -/
def dumpsElements (real : Nat → Str) : List Json → Str
  | [] => []
  | [j] => dumps real j
  | j :: k :: l => dumps real j ++ (py!", " ++ dumpsElements real (k :: l))
/-- `_iterencode_dict` -/
def dumpsMembers (real : Nat → Str) : List (Str × Json) → Str
  | [] => []
  | [(n, j)] => dumpsStr n ++ (py!": " ++ dumps real j)
  | (n, j) :: k :: l => dumpsStr n ++ (py!": " ++ (dumps real j ++ (py!", " ++ dumpsMembers real (k :: l))))
end

end Verif.JsonText
