import Verif.Py
import Verif.Json

/-!
# Model of `aas_test_engines/result.py`, part 1: levels and result trees

`AasTestResult` objects are mutable in Python. Here a result is a value; this is faithful as long
as a result is not modified after it was appended to another one. `ResultHeap.lean` models the
mutable objects and relates both views.
-/

namespace Verif

/-- result.py:12-16 `class Level(Enum)` -/
inductive Level
  | info
  | warning
  | error
  | critical
  deriving DecidableEq, Repr, Inhabited

namespace Level

/-- result.py:13-16, the enum values -/
def value : Level → Nat
  | info => 0
  | warning => 1
  | error => 2
  | critical => 3

/-- `Level(n)`, the enum constructor by value; `none` is `ValueError`. -/
def ofValue : Nat → Option Level
  | 0 => some info
  | 1 => some warning
  | 2 => some error
  | 3 => some critical
  | _ => none

/-- result.py:18-19 `Level.__or__`: `Level(max(self.value, other.value))`.
The `getD` default is never used because the maximum of two enum values is an enum value. -/
def or (a b : Level) : Level := (ofValue (max a.value b.value)).getD critical

/-- result.py:21-28 `Level.color` (escape sequences) -/
def color (l : Level) : Str :=
  if l.value = 0 then 27 :: py!"[92m"
  else if l.value = 1 then 27 :: py!"[93m"
  else if l.value = 2 then 27 :: py!"[91m"
  else 27 :: py!"[94m"

end Level

/-- result.py:31-37 `AasTestResult`; `μ` is the type of messages (`str` in Python). -/
inductive Res (μ : Type) where
  | mk (msg : μ) (level : Level) (subs : List (Res μ))

namespace Res
variable {μ : Type}

def msg : Res μ → μ | mk m _ _ => m
def level : Res μ → Level | mk _ l _ => l
def subs : Res μ → List (Res μ) | mk _ _ s => s

/-- result.py:33-37 `AasTestResult.__init__` -/
def new (m : μ) (l : Level := .info) : Res μ := mk m l []

/-- result.py:39-41 `AasTestResult.append` -/
def append (self r : Res μ) : Res μ := mk self.msg (self.level.or r.level) (self.subs ++ [r])

/-- several appends in a row -/
def appendAll (self : Res μ) (rs : List (Res μ)) : Res μ := rs.foldl append self

/-- result.py:43-44 `AasTestResult.ok` -/
def ok (self : Res μ) : Bool := self.level == .info || self.level == .warning

/-- n blanks times 3: `"   " * indent` (result.py:53) -/
def indentStr : Nat → Str
  | 0 => []
  | n + 1 => py!"   " ++ indentStr n

/-- result.py:52 `ENDC` -/
def endc : Str := 27 :: py!"[0m"

mutual
/-- result.py:51-55 `to_lines` -/
def toLines (indent : Nat) : Res Str → List Str
  | mk m l ss => (indentStr indent ++ l.color ++ m ++ endc) :: toLinesL (indent + 1) ss
def toLinesL (indent : Nat) : List (Res Str) → List Str
  | [] => []
  | r :: rs => toLines indent r ++ toLinesL indent rs
end

/-- `html.escape(s)` with the default `quote=True` (Python library `html/__init__.py`):
`&`, `<`, `>`, `"` and `'` are replaced. -/
def escape : Str → Str
  | [] => []
  | c :: cs =>
    (if c = pc! '&' then py!"&amp;"
     else if c = pc! '<' then py!"&lt;"
     else if c = pc! '>' then py!"&gt;"
     else if c = pc! '"' then py!"&quot;"
     else if c = pc! '\'' then py!"&#x27;"
     else [c]) ++ escape cs

/-- result.py:58-63, CSS class of a level -/
def cssClass : Level → Str
  | .info => py!"info"
  | .warning => py!"warning"
  | .error => py!"error"
  | .critical => py!"critical"

mutual
/-- result.py:57-77 `_to_html` -/
def toHtml (level : Nat) : Res Str → Str
  | mk m l ss =>
    let isOk := l == .info || l == .warning
    let cls := cssClass l
    let s := py!"<div>\n"
    let msg := escape m
    let s :=
      if ss.isEmpty then
        s ++ (py!"<div class=\"" ++ cls ++ py!"\">" ++ msg ++ py!"</div>\n")
      else
        let c := if isOk then [] else py!"caret-down"
        let s := s ++ (py!"<div class=\"" ++ cls ++ py!"\">" ++ msg ++
                    py!"<span class=\"caret level-" ++ Py.natStr level ++ py!" " ++ c ++ py!"\"/></div>\n")
        let c := if isOk then [] else py!"visible"
        let s := s ++ (py!"<div class=\"sub-results " ++ c ++ py!"\">\n")
        let s := s ++ toHtmlL (level + 1) ss
        s ++ py!"</div>\n"
    s ++ py!"</div>\n"
def toHtmlL (level : Nat) : List (Res Str) → Str
  | [] => []
  | r :: rs => toHtml level r ++ toHtmlL level rs
end

mutual
/-- result.py:91-96 `to_dict` -/
def toDict : Res Str → Json
  | mk m l ss => .obj [(py!"m", .str m), (py!"l", .num l.value), (py!"s", .arr (toDictL ss))]
def toDictL : List (Res Str) → List Json
  | [] => []
  | r :: rs => toDict r :: toDictL rs
end

/-- `Level(v)` for a JSON value `v` (result.py:100). `True == 1` and `1.0 == 1` in Python, hence
booleans and integral floats are found; anything else is `ValueError`. -/
def levelOfJson : Json → Except PyExc Level
  | .num i => if 0 ≤ i then
      match Level.ofValue i.toNat with
      | some l => .ok l
      | none => .error .valueError
    else .error .valueError
  | .bool b => .ok (if b then .warning else .info)
  | _ => .error .valueError

/-- What `for i in v` iterates over in `from_json` (result.py:101). For a string or a dictionary
the items are strings; only their number matters as `from_json` of a string raises. -/
def iterJson : Json → Except PyExc (List Json)
  | .arr l => .ok l
  | .str s => .ok (s.map fun c => .str [c])
  | .obj kvs => .ok (kvs.map fun kv => .str kv.1)
  | _ => .error .typeError

/-- result.py:99-103 `from_json`, with a fuel that bounds the nesting depth (`fromJson` below uses
enough of it). Messages may be any JSON value (they are not checked). -/
def fromJsonF : Nat → Json → Except PyExc (Res Json)
  | 0, _ => .error .generic
  | fuel + 1, .obj d => do
      let m ← match dictGet py!"m" d with
        | some m => pure m
        | none => throw PyExc.keyError
      let l ← match dictGet py!"l" d with
        | some l => levelOfJson l
        | none => throw PyExc.keyError
      let s ← match dictGet py!"s" d with
        | some s => iterJson s
        | none => throw PyExc.keyError
      s.foldlM (fun v i => do
        let r ← fromJsonF fuel i
        pure (v.append r)) (Res.new m l)
  | _ + 1, _ => .error .typeError

/-- result.py:99-103 `from_json` -/
def fromJson (j : Json) : Except PyExc (Res Json) := fromJsonF (j.size + 1) j

end Res
end Verif
