/-!
# Python strings and the few built-ins used by the modelled code

A Python `str` is a sequence of code points. Lone surrogates (U+D800..U+DFFF) are allowed, exactly
as in Python (e.g. `json.loads('"\\ud800"')`), so `List Nat` is used and not `List Char`.
-/

namespace Verif

/-- A Python `str`: the list of its code points. -/
abbrev Str := List Nat

/-- `py!"abc"` is the list of code points of the literal, expanded at elaboration time. -/
syntax:max "py!" str : term
/-- `pc! 'a'` is the code point of the character, as a numeral. -/
syntax:max "pc!" char : term

open Lean in
macro_rules
  | `(py! $s:str) => do
      let elems := s.getString.toList.toArray.map fun c => Syntax.mkNumLit (toString c.toNat)
      `(([$elems,*] : List Nat))
  | `(pc! $c:char) => return Syntax.mkNumLit (toString c.getChar.toNat)

/-- Names of Python exception classes that can leave the modelled functions. -/
inductive PyExc
  | attributeError
  | indexError
  | keyError
  | typeError
  | valueError
  | runtimeError
  | notImplementedError
  | unicodeEncodeError
  | unicodeDecodeError
  | stopIteration
  | unboundLocalError
  | parseError
  | generic
  deriving DecidableEq, Repr

namespace Py

/-- `str.isspace` on one code point (CPython 3.11, Unicode 14). -/
def isSpace (c : Nat) : Bool :=
  (9 ≤ c && c ≤ 13) || (0x1c ≤ c && c ≤ 0x20) || c == 0x85 || c == 0xa0 || c == 0x1680 ||
  (0x2000 ≤ c && c ≤ 0x200a) || c == 0x2028 || c == 0x2029 || c == 0x202f || c == 0x205f ||
  c == 0x3000

/-- `str.lstrip()` -/
def lstrip (s : Str) : Str := s.dropWhile isSpace

/-- `str.rstrip()` -/
def rstrip (s : Str) : Str := (s.reverse.dropWhile isSpace).reverse

/-- `str.strip()` -/
def strip (s : Str) : Str := rstrip (lstrip s)

/-- `str.split(sep)` for a one-character separator: always at least one token. -/
def splitOn (sep : Nat) : Str → List Str
  | [] => [[]]
  | c :: cs =>
    if c = sep then [] :: splitOn sep cs
    else
      match splitOn sep cs with
      | [] => [[c]]
      | t :: ts => (c :: t) :: ts

/-- `sep.join(tokens)` -/
def join (sep : Str) : List Str → Str
  | [] => []
  | [t] => t
  | t :: ts => t ++ sep ++ join sep ts

/-- `s.startswith(p)` -/
def startsWith (s p : Str) : Bool := p.isPrefixOf s

/-- `s.endswith(p)` -/
def endsWith (s p : Str) : Bool := p.isSuffixOf s

/-- `p in s` for strings. -/
def contains (s p : Str) : Bool :=
  match s with
  | [] => p.isEmpty
  | _ :: cs => p.isPrefixOf s || contains cs p

/-- `s.rpartition(sep)` without the middle component: text before and after the last `sep`;
`("", s)` if `sep` does not occur. -/
def rpartition (sep : Nat) (s : Str) : Str × Str :=
  if sep ∈ s then
    let r := s.reverse
    (((r.dropWhile (· ≠ sep)).drop 1).reverse, (r.takeWhile (· ≠ sep)).reverse)
  else ([], s)

/-- decimal digits of a number; the fuel is at least the number of digits -/
def natStrF : Nat → Nat → Str
  | 0, _ => []
  | fuel + 1, n => if n < 10 then [48 + n] else natStrF fuel (n / 10) ++ [48 + n % 10]

/-- `str(n)` for a natural number -/
def natStr (n : Nat) : Str := natStrF (n + 1) n

end Py
deriving instance DecidableEq for Except

end Verif
