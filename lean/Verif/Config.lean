import Verif.Py

/-!
# Model of `aas_test_engines/config.py` (test case filters) and of `fnmatch.translate`

`fnmatch.translate` (Python 3.11, `Lib/fnmatch.py`) turns a shell pattern into a regular expression;
here it gives the list of pieces the regular expression consists of, and `matchPat` does what the
regular expression engine does with them.
-/

namespace Verif.Config
open Verif

/-- What `translate` emits for one position of the pattern: `*`, or a test of a single character.
`any` is `.`, `never` is `(?!)`, `set neg chunks` is `[stuff]` where `stuff` is the chunks joined by
`-` (a hyphen between two chunks makes a range). -/
inductive Tok
  | star
  | any
  | never
  | lit (c : Nat)
  | set (neg : Bool) (chunks : List Str)
  deriving DecidableEq

/-- fnmatch.py: after `[`, find the closing bracket. `none` if there is none, otherwise the text
between the brackets and the rest of the pattern. -/
def takeSet (p : Str) : Option (Str × Str) :=
  let j := if p[0]? = some (pc! '!') then 1 else 0
  let j := if p[j]? = some (pc! ']') then j + 1 else j
  let j := j + ((p.drop j).takeWhile (· ≠ pc! ']')).length
  if j ≥ p.length then none else some (p.take j, p.drop (j + 1))

/-- fnmatch.py: `pat.find('-', k, j)`: index of the first hyphen that is not before `k` -/
def findDash (k : Nat) (s : Str) : Option Nat :=
  let t := (s.drop k).takeWhile (· ≠ pc! '-')
  if k + t.length < s.length then some (k + t.length) else none

/-- fnmatch.py: the `while True` loop that splits the set into chunks at range hyphens; `n` bounds
the number of rounds (the length of the string is enough). -/
def splitChunks : (n : Nat) → (k : Nat) → Str → List Str
  | 0, _, s => [s]
  | n + 1, k, s =>
    match findDash k s with
    | none => [s]
    | some i => s.take i :: splitChunks n 2 (s.drop (i + 1))

/-- fnmatch.py: `if chunk: chunks.append(chunk) else: chunks[-1] += '-'` -/
def fixLast : List Str → List Str
  | [] => []
  | [c] => [c]
  | [c, []] => [c ++ [pc! '-']]
  | c :: cs => c :: fixLast cs

/-- fnmatch.py: remove empty ranges, from right to left -/
def mergeEmpty : List Str → List Str
  | [] => []
  | c :: cs =>
    match mergeEmpty cs with
    | [] => [c]
    | d :: ds =>
      if c.getLastD 0 > d.headD 0 then (c.dropLast ++ d.tail) :: ds else c :: d :: ds

/-- fnmatch.py: the regular expression for the text between the brackets. The escaping of
backslashes, hyphens inside of chunks and `&~|^[` makes these characters stand for themselves. -/
def setTok (stuff : Str) : Tok :=
  let chunks :=
    if stuff.contains (pc! '-') then
      mergeEmpty (fixLast (splitChunks stuff.length (if stuff[0]? = some (pc! '!') then 2 else 1) stuff))
    else [stuff]
  match chunks with
  | [[]] => .never
  | [[c]] => if c = pc! '!' then .any else .set false chunks
  | [c] :: d :: rest =>
    -- `^-d...`: a hyphen at the beginning of a set stands for itself
    if c = pc! '!' then .set true ((pc! '-' :: d) :: rest) else .set false chunks
  | (c :: cs) :: rest => if c = pc! '!' then .set true (cs :: rest) else .set false chunks
  | _ => .set false chunks

/-- fnmatch.py `translate`, first part: the loop over the pattern (`n`: length of the pattern is
enough) -/
def toks : (n : Nat) → Str → List Tok
  | 0, _ => []
  | _ + 1, [] => []
  | n + 1, c :: p =>
    if c = pc! '*' then .star :: toks n p
    else if c = pc! '?' then .any :: toks n p
    else if c = pc! '[' then
      match takeSet p with
      | none => .lit (pc! '[') :: toks n p
      | some (stuff, rest) => setTok stuff :: toks n rest
    else .lit c :: toks n p

/-- fnmatch.py: `compress consecutive * into one` -/
def compress : List Tok → List Tok
  | [] => []
  | .star :: ts =>
    match compress ts with
    | .star :: us => .star :: us
    | us => .star :: us
  | t :: ts => t :: compress ts

/-- Membership in a regular expression set: a character of a chunk, or between the last character of
a chunk and the first character of the next one. -/
def inChunks (c : Nat) : List Str → Bool
  | [] => false
  | [a] => a.contains c
  | a :: b :: rest =>
    a.contains c || (a.getLastD 0 ≤ c && c ≤ b.headD 0) || inChunks c (b :: rest)

/-- does a single character piece match the character? -/
def Tok.test (t : Tok) (c : Nat) : Bool :=
  match t with
  | .star => false
  | .any => true
  | .never => false
  | .lit d => c == d
  | .set neg chunks => if neg then !inChunks c chunks else inChunks c chunks

/-- match the pieces at the beginning of the string; the rest of the string -/
def matchFixed : List Tok → Str → Option Str
  | [], s => some s
  | _ :: _, [] => none
  | t :: ts, c :: s => if t.test c then matchFixed ts s else none

/-- `(?>.*?fixed)`: the first position where `fixed` matches, without backtracking -/
def firstFixed (fixed : List Tok) : Str → Option Str
  | [] => matchFixed fixed []
  | c :: s =>
    match matchFixed fixed (c :: s) with
    | some r => some r
    | none => firstFixed fixed s

/-- `.*fixed\Z`: some end of the string matches `fixed` -/
def lastFixed (fixed : List Tok) : Str → Bool
  | [] => matchFixed fixed [] == some []
  | c :: s => matchFixed fixed (c :: s) == some [] || lastFixed fixed s

/-- fnmatch.py `translate`, second part (`STAR fixed STAR fixed ...`), and what the resulting regular
expression matches. The list is what follows a STAR. -/
def matchStars : (n : Nat) → List Tok → Str → Bool
  | 0, _, _ => false
  | n + 1, ts, s =>
    let fixed := ts.takeWhile (· ≠ .star)
    match ts.dropWhile (· ≠ .star) with
    | [] => lastFixed fixed s
    | _ :: rest =>
      match firstFixed fixed s with
      | some s' => matchStars n rest s'
      | none => false

/-- the whole regular expression -/
def matchToks (ts : List Tok) (s : Str) : Bool :=
  match matchFixed (ts.takeWhile (· ≠ .star)) s with
  | none => false
  | some s' =>
    match ts.dropWhile (· ≠ .star) with
    | [] => s'.isEmpty
    | _ :: rest => matchStars (rest.length + 1) rest s'

/-- `re.compile(fnmatch.translate(pat)).match(s)` -/
def matchPat (pat s : Str) : Bool := matchToks (compress (toks pat.length pat)) s

/-- config.py:13-25 `TestCaseFilter.__init__`; `none` is `InvalidFilterException`. -/
structure Filter where
  includes : List Str
  excludes : List Str

def mkFilter (s : Str) : Option Filter :=
  match Py.splitOn (pc! '~') s with
  | [inc] =>
    some ⟨(Py.splitOn (pc! ':') inc).filter (fun i => !(Py.strip i).isEmpty),
          (Py.splitOn (pc! ':') []).filter (fun i => !(Py.strip i).isEmpty)⟩
  | [inc, exc] =>
    some ⟨(Py.splitOn (pc! ':') inc).filter (fun i => !(Py.strip i).isEmpty),
          (Py.splitOn (pc! ':') exc).filter (fun i => !(Py.strip i).isEmpty)⟩
  | _ => none

/-- config.py:27-32 `selects` -/
def Filter.selects (f : Filter) (name : Str) : Bool :=
  if !f.includes.isEmpty && !(f.includes.any fun i => matchPat i name) then false
  else if !f.excludes.isEmpty && (f.excludes.any fun i => matchPat i name) then false
  else true

end Verif.Config
