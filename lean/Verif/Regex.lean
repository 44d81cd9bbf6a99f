import Verif.Py

/-!
# Regular expressions

Python's `re` module is not part of /repo, but almost all value checks are regular expressions, so
the part of `re` that is used is modelled here: the pattern syntax (`parse`), and `fullmatch` and
anchored `match` (`Pat.fullmatch`, `Pat.match`). Since the patterns contain no look-around and no back
references, backtracking search succeeds iff the text is in the language of the pattern; `Matches`
defines the language and `test` decides it (`test_iff`).

Used by data_types.py 80-323, 359-409, reflect.py 73-84, model.py 65-186 and 637.
-/

namespace Verif

inductive Re
  | empty
  | eps
  /-- one character (not) in one of the ranges -/
  | cls (neg : Bool) (rs : List (Nat × Nat))
  | seq (a b : Re)
  | alt (a b : Re)
  | star (a : Re)
  deriving DecidableEq, Repr, Inhabited

namespace Re

/-- is the character in the class `[...]` / `[^...]`? -/
def inCls (neg : Bool) (rs : List (Nat × Nat)) (c : Nat) : Bool :=
  rs.any (fun r => r.1 ≤ c && c ≤ r.2) != neg

/-- the language of a regular expression -/
inductive Matches : Re → Str → Prop
  | eps : Matches .eps []
  | cls {neg : Bool} {rs : List (Nat × Nat)} {c : Nat} : inCls neg rs c = true → Matches (.cls neg rs) [c]
  | seq {a b : Re} {s t : Str} : Matches a s → Matches b t → Matches (.seq a b) (s ++ t)
  | altL {a b : Re} {s : Str} : Matches a s → Matches (.alt a b) s
  | altR {a b : Re} {s : Str} : Matches b s → Matches (.alt a b) s
  | starNil {a : Re} : Matches (.star a) []
  | starCons {a : Re} {s t : Str} : Matches a s → Matches (.star a) t → Matches (.star a) (s ++ t)

/-- does the empty string match? -/
def nullable : Re → Bool
  | .empty => false
  | .eps => true
  | .cls _ _ => false
  | .seq a b => a.nullable && b.nullable
  | .alt a b => a.nullable || b.nullable
  | .star _ => true

def mkSeq : Re → Re → Re
  | .empty, _ => .empty
  | .eps, b => b
  | a, b => .seq a b

def mkAlt : Re → Re → Re
  | .empty, b => b
  | a, .empty => a
  | a, b => .alt a b

/-- what remains to be matched after the character `c` -/
def deriv (c : Nat) : Re → Re
  | .empty => .empty
  | .eps => .empty
  | .cls neg rs => if inCls neg rs c then .eps else .empty
  | .seq a b => if a.nullable then mkAlt (mkSeq (deriv c a) b) (deriv c b) else mkSeq (deriv c a) b
  | .alt a b => mkAlt (deriv c a) (deriv c b)
  | .star a => mkSeq (deriv c a) (.star a)

/-- decides whether the whole text matches -/
def test : Re → Str → Bool
  | r, [] => r.nullable
  | r, c :: s => (deriv c r).test s

/-! ## combinators, as produced by the parser -/

def lit (c : Nat) : Re := .cls false [(c, c)]
def opt (r : Re) : Re := .alt .eps r
def plus (r : Re) : Re := .seq r (.star r)
/-- exactly `n` times -/
def pow (r : Re) : Nat → Re
  | 0 => .eps
  | n + 1 => .seq r (pow r n)
/-- at most `n` times -/
def upTo (r : Re) : Nat → Re
  | 0 => .eps
  | n + 1 => .alt .eps (.seq r (upTo r n))
/-- sequence of items -/
def seqs : List Re → Re
  | [] => .eps
  | [r] => r
  | r :: rs => .seq r (seqs rs)
/-- alternatives -/
def alts : List Re → Re
  | [] => .empty
  | [r] => r
  | r :: rs => .alt r (alts rs)

/-! ## pattern syntax -/

/-- an open group: finished alternatives, items of the current one (both newest first), and whether
the newest item may get a quantifier -/
structure Frame where
  alts : List Re
  items : List Re
  fresh : Bool

def Frame.new : Frame := ⟨[], [], false⟩
def Frame.push (f : Frame) (r : Re) : Frame := { f with items := r :: f.items, fresh := true }
def Frame.bar (f : Frame) : Frame := ⟨seqs f.items.reverse :: f.alts, [], false⟩
def Frame.close (f : Frame) : Re := Re.alts (seqs f.items.reverse :: f.alts).reverse

/-- `q` applied to the newest item; `none`: "nothing to repeat" or "multiple repeat" -/
def Frame.quant (f : Frame) (q : Re → Re) : Option Frame :=
  match f.items with
  | [] => none
  | r :: rs => if f.fresh then some { f with items := q r :: rs, fresh := false } else none

/-- a character class being read -/
structure ClsSt where
  neg : Bool
  start : Bool
  acc : List (Nat × Nat)
  lo : Option Nat
  dash : Bool

/-- the next character of a class that is not an operator -/
def ClsSt.char (k : ClsSt) (c : Nat) : ClsSt :=
  match k.lo, k.dash with
  | some l, true => { k with start := false, acc := (l, c) :: k.acc, lo := none, dash := false }
  | some l, false => { k with start := false, acc := (l, l) :: k.acc, lo := some c }
  | none, _ => { k with start := false, lo := some c, dash := false }

def ClsSt.done (k : ClsSt) : Re :=
  let acc := match k.lo with
    | some l => (l, l) :: k.acc
    | none => k.acc
  .cls k.neg (if k.dash then (pc! '-', pc! '-') :: acc else acc).reverse

inductive Mode
  | norm
  | esc
  | clsStart
  | cls (k : ClsSt)
  | clsEsc (k : ClsSt)
  /-- `n` more hex digits of `\xhh`, `\uhhhh`, `\Uhhhhhhhh` -/
  | clsHex (k : ClsSt) (n : Nat) (acc : Nat)
  | brace (acc : Nat)
  | brace2 (lo : Nat) (acc : Option Nat)

def hexVal (c : Nat) : Option Nat :=
  if pc! '0' ≤ c && c ≤ pc! '9' then some (c - pc! '0')
  else if pc! 'a' ≤ c && c ≤ pc! 'f' then some (c - pc! 'a' + 10)
  else if pc! 'A' ≤ c && c ≤ pc! 'F' then some (c - pc! 'A' + 10)
  else none

def isDigit (c : Nat) : Bool := pc! '0' ≤ c && c ≤ pc! '9'
def isLetter (c : Nat) : Bool := (pc! 'a' ≤ c && c ≤ pc! 'z') || (pc! 'A' ≤ c && c ≤ pc! 'Z')

/-- Reads a pattern. `none`: not a pattern of the supported part of the syntax. -/
def parseGo : Mode → Frame → List Frame → Str → Option Re
  | .norm, f, [], [] => some f.close
  | _, _, _, [] => none
  | .norm, f, fs, c :: s =>
    if c = pc! '(' then parseGo .norm .new (f :: fs) s
    else if c = pc! ')' then
      match fs with
      | [] => none
      | g :: gs => parseGo .norm (g.push f.close) gs s
    else if c = pc! '|' then parseGo .norm f.bar fs s
    else if c = pc! '?' then
      match f.quant opt with
      | some g => parseGo .norm g fs s
      | none => none
    else if c = pc! '*' then
      match f.quant .star with
      | some g => parseGo .norm g fs s
      | none => none
    else if c = pc! '+' then
      match f.quant plus with
      | some g => parseGo .norm g fs s
      | none => none
    else if c = pc! '{' then parseGo (.brace 0) f fs s
    else if c = pc! '[' then parseGo .clsStart f fs s
    else if c = pc! '\\' then parseGo .esc f fs s
    else if c = pc! '.' then parseGo .norm (f.push (.cls true [(10, 10)])) fs s
    else if c = pc! '^' || c = pc! '$' then none
    else parseGo .norm (f.push (lit c)) fs s
  | .esc, f, fs, c :: s =>
    if isDigit c || isLetter c then none else parseGo .norm (f.push (lit c)) fs s
  | .clsStart, f, fs, c :: s =>
    if c = pc! '^' then parseGo (.cls ⟨true, true, [], none, false⟩) f fs s
    else if c = pc! '\\' then parseGo (.clsEsc ⟨false, true, [], none, false⟩) f fs s
    else parseGo (.cls (ClsSt.char ⟨false, true, [], none, false⟩ c)) f fs s
  | .cls k, f, fs, c :: s =>
    if c = pc! ']' && !k.start then parseGo .norm (f.push k.done) fs s
    else if c = pc! '\\' then parseGo (.clsEsc k) f fs s
    else if c = pc! '-' && k.lo.isSome && !k.dash then parseGo (.cls { k with dash := true }) f fs s
    else parseGo (.cls (k.char c)) f fs s
  | .clsEsc k, f, fs, c :: s =>
    if c = pc! 't' then parseGo (.cls (k.char 9)) f fs s
    else if c = pc! 'x' then parseGo (.clsHex k 2 0) f fs s
    else if c = pc! 'u' then parseGo (.clsHex k 4 0) f fs s
    else if c = pc! 'U' then parseGo (.clsHex k 8 0) f fs s
    else if isDigit c || isLetter c then none
    else parseGo (.cls (k.char c)) f fs s
  | .clsHex k n acc, f, fs, c :: s =>
    match hexVal c with
    | none => none
    | some d =>
      if n = 1 then parseGo (.cls (k.char (acc * 16 + d))) f fs s
      else parseGo (.clsHex k (n - 1) (acc * 16 + d)) f fs s
  | .brace acc, f, fs, c :: s =>
    if isDigit c then parseGo (.brace (acc * 10 + (c - pc! '0'))) f fs s
    else if c = pc! ',' then parseGo (.brace2 acc none) f fs s
    else if c = pc! '}' then
      match f.quant (fun r => pow r acc) with
      | some g => parseGo .norm g fs s
      | none => none
    else none
  | .brace2 lo acc, f, fs, c :: s =>
    if isDigit c then parseGo (.brace2 lo (some (acc.getD 0 * 10 + (c - pc! '0')))) f fs s
    else if c = pc! '}' then
      match acc with
      | none =>
        match f.quant (fun r => .seq (pow r lo) (.star r)) with
        | some g => parseGo .norm g fs s
        | none => none
      | some hi =>
        match f.quant (fun r => .seq (pow r lo) (upTo r (hi - lo))) with
        | some g => parseGo .norm g fs s
        | none => none
    else none

/-- `re.compile(p)` for a pattern without anchors -/
def parse (p : Str) : Option Re := parseGo .norm .new [] p

/-- the body of `^body$` (the alternatives of the patterns in use are always inside a group) -/
def unanchor (p : Str) : Option Str :=
  match p with
  | c :: rest => if c = pc! '^' ∧ rest.getLast? = some (pc! '$') then some rest.dropLast else none
  | [] => none

/-- `re.fullmatch(p, s) is not None` -/
def fullmatch (r : Re) (s : Str) : Bool := r.test s

/-- `re.compile("^p$").match(s) is not None`: `$` also matches before a final line feed -/
def anchoredMatch (r : Re) (s : Str) : Bool :=
  r.test s || (s.getLast? == some 10 && r.test s.dropLast)

end Re
end Verif
