import Verif.Py

/-! # Specification of glob patterns and filters (C10, C11) -/

namespace Verif.Spec
open Verif

/-- The members of a character set `[...]` as ranges: `a-b` is a range, any other character stands
for itself. -/
def items : Str → List (Nat × Nat)
  | a :: 45 :: b :: rest => (a, b) :: items rest
  | a :: rest => (a, a) :: items rest
  | [] => []

/-- `c` is in one of the ranges -/
def InItems (body : Str) (c : Nat) : Prop := ∃ r ∈ items body, r.1 ≤ c ∧ c ≤ r.2

/-- `[...]` and `[!...]` -/
def InSet : Str → Nat → Prop
  | 33 :: body, c => ¬ InItems body c
  | body, c => InItems body c

/-- `p` (the pattern after `[`) begins with a set text `stuff` that is closed by a bracket. The first
character of the set (after an exclamation mark) may be a closing bracket itself. -/
def IsSet (p stuff rest : Str) : Prop :=
  ∃ neg b bs, stuff = neg ++ b :: bs ∧ p = stuff ++ pc! ']' :: rest ∧ pc! ']' ∉ bs ∧
    (neg = py!"!" ∨ neg = [] ∧ b ≠ pc! '!')

/-- Shell patterns. -/
inductive Glob : Str → Str → Prop
  | nil : Glob [] []
  | star {p s} (a : Str) : Glob p s → Glob (pc! '*' :: p) (a ++ s)
  | any {p s} (c : Nat) : Glob p s → Glob (pc! '?' :: p) (c :: s)
  | set {p stuff rest s} (c : Nat) : IsSet p stuff rest → InSet stuff c → Glob rest s →
      Glob (pc! '[' :: p) (c :: s)
  | unclosed {p s} : (∀ stuff rest, ¬ IsSet p stuff rest) → Glob p s → Glob (pc! '[' :: p) (pc! '[' :: s)
  | lit {p s} (c : Nat) : c ≠ pc! '*' → c ≠ pc! '?' → c ≠ pc! '[' → Glob p s → Glob (c :: p) (c :: s)

/-- leading ranges like `z-a` that contain nothing are skipped -/
def skipEmpty : Str → Str
  | a :: 45 :: b :: rest => if b < a then skipEmpty rest else a :: 45 :: b :: rest
  | s => s

/-- Sets in which no exclamation mark follows directly after reversed ranges at the beginning. -/
def Tame (stuff : Str) : Prop := stuff.head? = some (pc! '!') ∨ (skipEmpty stuff).head? ≠ some (pc! '!')

/-- all sets of a pattern are tame -/
def TamePattern (pat : Str) : Prop :=
  ∀ pre p stuff rest, pat = pre ++ pc! '[' :: p → IsSet p stuff rest → Tame stuff

/-- `ts` are the parts of `s` between the separators. -/
def Parts (sep : Nat) (s : Str) (ts : List Str) : Prop :=
  ts ≠ [] ∧ (∀ t ∈ ts, sep ∉ t) ∧ s = Py.join [sep] ts

/-- a string of white space only -/
def Blank (s : Str) : Prop := ∀ c ∈ s, Py.isSpace c = true

end Verif.Spec
