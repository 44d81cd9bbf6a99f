import Verif.Result

/-!
# Specification of result trees (C01-C05), independent of the model's helper functions
-/

namespace Verif.Spec
open Verif

/-- How a result tree is made through the public API: a result is created with a message and a
level, and then the listed (finished) results are appended one after the other. -/
inductive Build (μ : Type) where
  | node (msg : μ) (lvl : Level) (appended : List (Build μ))

namespace Build
variable {μ : Type}

mutual
/-- perform the API calls -/
def run : Build μ → Res μ
  | node m l bs => runL (Res.new m l) bs
def runL (r : Res μ) : List (Build μ) → Res μ
  | [] => r
  | b :: bs => runL (r.append b.run) bs
end

mutual
/-- the levels given at creation, of all results in the tree -/
def levels : Build μ → List Level
  | node _ l bs => l :: levelsL bs
def levelsL : List (Build μ) → List Level
  | [] => []
  | b :: bs => b.levels ++ levelsL bs
end

end Build

/-- `l` is the worst of the levels `ls`. -/
def IsWorst (ls : List Level) (l : Level) : Prop := l ∈ ls ∧ ∀ x ∈ ls, x.value ≤ l.value

/-- A level that makes a run fail. -/
def Fails (l : Level) : Prop := l = .error ∨ l = .critical

/-- The sub-result at an address, i.e. a list of child indices. -/
def nodeAt {μ : Type} : Res μ → List Nat → Option (Res μ)
  | r, [] => some r
  | .mk _ _ ss, i :: is =>
    match ss[i]? with
    | some s => nodeAt s is
    | none => none

/-- A tree is consistent if the level of each node is at least the level of its children. -/
def Consistent {μ : Type} (r : Res μ) : Prop :=
  ∀ a i s t, nodeAt r a = some s → nodeAt r (a ++ [i]) = some t → t.level.value ≤ s.level.value

/-- Blanks -/
def blanks (n : Nat) : Str := List.replicate n 32

/-- ANSI colour number of a level: green, yellow, red, blue. -/
def ansi : Level → Str
  | .info => py!"92"
  | .warning => py!"93"
  | .error => py!"91"
  | .critical => py!"94"

/-- The line that is expected in the text report for a result at depth `d`. -/
def expectedLine (d : Nat) (l : Level) (m : Str) : Str :=
  blanks (3 * d) ++ [27] ++ py!"[" ++ ansi l ++ py!"m" ++ m ++ [27] ++ py!"[0m"

/-! ## reading back -/

/-- `v` is the value of the key `k` (the first one) -/
def Entry (kvs : List (Str × Json)) (k : Str) (v : Json) : Prop :=
  ∃ pre post, kvs = pre ++ (k, v) :: post ∧ ∀ e ∈ pre, e.1 ≠ k

/-- numbers of levels; Python's `False` and `True` are equal to 0 and 1 -/
inductive LevelNumber : Json → Level → Prop
  | info : LevelNumber (.num 0) .info
  | warning : LevelNumber (.num 1) .warning
  | error : LevelNumber (.num 2) .error
  | critical : LevelNumber (.num 3) .critical
  | no : LevelNumber (.bool false) .info
  | yes : LevelNumber (.bool true) .warning

/-- what can be iterated: lists, and empty texts and dictionaries -/
inductive Items : Json → List Json → Prop
  | arr (l) : Items (.arr l) l
  | str : Items (.str []) []
  | obj : Items (.obj []) []

mutual
/-- the result tree a JSON value stands for: levels are raised to the worst level of the sub-results -/
inductive Denotes : Json → Res Json → Prop
  | obj {kvs m lj l sj items rs level} : Entry kvs py!"m" m → Entry kvs py!"l" lj → LevelNumber lj l → Entry kvs py!"s" sj →
      Items sj items → DenotesL items rs → IsWorst (l :: rs.map Res.level) level → Denotes (.obj kvs) (.mk m level rs)
inductive DenotesL : List Json → List (Res Json) → Prop
  | nil : DenotesL [] []
  | cons {j r js rs} : Denotes j r → DenotesL js rs → DenotesL (j :: js) (r :: rs)
end

/-! ## HTML -/

/-- Fragments in which all `div` elements are closed and properly nested, `span` elements are
self-closing, and `<`, `>` occur only as tag delimiters. -/
inductive Html : Str → Prop
  | nil : Html []
  | text {c s} : c ≠ pc! '<' → c ≠ pc! '>' → Html s → Html (c :: s)
  | div {attrs body rest} : (∀ c ∈ attrs, c ≠ pc! '<' ∧ c ≠ pc! '>') → Html body → Html rest →
      Html (py!"<div" ++ attrs ++ py!">" ++ body ++ py!"</div>" ++ rest)
  | span {attrs rest} : (∀ c ∈ attrs, c ≠ pc! '<' ∧ c ≠ pc! '>') → Html rest →
      Html (py!"<span" ++ attrs ++ py!"/>" ++ rest)

/-- What a browser does with the five entities that are used. -/
def unescape : Str → Str
  | [] => []
  | c :: cs =>
    if c = pc! '&' then
      if py!"amp;".isPrefixOf cs then pc! '&' :: unescape (cs.drop 4)
      else if py!"lt;".isPrefixOf cs then pc! '<' :: unescape (cs.drop 3)
      else if py!"gt;".isPrefixOf cs then pc! '>' :: unescape (cs.drop 3)
      else if py!"quot;".isPrefixOf cs then pc! '"' :: unescape (cs.drop 5)
      else if py!"#x27;".isPrefixOf cs then pc! '\'' :: unescape (cs.drop 5)
      else c :: unescape cs
    else c :: unescape cs
  termination_by s => s.length
  decreasing_by all_goals simp_wf <;> omega

/-- Reading an HTML text: for each `<`, the tag up to the next `>` and the text up to the next
`<`. -/
def events : Str → List (Str × Str)
  | [] => []
  | c :: cs =>
    if c = pc! '<' then
      (cs.takeWhile (· ≠ pc! '>'),
       ((cs.dropWhile (· ≠ pc! '>')).drop 1).takeWhile (· ≠ pc! '<')) :: events cs
    else events cs

/-- Entries of the report: the tags that show a message. -/
def entryOf (e : Str × Str) : Option (Level × Str) :=
  if e.1 = py!"div class=\"info\"" then some (.info, unescape e.2)
  else if e.1 = py!"div class=\"warning\"" then some (.warning, unescape e.2)
  else if e.1 = py!"div class=\"error\"" then some (.error, unescape e.2)
  else if e.1 = py!"div class=\"critical\"" then some (.critical, unescape e.2)
  else none

mutual
/-- levels and messages of a tree, parents first -/
def entries {μ : Type} : Res μ → List (Level × μ)
  | .mk m l ss => (l, m) :: entriesL ss
def entriesL {μ : Type} : List (Res μ) → List (Level × μ)
  | [] => []
  | r :: rs => entries r ++ entriesL rs
end

/-- What a reader sees in the page (data/template.html): a message with its level, the number of open lists of sub-results around it, and
whether none of them is hidden (style `.sub-results { display: none }`, `.visible { display: block }`); or a caret with its level (key events
address carets by it) and whether it points down. -/
inductive Seen
  | entry (level : Level) (msg : Str) (depth : Nat) (visible : Bool)
  | caret (level : Str) (down : Bool)
  deriving DecidableEq

/-- Reading the tags from left to right. The stack holds the open `div` elements: `some b` for lists of sub-results, which are shown iff `b`. -/
def seen : List (Str × Str) → List (Option Bool) → List Seen
  | [], _ => []
  | (tag, text) :: es, st =>
    if tag = py!"/div" then seen es st.tail
    else if tag = py!"div class=\"sub-results \"" then seen es (some false :: st)
    else if tag = py!"div class=\"sub-results visible\"" then seen es (some true :: st)
    else if py!"div".isPrefixOf tag then
      match entryOf (tag, text) with
      | some (l, m) => .entry l m (st.countP Option.isSome) (st.all (· != some false)) :: seen es (none :: st)
      | none => seen es (none :: st)
    else
      let rest := tag.drop (py!"span class=\"caret level-").length
      let digits := rest.takeWhile fun c => 48 ≤ c && c ≤ 57
      .caret digits (rest.drop digits.length == py!" caret-down\"/") :: seen es st

mutual
/-- what should be seen of a tree: everything below a failed result is unfolded, everything below a result that is ok is folded -/
def toSee (depth : Nat) (visible : Bool) : Res Str → List Seen
  | .mk m l ss =>
    .entry l m depth visible ::
      (if ss.isEmpty then [] else [.caret (Py.natStr depth) (decide (l = .error ∨ l = .critical))]) ++
      toSeeL (depth + 1) (visible && decide (l = .error ∨ l = .critical)) ss
def toSeeL (depth : Nat) (visible : Bool) : List (Res Str) → List Seen
  | [] => []
  | r :: rs => toSee depth visible r ++ toSeeL depth visible rs
end

end Verif.Spec

namespace Verif
mutual
/-- the same tree with other messages -/
def Res.mapMsg {μ ν : Type} (f : μ → ν) : Res μ → Res ν
  | .mk m l ss => .mk (f m) l (Res.mapMsgL f ss)
def Res.mapMsgL {μ ν : Type} (f : μ → ν) : List (Res μ) → List (Res ν)
  | [] => []
  | r :: rs => Res.mapMsg f r :: Res.mapMsgL f rs
end
end Verif
