import Verif.DataTypes

/-!
# `bin/check_readme.py` and `bin/check_version_strings.py`

Modelled are the code blocks that are found in the README, which of them are run, and the checks of the version strings. Running the
blocks (a Python process each), calling `git tag` and reading files are not: lines and the output of git are parameters. Lines end with a
line feed, as `readlines` returns them (except for the last one).
-/

namespace Verif.Bin
open Verif Verif.DataTypes

/-- check_readme.py 9 -/
def disableCheck : Str := py!"<!-- no-check -->"
def fence : Str := py!"```"

/-- check_readme.py 19-23 `Block` -/
structure Block where
  lang : Str
  check : Bool
  content : Str := []
  deriving DecidableEq

/-- the variables of the loop: `blocks`, `last_block`, `check_next` -/
structure Found where
  blocks : List Block := []
  lastBlock : Option Block := none
  checkNext : Bool := true

/-- check_readme.py 30-46: the body of the loop; `none` if it raises -/
def step (st : Found) (line : Str) : Option Found :=
  if Py.startsWith line fence then
    match st.lastBlock with
    | none => some { st with lastBlock := some { lang := Py.strip (line.drop 3), check := st.checkNext }, checkNext := true }
    | some b => some { st with blocks := st.blocks ++ [b], lastBlock := none }
  else if Py.startsWith line disableCheck then
    match st.lastBlock with
    | some _ => none
    | none => some { st with checkNext := false }
  else
    match st.lastBlock with
    | some b => some { st with lastBlock := some { b with content := b.content ++ line } }
    | none => some st

/-- check_readme.py 30-46: the loop -/
def scan (st : Found) : List Str → Option Found
  | [] => some st
  | line :: lines =>
    match step st line with
    | none => none
    | some st => scan st lines

/-- check_readme.py 26-46: the blocks that are found -/
def readmeBlocks (lines : List Str) : Option (List Block) := (scan {} lines).map (·.blocks)

/-- check_readme.py 56-66: the contents of the blocks that are run, in order -/
def executed (blocks : List Block) : List Str := (blocks.filter (·.check)).map (·.content)

/-- `\d` of a pattern for strings: all decimal digits of Unicode -/
def anyDigit : Re := .cls false (digitZeros.map fun z => (z, z + 9))

/-- check_version_strings.py 32: `v\d+\.\d+\.\d+` -/
def tagPattern : Re := Re.seqs [Re.lit (pc! 'v'), Re.plus anyDigit, Re.lit (pc! '.'), Re.plus anyDigit, Re.lit (pc! '.'), Re.plus anyDigit]

/-- check_version_strings.py 15-23 `assert_line_in_file`: whether it returns -/
def lineInFile (expected : Str) (lines : List Str) : Bool := lines.any (· == expected ++ [10])

/-- check_version_strings.py 10-12 and 26-39: whether the script ends without an exception -/
def versionsOk (gitOutput : Str) (pyproject init : List Str) : Bool :=
  let tag := Py.strip gitOutput
  if tag.isEmpty then false
  else if !Re.fullmatch tagPattern tag then false
  else
    let tag := tag.drop 1
    lineInFile (py!"version = \"" ++ tag ++ py!"\"") pyproject && lineInFile (py!"    return \"" ++ tag ++ py!"\"") init

end Verif.Bin
