import Verif.Bin
import Verif.Spec.DataTypes

/-!
# Code blocks of a README, and version strings
-/

namespace Verif.Spec.Bin
open Verif Verif.Bin Verif.DataTypes

/-- a line that begins or ends a block -/
def Fence (l : Str) : Prop := ∃ rest, l = py!"```" ++ rest
/-- a line that says that the next block must not be run -/
def Marker (l : Str) : Prop := ∃ rest, l = py!"<!-- no-check -->" ++ rest
def Plain (l : Str) : Prop := ¬ Fence l ∧ ¬ Marker l

/-- `Blocks c lines bs`: the lines are text, markers and closed blocks, and these are the blocks; the next one is to be checked iff `c` -/
inductive Blocks : Bool → List Str → List Block → Prop
  | nil {c} : Blocks c [] []
  | text {c l ls bs} : Plain l → Blocks c ls bs → Blocks c (l :: ls) bs
  | marker {c l ls bs} : Marker l → Blocks false ls bs → Blocks c (l :: ls) bs
  | block {c lang body l ls bs} : (∀ x ∈ body, Plain x) → Fence l → Blocks true ls bs →
      Blocks c ((py!"```" ++ lang) :: body ++ l :: ls) (⟨Py.strip lang, c, body.flatten⟩ :: bs)

/-- a last block that is not closed: it extends to the end of the document -/
inductive Open : List Str → Prop
  | mk {l body} : Fence l → (∀ x ∈ body, Plain x) → Open (l :: body)

/-- a marker in a block -/
inductive Misplaced : List Str → Prop
  | mk {l body m rest} : Fence l → (∀ x ∈ body, Plain x) → Marker m → Misplaced (l :: body ++ m :: rest)

/-- a decimal digit, in any script -/
def Digit (c : Nat) : Prop := ∃ z ∈ digitZeros, z ≤ c ∧ c ≤ z + 9

/-- three numbers, separated by dots -/
def Version (digit : Nat → Prop) (s : Str) : Prop :=
  ∃ a b c : Str, s = a ++ py!"." ++ b ++ py!"." ++ c ∧ ∀ n ∈ [a, b, c], n ≠ [] ∧ ∀ x ∈ n, digit x

end Verif.Spec.Bin
