import Verif.Spec.File

/-!
# What the check of a package depends on (C105)

As in `Spec/Opc.lean`, parts at the top level are taken to be in the folder `top`; the code has `/`.
-/

namespace Verif.Spec.Unused
open Verif Verif.Spec Opc File

/-- Two archives have the same content types, the same relationships of the package and of all parts that can be reached from it, and of the parts
that these relationships name the same ones exist. Nothing is said about other members, the content of other parts, or the order. -/
structure SameReached (top : Str) (z z' : Zip) : Prop where
  types : ∀ p, Member z py!"[Content_Types].xml" p ↔ Member z' py!"[Content_Types].xml" p
  rels : ∀ d f, Reach top z d f → ∀ p, Member z (relsPart d f) p ↔ Member z' (relsPart d f) p
  parts : ∀ type q, Found top z type q → (HasPart z q ↔ HasPart z' q)

/-- the files that are linked as specifications have the same content -/
def SameFiles {J X : Type} (top : Str) (z : Zip) (files files' : Str → Content J X) : Prop :=
  ∀ q, Linked top z q → HasPart z q → files q = files' q

/-- nothing in the package leads to a member of this name -/
def Ignored (top : Str) (z : Zip) (name : Str) : Prop :=
  name ≠ py!"[Content_Types].xml" ∧ (∀ d f, Reach top z d f → name ≠ relsPart d f) ∧ ∀ type q, Found top z type q → name ≠ q

end Verif.Spec.Unused
