import Verif.Opc

/-! # Specification of the listing of relationships (C100) -/

namespace Verif.Spec
open Verif Opc

/-- the relationship at an address: which of the relationships at each step -/
def relAt : Relationship → List Nat → Option Relationship
  | r, [] => some r
  | .mk _ _ subs, i :: is =>
    match subs[i]? with
    | some s => relAt s is
    | none => none

/-- the part of a type after its last slash -/
def ShortType (type short : Str) : Prop := pc! '/' ∉ short ∧ (type = short ∨ ∃ p, type = p ++ pc! '/' :: short)

end Verif.Spec
