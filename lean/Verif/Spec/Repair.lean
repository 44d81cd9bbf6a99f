import Verif.Spec.Places

/-!
# Changing a part of a document

The reports before and after the change are compared line by line; a line is a kind of mistake and the names that lead to its place.
-/

namespace Verif.Spec.Parse
open Verif Verif.Parse

/-- the part in a place is replaced by another value, everything else stays -/
inductive Replaced (new : Json) : List Str → Json → Json → Prop
  | here (j) : Replaced new [] j new
  | member {k r v v' pre post} : Replaced new r v v' → Replaced new (k :: r) (.obj (pre ++ (k, v) :: post)) (.obj (pre ++ (k, v') :: post))
  | item {r v v' pre post} : Replaced new r v v' → Replaced new (Py.natStr pre.length :: r) (.arr (pre ++ v :: post)) (.arr (pre ++ v' :: post))

/-- the element with other child elements -/
def withChildren (x : Xml) (l : List Xml) : Xml := .elem x.tag x.text l

/-- the same in XML documents; elements for attributes keep their names, only the `value` of an operation variable may contain another kind of element -/
inductive XReplaced (new : Xml) : List Str → Xml → Xml → Prop
  | here (x) : XReplaced new [] x new
  | member {k r x d x' d' pre y y' post z z'} : (∀ i, k ≠ Py.natStr i) → Content x d → d.children = pre ++ y :: post → y.tag = xmlns ++ k →
      (∀ u ∈ post, u.tag ≠ xmlns ++ k) → Inside d y z → XReplaced new r z z' →
      ((IsOpValue d y ∧ y' = withChildren y [z']) ∨ (¬ IsOpValue d y ∧ z'.tag = y.tag ∧ y' = z')) →
      d' = withChildren d (pre ++ y' :: post) →
      ((py!"dataSpecificationContent" <:+ x.tag ∧ x' = withChildren x [d']) ∨ (¬ py!"dataSpecificationContent" <:+ x.tag ∧ x' = d')) →
      XReplaced new (k :: r) x x'
  | item {r x pre y y' post} : x.children = pre ++ y :: post → XReplaced new r y y' →
      XReplaced new (Py.natStr pre.length :: r) x (withChildren x (pre ++ y' :: post))

section
variable {C E S F : Type}

/-- the part in a place is not of the type that is due there, in the way the kind says -/
def FaultAt (sc : Schema C E S F) (ty : Ty C E S) (j : Json) (k : Kind) (segs : List Str) : Prop :=
  ∃ part u, Leads segs j part ∧ Due sc ty j segs u ∧ Fault sc u part [] ⟨k, []⟩

/-- the same in XML documents -/
def XFaultAt (sc : Schema C E S F) (ty : Ty C E S) (x : Xml) (k : Kind) (segs : List Str) : Prop :=
  ∃ part u, XLeads segs x part ∧ XDue sc ty x segs u ∧ XFault sc u part [] ⟨k, []⟩

end
end Verif.Spec.Parse
