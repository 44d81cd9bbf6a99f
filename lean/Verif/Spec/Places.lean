import Verif.Spec.Faults

/-!
# Finding the place a line of a report is about

The reader takes what is behind the last ` @ ` of the line, and goes from the outermost value of the document along the names between the slashes.
-/

namespace Verif.Spec.Parse
open Verif Verif.Parse

/-- the names of a path: `/` alone for the document itself, otherwise `/a/b/c` -/
def Names (t : Str) (segs : List Str) : Prop := t = py!"/" ++ Py.join py!"/" segs ∧ ∀ s ∈ segs, s ≠ [] ∧ pc! '/' ∉ s

/-- the names of the path at the end of a line -/
def Place (line : Str) (segs : List Str) : Prop := ∃ front t, line = front ++ py!" @ " ++ t ∧ pc! ' ' ∉ t ∧ Names t segs

/-- the names lead to a part of the document: from objects to the member of this name, from arrays to the element of this number, counted from 0 -/
inductive Leads : List Str → Json → Json → Prop
  | here (j) : Leads [] j j
  | member {k r kvs v j} : (k, v) ∈ kvs → Leads r v j → Leads (k :: r) (.obj kvs) j
  | item {i r l v j} : l[i]? = some v → Leads r v j → Leads (Py.natStr i :: r) (.arr l) j

/-- the same in XML documents; a number stands for a child element in this position, other names for the last attribute of this name -/
inductive XLeads : List Str → Xml → Xml → Prop
  | here (x) : XLeads [] x x
  | member {k r x d pre y post z u} : (∀ i, k ≠ Py.natStr i) → Content x d → d.children = pre ++ y :: post → y.tag = xmlns ++ k →
      (∀ u ∈ post, u.tag ≠ xmlns ++ k) → Inside d y z → XLeads r z u → XLeads (k :: r) x u
  | item {i r x y u} : x.children[i]? = some y → XLeads r y u → XLeads (Py.natStr i :: r) x u

section
variable {C E S F : Type}

/-- the type that the part at a place is expected to have -/
inductive Due (sc : Schema C E S F) : Ty C E S → Json → List Str → Ty C E S → Prop
  | here (ty j) : Due sc ty j [] ty
  | member {c c' kvs f k req r v ty u} : ReadAs sc c c' kvs → ⟨f, .attr k ty req⟩ ∈ sc.fields c' → (k, v) ∈ kvs → Due sc ty v r u →
      Due sc (.cls c) (.obj kvs) (k :: r) u
  | item {it ae i r l v u} : l[i]? = some v → Due sc it v r u → Due sc (.list it ae) (.arr l) (Py.natStr i :: r) u

/-- the same in XML documents; nothing is expected inside of an element that is no object at first sight -/
inductive XDue (sc : Schema C E S F) : Ty C E S → Xml → List Str → Ty C E S → Prop
  | here (ty x) : XDue sc ty x [] ty
  | member {c c' f k req r x d pre y post z ty u} : Opens x d → XReadAs sc c c' d → ⟨f, .attr k ty req⟩ ∈ sc.fields c' →
      d.children = pre ++ y :: post → y.tag = xmlns ++ k → (∀ u ∈ post, u.tag ≠ xmlns ++ k) → Inside d y z → XDue sc ty z r u →
      XDue sc (.cls c) x (k :: r) u
  | item {it ae i r x y u} : x.children[i]? = some y → XDue sc it y r u → XDue sc (.list it ae) x (Py.natStr i :: r) u

end
end Verif.Spec.Parse
