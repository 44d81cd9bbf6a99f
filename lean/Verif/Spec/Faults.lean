import Verif.Spec.Parse
import Verif.Spec.XmlAccepted

/-!
# What is wrong with a document, and where

Each relation says that the part of a document at a path is not an instance of a type, and which line of the report tells it.
-/

namespace Verif.Spec.Parse
open Verif Verif.Parse

section
variable {C E S F : Type}

/-- the types whose values are texts -/
inductive Textual : Ty C E S → Prop
  | str : Textual .str
  | enum (e) : Textual (.enum e)
  | sfv (c) : Textual (.sfv c)

/-- the class a JSON object is read as: the class itself, or the subclass that is named by the object -/
def ReadAs (sc : Schema C E S F) (c c' : C) (kvs : List (Str × Json)) : Prop :=
  (sc.abstract c = false ∧ c' = c) ∨ (sc.abstract c = true ∧ c' ∈ sc.subclasses c ∧ (py!"modelType", Json.str (sc.className c')) ∈ kvs)

/-- the mistakes of a JSON value -/
inductive Fault (sc : Schema C E S F) : Ty C E S → Json → List PTok → Note → Prop
  | notString {ty j p} : Textual ty → (∀ s, j ≠ .str s) → Fault sc ty j p ⟨.notAString, p⟩
  | notInEnum {e s p} : s ∉ sc.enumValues e → Fault sc (.enum e) (.str s) p ⟨.notInEnum, p⟩
  | format {c s p} : sc.construct c s = .error .valueError → Fault sc (.sfv c) (.str s) p ⟨.format, p⟩
  | notBool {j p} : (∀ b, j ≠ .bool b) → Fault sc .bool j p ⟨.notABool, p⟩
  | notList {it ae j p} : (∀ l, j ≠ .arr l) → Fault sc (.list it ae) j p ⟨.notAList, p⟩
  | emptyList {it p} : Fault sc (.list it false) (.arr []) p ⟨.emptyList, p⟩
  | item {it ae l i j p n} : l[i]? = some j → Fault sc it j (p ++ [.idx i]) n → Fault sc (.list it ae) (.arr l) p n
  | notObject {c j p} : (∀ kvs, j ≠ .obj kvs) → Fault sc (.cls c) j p ⟨.notAnObject, p⟩
  | noModelType {c kvs p} : sc.abstract c = true → (∀ j, (py!"modelType", j) ∉ kvs) → Fault sc (.cls c) (.obj kvs) p ⟨.noModelType, p⟩
  | invalidModelType {c kvs p j} : sc.abstract c = true → (py!"modelType", j) ∈ kvs → (∀ c' ∈ sc.subclasses c, j ≠ .str (sc.className c')) →
      Fault sc (.cls c) (.obj kvs) p ⟨.invalidModelType, p⟩
  | missingModelType {c kvs p} : sc.abstract c = false → sc.needsModelType c = true → (∀ j, (py!"modelType", j) ∉ kvs) →
      Fault sc (.cls c) (.obj kvs) p ⟨.missingModelType, p⟩
  | wrongModelType {c kvs p j} : sc.abstract c = false → sc.needsModelType c = true → (py!"modelType", j) ∈ kvs → j ≠ .str (sc.className c) →
      Fault sc (.cls c) (.obj kvs) p ⟨.wrongModelType, p⟩
  | missing {c c' kvs p f key ty} : ReadAs sc c c' kvs → ⟨f, .attr key ty true⟩ ∈ sc.fields c' → (∀ j, (key, j) ∉ kvs) →
      Fault sc (.cls c) (.obj kvs) p ⟨.missingAttribute key, p⟩
  | unknown {c c' kvs p k j} : ReadAs sc c c' kvs → (k, j) ∈ kvs → k ≠ py!"modelType" → (∀ f ty req, ⟨f, .attr k ty req⟩ ∉ sc.fields c') →
      Fault sc (.cls c) (.obj kvs) p ⟨.unknownAttribute k, p⟩
  | value {c c' kvs p f key ty req j n} : ReadAs sc c c' kvs → ⟨f, .attr key ty req⟩ ∈ sc.fields c' → (key, j) ∈ kvs →
      Fault sc ty j (p ++ [.key key]) n → Fault sc (.cls c) (.obj kvs) p n

/-- the class an XML element is read as, which has its content in `d` -/
def XReadAs (sc : Schema C E S F) (c c' : C) (d : Xml) : Prop :=
  (sc.abstract c = false ∧ c' = c) ∨ (sc.abstract c = true ∧ c' ∈ sc.subclasses c ∧ Called d (sc.className c'))

/-- an attribute can be read from the element -/
def Fine (d y : Xml) : Prop := xmlns <+: y.tag ∧ (IsOpValue d y → ∃ z, y.children = [z])

/-- the element has a name, after the namespace; for the others the check raises exceptions, when the name is needed -/
def HasName (d : Xml) : Prop := xmlns.length < d.tag.length

/-- what is wrong with an element for an object, at first sight; only the first of these is told -/
inductive Bad : Xml → Kind → Prop
  | ns {x} : ¬ xmlns <+: x.tag → Bad x .badNamespace
  | text {x} : xmlns <+: x.tag → ¬ NoText x → Bad x .inlineText
  | content {x} : xmlns <+: x.tag → NoText x → (∀ d, ¬ Content x d) → Bad x .notOneChild
  | childNs {x d pre y post} : xmlns <+: x.tag → NoText x → Content x d → d.children = pre ++ y :: post → (∀ z ∈ pre, Fine d z) →
      (pre = [] ∨ HasName d) → ¬ xmlns <+: y.tag → Bad x .badNamespace
  | childOne {x d pre y post} : xmlns <+: x.tag → NoText x → Content x d → d.children = pre ++ y :: post → (∀ z ∈ pre, Fine d z) →
      xmlns <+: y.tag → IsOpValue d y → (∀ z, y.children ≠ [z]) → Bad x .notOneChild

/-- nothing of this is wrong, and the attributes are in `d` -/
def Opens (x d : Xml) : Prop := xmlns <+: x.tag ∧ NoText x ∧ Content x d ∧ (∀ y ∈ d.children, Fine d y) ∧ (d.children = [] ∨ HasName d)

/-- the mistakes of an XML element -/
inductive XFault (sc : Schema C E S F) : Ty C E S → Xml → List PTok → Note → Prop
  | children {ty x p} : Textual ty ∨ ty = .bool → ¬ TextOnly true x → XFault sc ty x p ⟨.childElements, p⟩
  | notInEnum {e x p} : TextOnly true x → x.text.getD [] ∉ sc.enumValues e → XFault sc (.enum e) x p ⟨.notInEnum, p⟩
  | format {c x p} : TextOnly true x → sc.construct c (x.text.getD []) = .error .valueError → XFault sc (.sfv c) x p ⟨.format, p⟩
  | emptyList {it x p} : x.children = [] → XFault sc (.list it false) x p ⟨.emptyList, p⟩
  | item {it ae x i y p n} : x.children[i]? = some y → XFault sc it y (p ++ [.idx i]) n → XFault sc (.list it ae) x p n
  | noContent {c x p} : sc.abstract c = true → (∀ d, ¬ Content x d) → XFault sc (.cls c) x p ⟨.notOneChild, p⟩
  | invalidModelType {c x d p} : sc.abstract c = true → Content x d → HasName d → (∀ c' ∈ sc.subclasses c, ¬ Called d (sc.className c')) →
      XFault sc (.cls c) x p ⟨.invalidModelType, p⟩
  | bad {c x k p} : (sc.abstract c = false ∨ ∃ c' d, Content x d ∧ XReadAs sc c c' d) → Bad x k → XFault sc (.cls c) x p ⟨k, p⟩
  | wrongModelType {c x d p} : sc.abstract c = false → sc.needsModelType c = true → Opens x d → HasName d → ¬ Called d (sc.className c) →
      XFault sc (.cls c) x p ⟨.wrongModelType, p⟩
  | missing {c c' x d p f key ty} : Opens x d → XReadAs sc c c' d → ⟨f, .attr key ty true⟩ ∈ sc.fields c' →
      (∀ y ∈ d.children, y.tag ≠ xmlns ++ key) → XFault sc (.cls c) x p ⟨.missingAttribute key, p⟩
  | unknown {c c' x d p k y} : Opens x d → XReadAs sc c c' d → y ∈ d.children → y.tag = xmlns ++ k →
      (∀ f ty req, ⟨f, .attr k ty req⟩ ∉ sc.fields c') → XFault sc (.cls c) x p ⟨.unknownAttribute k, p⟩
  | value {c c' x d p f key ty req pre y post z n} : Opens x d → XReadAs sc c c' d → ⟨f, .attr key ty req⟩ ∈ sc.fields c' →
      d.children = pre ++ y :: post → y.tag = xmlns ++ key → (∀ u ∈ post, u.tag ≠ xmlns ++ key) → Inside d y z →
      XFault sc ty z (p ++ [.key key]) n → XFault sc (.cls c) x p n

end
end Verif.Spec.Parse
