import Verif.Spec.Metamodel
import Verif.Spec.XmlAccepted

/-!
# The XML format of the specification

Written from the XML schema of the specification (AAS Part 1, version 3.0), except that the schema fixes the order of attributes.
-/

namespace Verif.Spec.Metamodel
open Verif Verif.Aas Verif.Parse Verif.Spec.Parse

/-- the name of an element that stands for an object in a list, in a choice or as document -/
def elementName (cls : Str) : Str :=
  if cls = py!"MultiLanguageNameType" then py!"langStringNameType"
  else if cls = py!"MultiLanguageTextType" then py!"langStringTextType"
  else if cls = py!"DefinitionTypeIec61360" then py!"langStringDefinitionTypeIec61360"
  else if cls = py!"PreferredNameTypeIec61360" then py!"langStringPreferredNameTypeIec61360"
  else if cls = py!"ShortNameTypeIec61360" then py!"langStringShortNameTypeIec61360"
  else lowerFirst cls

/-- classes that stand for others -/
def choices : List Str := [py!"SubmodelElement", py!"DataElement", py!"DataSpecificationContent"]

/-- what an element is to contain -/
inductive Place
  /-- the value of an attribute -/
  | value (k : Metamodel.Kind)
  /-- an object of this class, or one of those it stands for; the element is called like the class of the object -/
  | element (cls : Str)
  /-- the attributes of an object of this class -/
  | object (d : Class)

/-- The XML element is an instance. `T f s`: the string `s` has the type `f`. -/
inductive XInstance (T : SfvCls → Str → Prop) : Place → Xml → Prop
  | text {f} {x : Xml} : x.children = [] → T f (x.text.getD []) → XInstance T (.value (.text f)) x
  | plain {x : Xml} : x.children = [] → XInstance T (.value .plain) x
  | flag {x : Xml} : x.children = [] → x.text = some py!"true" ∨ x.text = some py!"false" ∨ x.text = some py!"1" ∨ x.text = some py!"0" →
      XInstance T (.value .flag) x
  | literal {e} {x : Xml} : x.children = [] → x.text.getD [] ∈ literals e → XInstance T (.value (.literal e)) x
  | many {c} {x : Xml} : NoText x → x.children ≠ [] → (∀ y ∈ x.children, XInstance T (.element c) y) → XInstance T (.value (.many c)) x
  | choice {c} {x y : Xml} : c ∈ choices → NoText x → x.children = [y] → XInstance T (.element c) y → XInstance T (.value (.one c)) x
  | one {x : Xml} (d : Class) : d ∈ classes → XInstance T (.object d) x → XInstance T (.value (.one d.name)) x
  | element {c} {x : Xml} (d : Class) : d ∈ classes → d.name ∈ instances c → x.tag = xmlns ++ elementName d.name → XInstance T (.object d) x →
      XInstance T (.element c) x
  | object {d : Class} {x : Xml} (text : NoText x) (once : (x.children.map Xml.tag).Nodup)
      (known : ∀ y ∈ x.children, ∃ a ∈ d.attributes, y.tag = xmlns ++ a.name)
      (required : ∀ a ∈ d.attributes, a.required = true → ∃ y ∈ x.children, y.tag = xmlns ++ a.name)
      (values : ∀ a ∈ d.attributes, ∀ y ∈ x.children, y.tag = xmlns ++ a.name → XInstance T (.value a.kind) y) : XInstance T (.object d) x

end Verif.Spec.Metamodel
