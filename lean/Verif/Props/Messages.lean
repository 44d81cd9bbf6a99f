import Verif.MessageLemmas6
import Verif.Props.Document

/-!
# C91: what the lines of the constraint checks say

`tellMethod` is `runMethod` with the texts of the messages. `Means lim Number v t l`: the text `t` is true of the object `v`.
-/

namespace Verif.Props
open Verif Verif.Parse Verif.Spec.Parse Verif.Spec.Model Verif.Aas Verif.DataTypes Verif.Spec
open Verif.Aas.Samples (mk key ref modelRef badRef globalRef obj_of_check)

variable (lim : Option Nat)

/-- The methods with their texts decide as the methods without texts (C42 to C48, C61 to C63). -/
theorem C91_wording (m : Method) (v : AVal) :
    (tellMethod lim m v = .ok () ↔ runMethod lim m v = .ok ()) ∧
    (∀ e, tellMethod lim m v = .error (.py e) ↔ runMethod lim m v = .error (.py e)) ∧
    (∀ l, (∃ t, tellMethod lim m v = .error (.violated t l)) ↔ ∃ t, runMethod lim m v = .error (.violated t l)) := by
  have h := tell_same lim m v
  rw [SameBut] at h
  cases ha : tellMethod lim m v with
  | ok u =>
    cases hb : runMethod lim m v with
    | ok u' => simp
    | error e => rw [ha, hb] at h; cases h
  | error e =>
    cases hb : runMethod lim m v with
    | ok u' => rw [ha, hb] at h; cases h
    | error e' =>
      rw [ha, hb] at h
      cases e <;> cases e' <;> simp_all [Except.mapError, mute]

-- an element of a list with an idShort
def listOf (t : Str) (xs : List AVal) : AVal := mk .submodelElementList [(.idShort, .sfv .nameTypeString py!"list"),
  (.typeValueListElement, .enum .keyType t), (.value, .list xs)]
def someProperty : AVal := mk .property [(.idShort, .sfv .nameTypeString py!"p"), (.valueType, .enum .dataTypeDefXsd py!"xs:int")]
example : Obj lim .submodelElementList (listOf py!"Property" [someProperty]) := obj_of_check 9 rfl (by decide +kernel)
example : tellMethod none .submodelElementList_aasd_120 (listOf py!"Property" [someProperty]) =
    .error (.violated py!"Constraint AASd-120 violated: element 0 must not have an idShort @ None" .error) := by decide +kernel

/-- Reports with the texts have the lines of the reports without, at the same places and with the same levels, and raise the same
exceptions. So what is known about these (C41, C64, C65) holds for those. -/
theorem C91_lines (v : AVal) (p : List PTok) (res : Res Note) :
    (∀ e, checkConstraints Fld.pyName (tells lim) v p res = .error e ↔ checkConstraints Fld.pyName (checks lim) v p res = .error e) ∧
    ∀ r, checkConstraints Fld.pyName (tells lim) v p res = .ok r → ∃ r', checkConstraints Fld.pyName (checks lim) v p res = .ok r' ∧
      r.level = r'.level ∧ r.subs.map (fun s => (s.msg.path, s.level)) = r'.subs.map (fun s => (s.msg.path, s.level)) := by
  have h := constraints_alike (lim := lim) v p res res (Alike.rfl' res)
  cases ha : checkConstraints Fld.pyName (tells lim) v p res <;> cases hb : checkConstraints Fld.pyName (checks lim) v p res <;>
    rw [ha, hb] at h <;> simp only [AlikeE] at h
  · subst h; simp
  · simp only [reduceCtorEq, Except.ok.injEq, true_and, implies_true]
    rintro r rfl
    exact ⟨_, rfl, h.1, h.2.2⟩

example : (checkConstraints Fld.pyName (tells none) (listOf py!"Property" [someProperty]) [] (Res.new ⟨.title [], []⟩)).map
    (fun r => r.subs.map (fun s => (s.msg.path, s.level))) = .ok [([], .error), ([], .error)] := by decide +kernel

/-- The methods whose texts are wrong for some objects: see the theorems below. -/
def mistaken : List Method := [.administrativeInformation_constraint_aasd_005, .reference_aasd_125, .basicEventElement_message_broker,
  .submodel_aasd_119, .submodelElementList_aasd_108, .conceptDescription_aasc_3a_004, .conceptDescription_aasc_3a_005,
  .conceptDescription_aasc_3a_006]

/-- What a check says about a typed object is true, including the positions, values and places it shows, and it has the right level.
Partial: not for the methods in `mistaken`. -/
theorem C91_true_partial {c : Cls} {v : AVal} {m : Method} {t : Str} {l : Level} (h : Obj lim c v) (hc : c ≠ .langStringSet)
    (hm : m ∈ checkTable c) (hn : m ∉ mistaken) (ht : tellMethod lim m v = .error (.violated t l)) : Means lim (IndexText lim) v t l := by
  rw [← num128_eq]
  have ho := owner_ok c m hm
  have hb := (tell_broken h hc hm ht).1
  cases m
  case langStringSet_language => exact means_language h hm ht
  case langStringSet_text => exact means_text h hm hc ht
  case hasSemantics_aasd_118 => exact means_118 hb ht
  case referable_constraint_aasd_002 => exact means_002 hb ht
  case dataElement_aasd_090 => exact means_090 h hb ht
  case submodelElement_aasc_3a_050 => cases ht
  all_goals
    obtain rfl : _ = c := by
      rcases ho with ho | ho
      · cases ho
      · exact Option.some.inj ho
  case reference_aasd_121 => exact means_121 hb ht
  case reference_aasd_122 => exact means_122 hb ht
  case reference_aasd_123 => exact means_123 hb ht
  case reference_aasd_124 => exact means_124 hb ht
  case reference_aasd_126 => exact means_126 h ht
  case reference_aasd_127 => exact means_127 h ht
  case reference_aasd_128 => exact means_128 h ht
  case embeddedDataSpecification_reference => exact means_reference h ht
  case dataSpecificationIec61360_aasc_3a_002 => exact means_3a_002 hb ht
  case dataSpecificationIec61360_aasc_3a_009 => exact means_3a_009 hb ht
  case dataSpecificationIec61360_aasc_3a_010 => exact means_3a_010 hb ht
  case extension_value_type => exact means_extension h ht
  case qualifier_value_type => exact means_qualifier h ht
  case property_value_type => exact means_property h ht
  case range_value_type_min => exact means_min h ht
  case range_value_type_max => exact means_max h ht
  case specificAssetId_aasd_133 => exact means_133 hb ht
  case assetInformation_aasd_131 => exact means_131 hb ht
  case assetInformation_aasd_116 => exact means_116 h ht
  case annotatedRelationshipElement_aasd_117 => exact means_117_annotations h ht
  case entity_aad_117 => exact means_117_entity h ht
  case submodelElementCollection_aasd_117 => exact means_117_collection h ht
  case submodel_aasd_117 => exact means_117_submodel h ht
  case submodelElementCollection_aasd_022 => exact means_022_collection h ht
  case submodel_aasd_022 => exact means_022_submodel h ht
  case basicEventElement_observed => exact means_observed h hb ht
  case entity_aasd_014 => exact means_014 h ht
  case operation_aasd_134 => exact means_134 h hb ht
  case submodelElementList_type_value_list_element => exact means_elementType h hb ht
  case submodelElementList_aasd_107 => exact means_107 h ht
  case submodelElementList_aasd_114 => exact means_114 h ht
  case submodelElementList_aasd_109 => exact means_109 h ht
  case submodelElementList_aasd_120 => exact means_120 h ht
  case submodel_aasd_129 => exact means_129 hb ht
  case conceptDescription_aasc_3a_007 => exact means_3a_007 h ht
  case conceptDescription_aasc_3a_008 => exact means_3a_008 h ht
  all_goals first
    | exact absurd trivial hb
    | exact absurd (by decide) hn

example : Means none (IndexText none) (listOf py!"Property" [someProperty])
    py!"Constraint AASd-120 violated: element 0 must not have an idShort @ None" .error :=
  C91_true_partial none (c := .submodelElementList) (m := .submodelElementList_aasd_120) (obj_of_check 9 rfl (by decide +kernel)) (by decide)
    (by decide) (by decide) (by decide +kernel)

/-- Every line of a report about a typed object is what a check says about a nested object at the place of the line, and is true of this
object. Partial: not if the check is one of `mistaken`. -/
theorem C91_document_partial {c : Cls} {v : AVal} (hc : c ≠ .langStringSet) (hv : HasType (schema lim) (.cls c) v) (n : Note) (r : Res Note)
    (hr : checkConstraints Fld.pyName (tells lim) v [] (Res.new n) = .ok r) (s : Res Note) (hs : s ∈ r.subs) :
    ∃ p x t l d m, s = Res.new ⟨.constraint t, p⟩ l ∧ Nested Fld.pyName v p x ∧ Obj lim d x ∧ m ∈ checkTable d ∧
      ¬ ruleOf lim m x ∧ (m ∈ mistaken ∨ Means lim (IndexText lim) x t l) := by
  obtain ⟨p, x, t, l, ⟨hn, check, hf, ht⟩, rfl⟩ := (C41_reported Fld.pyName (tells lim) v n r hr s).mp hs
  obtain ⟨d, hd, hg⟩ := nested_obj hn ((C64_classes c).mpr hc) hv
  have hx := hd.cls
  have hg : d ≠ .langStringSet := by
    rw [good, Bool.and_eq_true, decide_eq_true_eq] at hg; exact hg.2
  obtain ⟨attrs, rfl, -⟩ := hd.fields
  simp only [checksOf, tells, List.mem_map] at hf
  obtain ⟨m, hm, rfl⟩ := hf
  refine ⟨p, _, t, l, d, m, rfl, hn, hd, hm, (tell_broken hd hg hm ht).1, ?_⟩
  by_cases hk : m ∈ mistaken
  · exact .inl hk
  · exact .inr (C91_true_partial lim hd hg hm hk ht)

example : (checkConstraints Fld.pyName (tells none) (mk .submodel [(.id, .sfv .identifierString py!"urn:1"),
      (.submodelElements, .list [listOf py!"Property" [someProperty]])]) [] (Res.new ⟨.title [], []⟩)).map
    (fun r => r.subs.map (·.msg)) = .ok [
      ⟨.constraint py!"Constraint AASd-109 violated: valueTypeListElement must be set since there are Properties/Ranges @ None",
        [.key py!"submodel_elements", .idx 0]⟩,
      ⟨.constraint py!"Constraint AASd-120 violated: element 0 must not have an idShort @ None",
        [.key py!"submodel_elements", .idx 0]⟩] := by decide +kernel

/-! ## the texts that are wrong -/

/-- AASd-005 (model.py 670-671): the text has version and revision exchanged, and is never true. -/
theorem C91_revision_violated {v : AVal} {t : Str} {l : Level} (h : Obj lim .administrativeInformation v)
    (ht : tellMethod lim .administrativeInformation_constraint_aasd_005 v = .error (.violated t l)) (Number : Str → Prop) :
    ¬ Means lim Number v t l := by
  have hb := (tell_broken h (by decide) (by decide) ht).1
  obtain ⟨rfl, rfl⟩ := tell_005 ht
  rw [means_iff_005]
  rintro ⟨h1, -⟩
  exact hb (fun _ => h1)

def onlyRevision : AVal := mk .administrativeInformation [(.revision, .sfv .revisionString py!"1")]
theorem onlyRevision_typed (lim : Option Nat) : Obj lim .administrativeInformation onlyRevision := by
  refine obj_of_concrete rfl (.obj (.inl ⟨rfl, rfl⟩) rfl ?_ ?_ ?_)
  · intro f key ty req w hm hw
    have hm : _ ∈ ([_, _, _, _, _] : List _) := hm
    simp only [List.mem_cons, List.not_mem_nil, or_false, Prod.mk.injEq, Field.mk.injEq, Slot.attr.injEq] at hm
    rcases hm with ⟨-, -, rfl⟩ | ⟨-, -, rfl⟩ | ⟨⟨-, -, rfl, -⟩, -, rfl⟩ | ⟨-, -, rfl⟩ | ⟨-, -, rfl⟩
    · exact absurd rfl hw
    · exact absurd rfl hw
    · exact .sfv (by show constructBase .revisionString py!"1" = .ok (); decide +kernel)
    · exact absurd rfl hw
    · exact absurd rfl hw
  · intro f key ty w hm hw
    have hm : _ ∈ ([_, _, _, _, _] : List _) := hm
    simp only [List.mem_cons, List.not_mem_nil, or_false, Prod.mk.injEq, Field.mk.injEq, Slot.attr.injEq] at hm
    rcases hm with h | h | h | h | h <;> simp at h
  · intro f w hm
    have hm : _ ∈ ([_, _, _, _, _] : List _) := hm
    simp only [List.mem_cons, List.not_mem_nil, or_false, Prod.mk.injEq, Field.mk.injEq] at hm
    rcases hm with h | h | h | h | h <;> simp at h
example : tellMethod none .administrativeInformation_constraint_aasd_005 onlyRevision =
    .error (.violated py!"Constraint AASd-005 violated: version is given but no revision" .error) := by decide +kernel

/-- AASd-125 (model.py 358-360): the number of the key is one too small, and the text is never true. -/
theorem C91_key_number_violated {v : AVal} {t : Str} {l : Level} (h : Obj lim .reference v)
    (ht : tellMethod lim .reference_aasd_125 v = .error (.violated t l)) :
    (∃ i s, KeyAt v (i + 1) s ∧ s ∉ submodelElementTypes ∧ s ≠ py!"FragmentReference" ∧
      t = py!"Constraint AASd-125 violated: key " ++ Py.natStr i ++ py!" must be a FragmentKey") ∧
    ∀ Number, ¬ Means lim Number v t l := by
  obtain ⟨i, s, -, h1, h2, h3, rfl, rfl, h4⟩ := first_125 h ht
  refine ⟨⟨i, s, h1, h2, h3, rfl⟩, fun Number hm => ?_⟩
  obtain ⟨-, h5, u, h6, h7, h8⟩ := (means_iff_125 i).mp hm
  obtain ⟨j, rfl⟩ : ∃ j, i = j + 1 := ⟨i - 1, by omega⟩
  rcases h4 j u (by omega) h6 with h9 | h9
  · exact h7 h9
  · exact h8 h9

def submodelTwice : AVal := ref py!"ModelReference" [key py!"Submodel" py!"a", key py!"Submodel" py!"b"]
example : Obj lim .reference submodelTwice := obj_of_check 9 rfl (by decide +kernel)
example : tellMethod none .reference_aasd_125 submodelTwice =
    .error (.violated py!"Constraint AASd-125 violated: key 0 must be a FragmentKey" .error) := by decide +kernel

/-- The message broker (model.py 908-912): the text is about `observed`, so it is true only if this is wrong too. -/
theorem C91_broker_violated {v : AVal} {t : Str} {l : Level} (h : Obj lim .basicEventElement v)
    (ht : tellMethod lim .basicEventElement_message_broker v = .error (.violated t l)) (Number : Str → Prop) :
    Means lim Number v t l ↔ ¬ ModelRef (get v .observed) := by
  obtain ⟨rfl, rfl⟩ := tell_broker h ht
  exact means_iff_observed

def badBroker : AVal := mk .basicEventElement [(.idShort, .sfv .nameTypeString py!"e"), (.observed, modelRef),
  (.direction, .enum .direction py!"input"), (.state, .enum .stateOfEvent py!"on"), (.messageBroker, globalRef py!"urn:1")]
example : Obj lim .basicEventElement badBroker := obj_of_check 9 rfl (by decide +kernel)
example : tellMethod none .basicEventElement_message_broker badBroker =
    .error (.violated py!"Constraint violated: Property 'observed' must be a model reference @ None" .error) ∧
    ModelRef (get badBroker .observed) := ⟨by decide +kernel, rfl⟩

/-- AASd-119 (model.py 1300-1304): the text names AASd-129, so it is true only if this is violated too. -/
theorem C91_kind_violated {v : AVal} {t : Str} {l : Level}
    (ht : tellMethod lim .submodel_aasd_119 v = .error (.violated t l)) (Number : Str → Prop) :
    Means lim Number v t l ↔ ¬ AASd129Top v := by
  obtain ⟨rfl, rfl⟩ := tell_119 ht
  exact means_iff_119

def templateSubmodel : AVal := mk .submodel [(.id, .sfv .identifierString py!"urn:1"), (.qualifiers, .list [templateQualifier])]
example : Obj lim .submodel templateSubmodel := obj_of_check 9 rfl (by decide +kernel)
example : tellMethod none .submodel_aasd_119 templateSubmodel = .error (.violated
    py!"Constraint AASd-129 violated: kind must be Template as at least one qualifier is a TemplateQualifier" .error) ∧
    AASd129Top templateSubmodel := ⟨by decide +kernel, by rintro ⟨x, hx, -⟩; revert hx; rw [show elems templateSubmodel .submodelElements = [] from by decide +kernel]; simp⟩

/-- AASc-3a-004 to 006 (model.py 1333-1343): the text says that the data type is invalid, whatever it is. -/
theorem C91_data_type_violated {v : AVal} {t : Str} {l : Level} (h : Obj lim .conceptDescription v) {m : Method} {name : Str}
    {categories types : List Str} (hn : TypesFor name categories types)
    (hm : (m, name) ∈ [(Method.conceptDescription_aasc_3a_004, py!"AASc-3a-004"), (.conceptDescription_aasc_3a_005, py!"AASc-3a-005"),
      (.conceptDescription_aasc_3a_006, py!"AASc-3a-006")])
    (ht : tellMethod lim m v = .error (.violated t l)) (Number : Str → Prop) :
    ∃ x, ContentAt v 0 x ∧ (Means lim Number v t l ↔ txt x .dataType ∉ types) := by
  have ht : tellIec61360 v categories name = .error (.violated t l) := by
    simp only [List.mem_cons, Prod.mk.injEq, List.not_mem_nil, or_false] at hm
    rcases hm with ⟨rfl, rfl⟩ | ⟨rfl, rfl⟩ | ⟨rfl, rfl⟩
    · obtain ⟨rfl, rfl⟩ := types_functional hn .c004; exact ht
    · obtain ⟨rfl, rfl⟩ := types_functional hn .c005; exact ht
    · obtain ⟨rfl, rfl⟩ := types_functional hn .c006; exact ht
  obtain ⟨hc, rfl, x, hx, rfl⟩ := tell_iec h ht
  exact ⟨x, hx, means_iff_dataType hn hx hc⟩

def stringConcept : AVal := mk .conceptDescription [(.id, .sfv .identifierString py!"urn:1"), (.category, .sfv .nameTypeString py!"PROPERTY"),
  (.embeddedDataSpecifications, .list [mk .embeddedDataSpecification [(.dataSpecification, globalRef py!"urn:2"),
    (.dataSpecificationContent, mk .dataSpecificationIec61360 [(.preferredName, .list [mk .preferredNameTypeIec61360
      [(.language, .str py!"en"), (.text, .str py!"n")]]), (.dataType, .enum .dataTypeIec61360 py!"STRING")])]])]
example : Obj lim .conceptDescription stringConcept := obj_of_check 9 rfl (by decide +kernel)
example : tellMethod none .conceptDescription_aasc_3a_004 stringConcept = .error (.violated
    py!"Constraint AASc-3a-004 violated: embeddedDataSpecifications[0].dataType is invalid" .error) := by decide +kernel

/-- AASd-108 (model.py 1189-1198): elements of a more special class are rejected, with a text that is not true of them. -/
theorem C91_element_type_violated {v : AVal} {t : Str} {l : Level} (h : Obj lim .submodelElementList v)
    (ht : tellMethod lim .submodelElementList_aasd_108 v = .error (.violated t l)) (Number : Str → Prop) :
    ∃ i x, (elems v .value)[i]? = some x ∧ className x ≠ txt v .typeValueListElement ∧
      t = py!"Constraint AASd-108 violated: Element " ++ Py.natStr i ++ py!" must be " ++ txt v .typeValueListElement ++ py!" @ " ++ place v ∧
      (Means lim Number v t l ↔ className x ∉ specializations (txt v .typeValueListElement)) := by
  obtain ⟨i, x, h1, h2, rfl, rfl⟩ := tell_108 h ht
  refine ⟨i, x, h1, h2, rfl, ?_⟩
  rw [means_iff_108]
  refine ⟨fun ⟨y, a, _, b⟩ => ?_, fun hh => ⟨x, h1, h2, hh⟩⟩
  rw [h1] at a; cases a; exact b

example : Obj lim .submodelElementList (listOf py!"DataElement" [someProperty]) := obj_of_check 9 rfl (by decide +kernel)
example : tellMethod none .submodelElementList_aasd_108 (listOf py!"DataElement" [someProperty]) =
    .error (.violated py!"Constraint AASd-108 violated: Element 0 must be DataElement @ None" .error) ∧
    py!"Property" ∈ specializations py!"DataElement" := ⟨by decide +kernel, by decide +kernel⟩

end Verif.Props
