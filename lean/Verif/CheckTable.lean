import Verif.CheckLemmas3
import Verif.Props.Values

/-! # All checks together -/

namespace Verif.Aas
open Verif Verif.Parse Verif.Spec.Parse Verif.Spec.Model Verif.DataTypes Verif.Spec Verif.Props

variable {lim : Option Nat} {c : Cls} {v : AVal}

/-- the text of the message -/
def labelOf : Method → Str
  | .langStringSet_language => py!"language"
  | .langStringSet_text => py!"text"
  | .reference_aasd_121 => py!"AASd-121"
  | .reference_aasd_122 => py!"AASd-122"
  | .reference_aasd_123 => py!"AASd-123"
  | .reference_aasd_124 => py!"AASd-124"
  | .reference_aasd_125 => py!"AASd-125"
  | .reference_aasd_126 => py!"AASd-126"
  | .reference_aasd_127 => py!"AASd-127"
  | .reference_aasd_128 => py!"AASd-128"
  | .embeddedDataSpecification_reference => py!"dataSpecification"
  | .dataSpecificationIec61360_aasc_3a_002 => py!"AASc-3a-002"
  | .dataSpecificationIec61360_aasc_3a_009 => py!"AASc-3a-009"
  | .dataSpecificationIec61360_aasc_3a_010 => py!"AASc-3a-010"
  | .hasSemantics_aasd_118 => py!"AASd-118"
  | .extension_value_type | .qualifier_value_type | .property_value_type | .range_value_type_min | .range_value_type_max => py!"value"
  | .referable_constraint_aasd_002 => py!"AASd-002"
  | .administrativeInformation_constraint_aasd_005 => py!"AASd-005"
  | .specificAssetId_aasd_133 => py!"AASd-133"
  | .assetInformation_aasd_131 => py!"AASd-131"
  | .assetInformation_aasd_116 => py!"AASd-116"
  | .dataElement_aasd_090 => py!"AASd-090"
  | .annotatedRelationshipElement_aasd_117 | .entity_aad_117 | .submodelElementCollection_aasd_117 | .submodel_aasd_117 => py!"AASd-117"
  | .basicEventElement_observed => py!"observed"
  | .basicEventElement_message_broker => py!"messageBroker"
  | .entity_aasd_014 => py!"AASd-014"
  | .operation_aasd_134 => py!"AASd-134"
  | .submodelElementCollection_aasd_022 | .submodel_aasd_022 => py!"AASd-022"
  | .submodelElementList_type_value_list_element => py!"typeValueListElement"
  | .submodelElementList_aasd_107 => py!"AASd-107"
  | .submodelElementList_aasd_114 => py!"AASd-114"
  | .submodelElementList_aasd_108 => py!"AASd-108"
  | .submodelElementList_aasd_109 => py!"AASd-109"
  | .submodelElementList_aasd_120 => py!"AASd-120"
  | .submodel_aasd_119 => py!"AASd-119"
  | .submodel_aasd_129 => py!"AASd-129"
  | .conceptDescription_aasc_3a_004 => py!"AASc-3a-004"
  | .conceptDescription_aasc_3a_005 => py!"AASc-3a-005"
  | .conceptDescription_aasc_3a_006 => py!"AASc-3a-006"
  | .conceptDescription_aasc_3a_007 => py!"AASc-3a-007"
  | .conceptDescription_aasc_3a_008 => py!"AASc-3a-008"
  | _ => []

def levelOf : Method → Level
  | .embeddedDataSpecification_reference => .warning
  | _ => .error

/-- the rule that a method checks -/
def ruleOf (lim : Option Nat) (m : Method) (v : AVal) : Prop :=
  match m with
  | .langStringSet_language => OrLineFeed LanguageTagExactCase (txt v .language)
  | .langStringSet_text => TextLength v
  | .reference_aasd_121 => AASd121 v
  | .reference_aasd_122 => AASd122 v
  | .reference_aasd_123 => AASd123 v
  | .reference_aasd_124 => AASd124 v
  | .reference_aasd_125 => AASd125 v
  | .reference_aasd_126 => AASd126 v
  | .reference_aasd_127 => AASd127 v
  | .reference_aasd_128 => AASd128 (Num128 lim) v
  | .embeddedDataSpecification_reference => RefersToIec61360 v
  | .dataSpecificationIec61360_aasc_3a_002 => AASc002 v
  | .dataSpecificationIec61360_aasc_3a_009 => AASc009 v
  | .dataSpecificationIec61360_aasc_3a_010 => AASc010 v
  | .hasSemantics_aasd_118 => AASd118 v
  | .extension_value_type | .qualifier_value_type | .property_value_type => ValueOk lim .value v
  | .range_value_type_min => ValueOk lim .min v
  | .range_value_type_max => ValueOk lim .max v
  | .referable_constraint_aasd_002 => AASd002 v
  | .administrativeInformation_constraint_aasd_005 => AASd005 v
  | .specificAssetId_aasd_133 => AASd133 v
  | .assetInformation_aasd_131 => AASd131 v
  | .assetInformation_aasd_116 => AASd116Exact v
  | .dataElement_aasd_090 => AASd090 v
  | .annotatedRelationshipElement_aasd_117 => HaveIdShorts (elems v .annotations)
  | .entity_aad_117 => HaveIdShorts (elems v .statements)
  | .submodelElementCollection_aasd_117 => HaveIdShorts (elems v .value)
  | .submodel_aasd_117 => HaveIdShorts (elems v .submodelElements)
  | .submodelElementCollection_aasd_022 => UniqueIdShorts (elems v .value)
  | .submodel_aasd_022 => UniqueIdShorts (elems v .submodelElements)
  | .basicEventElement_observed => ModelRef (get v .observed)
  | .basicEventElement_message_broker => ModelRefAt .messageBroker v
  | .entity_aasd_014 => AASd014 v
  | .operation_aasd_134 => AASd134 v
  | .submodelElementList_type_value_list_element => ElementType v
  | .submodelElementList_aasd_107 => AASd107 v
  | .submodelElementList_aasd_114 => AASd114 v
  | .submodelElementList_aasd_108 => AASd108Exact v
  | .submodelElementList_aasd_109 => AASd109 v
  | .submodelElementList_aasd_120 => NoIdShorts (elems v .value)
  | .submodel_aasd_119 => AASd119 v
  | .submodel_aasd_129 => AASd129Top v
  | .conceptDescription_aasc_3a_004 => NoContent [py!"PROPERTY", py!"VALUE"] v
  | .conceptDescription_aasc_3a_005 => NoContent [py!"REFERENCE"] v
  | .conceptDescription_aasc_3a_006 => NoContent [py!"DOCUMENT"] v
  | .conceptDescription_aasc_3a_007 => AASc007 v
  | .conceptDescription_aasc_3a_008 => AASc008 v
  | .qualifier_aasd_006 | .qualifier_aasd_020 | .submodelElement_aasc_3a_050 | .multiLanguageProperty_constraint_aasd_012
  | .property_aasd_007 | .submodelElementList_aasd_115 | .conceptDescription_aasc_3a_003
  | .operationVariable_aasd_117 | .assetAdministrationShell_derived_from | .assetAdministrationShell_submodels => True

/-- when a method raises something else -/
def crashOf (lim : Option Nat) (m : Method) (v : AVal) : Prop :=
  match m with
  | .extension_value_type | .qualifier_value_type | .property_value_type => ValueRaises lim .value v
  | .range_value_type_min => ValueRaises lim .min v
  | .range_value_type_max => ValueRaises lim .max v
  | .operationVariable_aasd_117 => idShort? (get v .value) = none
  | .assetAdministrationShell_derived_from => ¬ ModelRefAt .derivedFrom v
  | .assetAdministrationShell_submodels => ¬ (∀ r ∈ elems v .submodels, ModelRef r)
  | _ => False

/-- the class of a method, unless several classes have it -/
def ownerOf : Method → Option Cls
  | .reference_aasd_121 | .reference_aasd_122 | .reference_aasd_123 | .reference_aasd_124
  | .reference_aasd_125 | .reference_aasd_126 | .reference_aasd_127 | .reference_aasd_128 => some .reference
  | .embeddedDataSpecification_reference => some .embeddedDataSpecification
  | .dataSpecificationIec61360_aasc_3a_002 | .dataSpecificationIec61360_aasc_3a_009 | .dataSpecificationIec61360_aasc_3a_010 =>
    some .dataSpecificationIec61360
  | .extension_value_type => some .extension
  | .qualifier_value_type | .qualifier_aasd_006 | .qualifier_aasd_020 => some .qualifier
  | .property_value_type | .property_aasd_007 => some .property
  | .range_value_type_min | .range_value_type_max => some .range
  | .administrativeInformation_constraint_aasd_005 => some .administrativeInformation
  | .specificAssetId_aasd_133 => some .specificAssetId
  | .assetInformation_aasd_131 | .assetInformation_aasd_116 => some .assetInformation
  | .annotatedRelationshipElement_aasd_117 => some .annotatedRelationshipElement
  | .entity_aad_117 | .entity_aasd_014 => some .entity
  | .submodelElementCollection_aasd_117 | .submodelElementCollection_aasd_022 => some .submodelElementCollection
  | .submodel_aasd_117 | .submodel_aasd_022 | .submodel_aasd_119 | .submodel_aasd_129 => some .submodel
  | .basicEventElement_observed | .basicEventElement_message_broker => some .basicEventElement
  | .operation_aasd_134 => some .operation
  | .operationVariable_aasd_117 => some .operationVariable
  | .submodelElementList_type_value_list_element | .submodelElementList_aasd_107 | .submodelElementList_aasd_114
  | .submodelElementList_aasd_108 | .submodelElementList_aasd_109 | .submodelElementList_aasd_120
  | .submodelElementList_aasd_115 => some .submodelElementList
  | .conceptDescription_aasc_3a_004 | .conceptDescription_aasc_3a_005 | .conceptDescription_aasc_3a_006
  | .conceptDescription_aasc_3a_007 | .conceptDescription_aasc_3a_008 | .conceptDescription_aasc_3a_003 => some .conceptDescription
  | .assetAdministrationShell_derived_from | .assetAdministrationShell_submodels => some .assetAdministrationShell
  | .multiLanguageProperty_constraint_aasd_012 => some .multiLanguageProperty
  | .langStringSet_language | .langStringSet_text | .hasSemantics_aasd_118 | .referable_constraint_aasd_002 | .dataElement_aasd_090
  | .submodelElement_aasc_3a_050 => none

theorem owner_ok : ∀ c, ∀ m ∈ checkTable c, ownerOf m = none ∨ ownerOf m = some c := by
  intro c; cases c <;> decide +kernel

/-- what a method does -/
structure Does (lim : Option Nat) (m : Method) (v : AVal) : Prop where
  crashes : crashOf lim m v → ∃ e, Mishap e ∧ runMethod lim m v = .error (.py e)
  accepts : ¬ crashOf lim m v → ruleOf lim m v → runMethod lim m v = .ok ()
  reports : ¬ crashOf lim m v → ¬ ruleOf lim m v → runMethod lim m v = .error (.violated (labelOf m) (levelOf m))

theorem does_of {m : Method} (hl : levelOf m = .error) (hc : crashOf lim m v → False)
    (h : Decides (labelOf m) (runMethod lim m v) (ruleOf lim m v)) : Does lim m v :=
  ⟨fun hh => (hc hh).elim, fun _ => h.accepts, fun _ hr => by rw [h.reports hr, hl]⟩

theorem does_nothing {m : Method} (hc : crashOf lim m v → False) (hr : ruleOf lim m v) (h : runMethod lim m v = .ok ()) : Does lim m v :=
  ⟨fun hh => (hc hh).elim, fun _ _ => h, fun _ hn => absurd hr hn⟩

theorem does_crash {m : Method} {P : Prop} {e : PyExc} (hk : Mishap e) (hc : crashOf lim m v ↔ ¬ P) (hr : ruleOf lim m v)
    (h : (P → runMethod lim m v = .ok ()) ∧ (¬ P → runMethod lim m v = pyErr e)) : Does lim m v :=
  ⟨fun hh => ⟨e, hk, h.2 (hc.mp hh)⟩, fun hh _ => h.1 (Classical.byContradiction fun hn => hh (hc.mpr hn)), fun _ hn => absurd hr hn⟩

theorem does_value {m : Method} {f : Fld} (hl : labelOf m = py!"value") (hl2 : levelOf m = .error) (hr : ruleOf lim m v = ValueOk lim f v)
    (hc : crashOf lim m v = ValueRaises lim f v) (h : ValueOutcome lim f v (runMethod lim m v)) : Does lim m v := by
  rcases h with ⟨h1, h2⟩ | ⟨h1, t, ht, h⟩
  · exact ⟨fun hh => by rw [hc] at hh; exact absurd hh.1 h1, fun _ _ => h2, fun _ hn => by rw [hr] at hn; exact absurd (fun hs => absurd hs h1) hn⟩
  · have hu : ∀ u : Xsd, u.name = txt v .valueType → u = t := fun u hu => xsd_name_inj u t (hu.trans ht.symm)
    have hi : ValueOk lim f v ↔ validate lim t (txt v f) = .ok true :=
      ⟨fun hh => (C82_accepted lim t _).mpr (hh h1 t ht), fun hh _ u hu' => by rw [hu u hu']; exact (C82_accepted lim t _).mp hh⟩
    have hj : ValueRaises lim f v ↔ ∃ e, validate lim t (txt v f) = .error e :=
      ⟨fun ⟨_, u, hu', hf⟩ => ⟨.valueError, (C82_fails lim t _ _).mpr ⟨rfl, hu u hu' ▸ hf⟩⟩,
        fun ⟨e, he⟩ => ⟨h1, t, ht, ((C82_fails lim t _ _).mp he).2⟩⟩
    generalize hx : runMethod lim m v = x at h
    constructor
    · rw [hc, hj, hx]
      rintro ⟨e, he⟩
      cases h with
      | valid hv => rw [he] at hv; cases hv
      | invalid hv => rw [he] at hv; cases hv
      | raised hv => exact ⟨_, .inr (.inr (C28_kind hv)), rfl⟩
    · rw [hc, hj, hr, hi, hx]
      intro _ hv
      cases h with
      | valid hv => rfl
      | invalid hv' => rw [hv] at hv'; cases hv'
      | raised hv' => rw [hv] at hv'; cases hv'
    · rw [hc, hj, hr, hi, hx, hl, hl2]
      intro hn hv
      cases h with
      | valid hv' => exact absurd hv' hv
      | invalid hv' => rfl
      | raised hv' => exact absurd ⟨_, hv'⟩ hn

theorem method_does (h : Obj lim c v) (hc : c ≠ .langStringSet) {m : Method} (hm : m ∈ checkTable c) : Does lim m v := by
  have ho := owner_ok c m hm
  cases m
  case langStringSet_language => exact does_of rfl id (decides_language h hm)
  case langStringSet_text => exact does_of rfl id (decides_text h hm hc)
  case hasSemantics_aasd_118 => exact does_of rfl id (decides_118 h hm)
  case referable_constraint_aasd_002 => exact does_of rfl id (decides_002 h hm)
  case dataElement_aasd_090 => exact does_of rfl id (decides_090 h hm)
  case submodelElement_aasc_3a_050 => exact does_nothing id trivial rfl
  all_goals
    obtain rfl : _ = c := by
      rcases ho with ho | ho
      · cases ho
      · exact Option.some.inj ho
  case reference_aasd_121 => exact does_of rfl id (decides_121 h)
  case reference_aasd_122 => exact does_of rfl id (decides_122 h)
  case reference_aasd_123 => exact does_of rfl id (decides_123 h)
  case reference_aasd_124 => exact does_of rfl id (decides_124 h)
  case reference_aasd_125 => exact does_of rfl id (decides_125 h)
  case reference_aasd_126 => exact does_of rfl id (decides_126 h)
  case reference_aasd_127 => exact does_of rfl id (decides_127 h)
  case reference_aasd_128 => exact does_of rfl id (decides_128 h)
  case embeddedDataSpecification_reference =>
    have := decides_dataSpecification h
    exact ⟨False.elim, fun _ hr => this.1 hr, fun _ hr => this.2 hr⟩
  case dataSpecificationIec61360_aasc_3a_002 => exact does_of rfl id (decides_3a_002 h)
  case dataSpecificationIec61360_aasc_3a_009 => exact does_of rfl id (decides_3a_009 h)
  case dataSpecificationIec61360_aasc_3a_010 => exact does_of rfl id (decides_3a_010 h)
  case extension_value_type =>
    rcases extension_value h with ⟨h1, h2⟩ | ⟨h1, h2⟩
    · have hn : ∀ t : Xsd, t.name ≠ txt v .valueType := by
        rcases h.enum? (f := .valueType) rfl with ⟨-, -, a3⟩ | ⟨-, a2, -⟩
        · rw [a3]; intro t; cases t <;> decide
        · exact absurd a2 h1
      exact ⟨fun ⟨_, t, ht, _⟩ => absurd ht (hn t), fun _ _ => h2, fun _ hr => absurd (fun _ t ht => absurd ht (hn t)) hr⟩
    · exact does_value rfl rfl rfl rfl h2
  case qualifier_aasd_006 => exact does_nothing id trivial rfl
  case qualifier_aasd_020 => exact does_nothing id trivial rfl
  case qualifier_value_type => exact does_value rfl rfl rfl rfl (qualifier_value h)
  case administrativeInformation_constraint_aasd_005 => exact does_of rfl id (decides_005 h)
  case specificAssetId_aasd_133 => exact does_of rfl id (decides_133 h)
  case assetInformation_aasd_131 => exact does_of rfl id (decides_131 h)
  case assetInformation_aasd_116 => exact does_of rfl id (decides_116 h)
  case annotatedRelationshipElement_aasd_117 => exact does_of rfl id (decides_117_annotations h)
  case basicEventElement_observed => exact does_of rfl id (decides_observed h)
  case basicEventElement_message_broker => exact does_of rfl id (decides_messageBroker h)
  case entity_aasd_014 => exact does_of rfl id (decides_014 h)
  case entity_aad_117 => exact does_of rfl id (decides_117_entity h)
  case multiLanguageProperty_constraint_aasd_012 => exact does_nothing id trivial rfl
  case operationVariable_aasd_117 =>
    refine does_crash (.inl rfl) ?_ trivial (operationVariable_outcome h)
    simp [crashOf]
  case operation_aasd_134 => exact does_of rfl id (decides_134 h)
  case property_aasd_007 => exact does_nothing id trivial rfl
  case property_value_type => exact does_value rfl rfl rfl rfl (property_value h)
  case range_value_type_min => exact does_value rfl rfl rfl rfl (range_min h)
  case range_value_type_max => exact does_value rfl rfl rfl rfl (range_max h)
  case submodelElementCollection_aasd_022 => exact does_of rfl id (decides_022_collection h)
  case submodelElementCollection_aasd_117 => exact does_of rfl id (decides_117_collection h)
  case submodelElementList_type_value_list_element => exact does_of rfl id (decides_elementType h)
  case submodelElementList_aasd_107 => exact does_of rfl id (decides_107 h)
  case submodelElementList_aasd_114 => exact does_of rfl id (decides_114 h)
  case submodelElementList_aasd_115 => exact does_nothing id trivial rfl
  case submodelElementList_aasd_108 => exact does_of rfl id (decides_108 h)
  case submodelElementList_aasd_109 => exact does_of rfl id (decides_109 h)
  case submodelElementList_aasd_120 => exact does_of rfl id (decides_120 h)
  case assetAdministrationShell_derived_from => exact does_crash (.inl rfl) Iff.rfl trivial (derivedFrom_outcome h)
  case assetAdministrationShell_submodels => exact does_crash (.inl rfl) Iff.rfl trivial (submodels_outcome h)
  case submodel_aasd_022 => exact does_of rfl id (decides_022_submodel h)
  case submodel_aasd_117 => exact does_of rfl id (decides_117_submodel h)
  case submodel_aasd_119 => exact does_of rfl id (decides_119 h)
  case submodel_aasd_129 => exact does_of rfl id (decides_129 h)
  case conceptDescription_aasc_3a_004 => exact does_of rfl id (decides_iec h _ _)
  case conceptDescription_aasc_3a_005 => exact does_of rfl id (decides_iec h _ _)
  case conceptDescription_aasc_3a_006 => exact does_of rfl id (decides_iec h _ _)
  case conceptDescription_aasc_3a_007 => exact does_of rfl id (decides_3a_007 h)
  case conceptDescription_aasc_3a_008 => exact does_of rfl id (decides_3a_008 h)
  case conceptDescription_aasc_3a_003 => exact does_nothing id trivial rfl

/-! ## the rules of an object -/

theorem set_slot (h : Obj lim c v) {f : Fld} (hs : Set v f) : (slotOf c f).isSome = true := by
  obtain ⟨attrs, rfl, hf⟩ := h.fields
  cases hsl : slotOf c f with
  | some _ => rfl
  | none =>
    exfalso
    have hn : lookup f attrs = none := by
      refine lookup_none attrs fun a ha he => ?_
      have hm : f ∈ attrs.map (·.1) := List.mem_map.mpr ⟨a, ha, he⟩
      rw [hf.names] at hm
      obtain ⟨x, hx, hn⟩ := List.mem_map.mp hm
      have : (fieldsOf c).find? (fun a => decide (a.name = f)) ≠ none := by
        rw [Ne, List.find?_eq_none]
        intro hall
        exact hall x hx (by simpa using hn)
      apply this
      rw [slotOf] at hsl
      simpa using hsl
    apply hs
    rw [Model.get, find_lookup, hn]
    rfl

def ofName? (s : Str) : Option Cls := allCls.find? (fun c => decide (c.pyName = s))

theorem ofName_pyName (c : Cls) : ofName? c.pyName = some c := by cases c <;> decide +kernel

theorem pyName_inj {c d : Cls} (h : c.pyName = d.pyName) : c = d := by
  have h1 := ofName_pyName c
  rw [h, ofName_pyName d] at h1
  exact (Option.some.inj h1).symm

theorem cls_of (h : Obj lim c v) (d : Cls) (hn : className v = d.pyName) : c = d := pyName_inj (h.className.symm.trans hn)

theorem table_facts (c : Cls) :
    ((slotOf c .supplementalSemanticIds).isSome = true → .hasSemantics_aasd_118 ∈ checkTable c) ∧
    ((slotOf c .idShort).isSome = true → .referable_constraint_aasd_002 ∈ checkTable c) ∧
    (.dataElement_aasd_090 ∈ checkTable c → isAbstract c = false → c.pyName ∈ specializations py!"DataElement") ∧
    (c.pyName ∈ specializations py!"DataElement" → .dataElement_aasd_090 ∈ checkTable c) ∧
    (.langStringSet_language ∈ checkTable c → c ≠ .langStringSet → c.pyName ∈ langStrings) ∧
    (.langStringSet_text ∈ checkTable c → c ≠ .langStringSet → c.pyName ∈ langStrings) ∧
    (c.pyName ∈ langStrings → .langStringSet_language ∈ checkTable c ∧ .langStringSet_text ∈ checkTable c) := by
  cases c <;> refine ⟨?_, ?_, ?_, ?_, ?_, ?_, ?_⟩ <;> decide +kernel

theorem idShort_slot (h : Obj lim c v) {s : Str} (hs : idShort? v = some s) : (slotOf c .idShort).isSome = true := by
  refine set_slot h ?_
  intro hn
  rw [idShort?, hn] at hs
  cases hs

/-- the rules an object breaks -/
theorem broken_iff (h : Obj lim c v) (ha : isAbstract c = false) (hc : c ≠ .langStringSet) {t : Str} {l : Level} :
    Broken lim (Num128 lim) v t l ↔ ∃ m ∈ checkTable c, labelOf m = t ∧ levelOf m = l ∧ ¬ ruleOf lim m v := by
  obtain ⟨f1, f2, f3, f4, f5, f6, f7⟩ := table_facts c
  constructor
  · intro hb
    cases hb
    case aasd118 hr =>
      refine ⟨.hasSemantics_aasd_118, f1 (set_slot h ?_), rfl, rfl, hr⟩
      exact Classical.byContradiction fun hn => hr fun hs => absurd hs hn
    case aasd002 hr =>
      refine ⟨.referable_constraint_aasd_002, f2 ?_, rfl, rfl, hr⟩
      apply Classical.byContradiction
      intro hn
      exact hr fun s hs => absurd (idShort_slot h hs) hn
    case aasd090 hn hr => exact ⟨.dataElement_aasd_090, f4 (h.className ▸ hn), rfl, rfl, hr⟩
    case language hn hr => exact ⟨.langStringSet_language, (f7 (h.className ▸ hn)).1, rfl, rfl, hr⟩
    case text hn hr => exact ⟨.langStringSet_text, (f7 (h.className ▸ hn)).2, rfl, rfl, hr⟩
    case value hn hr =>
      simp only [List.mem_cons, List.not_mem_nil, or_false] at hn
      rcases hn with hn | hn | hn
      · obtain rfl := cls_of h .extension hn
        exact ⟨.extension_value_type, by decide, rfl, rfl, hr⟩
      · obtain rfl := cls_of h .qualifier hn
        exact ⟨.qualifier_value_type, by decide, rfl, rfl, hr⟩
      · obtain rfl := cls_of h .property hn
        exact ⟨.property_value_type, by decide, rfl, rfl, hr⟩
    case aasd121 hn hr => obtain rfl := cls_of h .reference hn; exact ⟨.reference_aasd_121, by decide, rfl, rfl, hr⟩
    case aasd122 hn hr => obtain rfl := cls_of h .reference hn; exact ⟨.reference_aasd_122, by decide, rfl, rfl, hr⟩
    case aasd123 hn hr => obtain rfl := cls_of h .reference hn; exact ⟨.reference_aasd_123, by decide, rfl, rfl, hr⟩
    case aasd124 hn hr => obtain rfl := cls_of h .reference hn; exact ⟨.reference_aasd_124, by decide, rfl, rfl, hr⟩
    case aasd125 hn hr => obtain rfl := cls_of h .reference hn; exact ⟨.reference_aasd_125, by decide, rfl, rfl, hr⟩
    case aasd126 hn hr => obtain rfl := cls_of h .reference hn; exact ⟨.reference_aasd_126, by decide, rfl, rfl, hr⟩
    case aasd127 hn hr => obtain rfl := cls_of h .reference hn; exact ⟨.reference_aasd_127, by decide, rfl, rfl, hr⟩
    case aasd128 hn hr => obtain rfl := cls_of h .reference hn; exact ⟨.reference_aasd_128, by decide, rfl, rfl, hr⟩
    case dataSpecification hn hr =>
      obtain rfl := cls_of h .embeddedDataSpecification hn; exact ⟨.embeddedDataSpecification_reference, by decide, rfl, rfl, hr⟩
    case aasc002 hn hr =>
      obtain rfl := cls_of h .dataSpecificationIec61360 hn; exact ⟨.dataSpecificationIec61360_aasc_3a_002, by decide, rfl, rfl, hr⟩
    case aasc009 hn hr =>
      obtain rfl := cls_of h .dataSpecificationIec61360 hn; exact ⟨.dataSpecificationIec61360_aasc_3a_009, by decide, rfl, rfl, hr⟩
    case aasc010 hn hr =>
      obtain rfl := cls_of h .dataSpecificationIec61360 hn; exact ⟨.dataSpecificationIec61360_aasc_3a_010, by decide, rfl, rfl, hr⟩
    case min hn hr => obtain rfl := cls_of h .range hn; exact ⟨.range_value_type_min, by decide, rfl, rfl, hr⟩
    case max hn hr => obtain rfl := cls_of h .range hn; exact ⟨.range_value_type_max, by decide, rfl, rfl, hr⟩
    case aasd005 hn hr =>
      obtain rfl := cls_of h .administrativeInformation hn
      exact ⟨.administrativeInformation_constraint_aasd_005, by decide, rfl, rfl, hr⟩
    case aasd133 hn hr => obtain rfl := cls_of h .specificAssetId hn; exact ⟨.specificAssetId_aasd_133, by decide, rfl, rfl, hr⟩
    case aasd131 hn hr => obtain rfl := cls_of h .assetInformation hn; exact ⟨.assetInformation_aasd_131, by decide, rfl, rfl, hr⟩
    case aasd116 hn hr => obtain rfl := cls_of h .assetInformation hn; exact ⟨.assetInformation_aasd_116, by decide, rfl, rfl, hr⟩
    case annotations hn hr =>
      obtain rfl := cls_of h .annotatedRelationshipElement hn; exact ⟨.annotatedRelationshipElement_aasd_117, by decide, rfl, rfl, hr⟩
    case statements hn hr => obtain rfl := cls_of h .entity hn; exact ⟨.entity_aad_117, by decide, rfl, rfl, hr⟩
    case collection hn hr =>
      obtain rfl := cls_of h .submodelElementCollection hn; exact ⟨.submodelElementCollection_aasd_117, by decide, rfl, rfl, hr⟩
    case submodel hn hr => obtain rfl := cls_of h .submodel hn; exact ⟨.submodel_aasd_117, by decide, rfl, rfl, hr⟩
    case uniqueCollection hn hr =>
      obtain rfl := cls_of h .submodelElementCollection hn; exact ⟨.submodelElementCollection_aasd_022, by decide, rfl, rfl, hr⟩
    case uniqueSubmodel hn hr => obtain rfl := cls_of h .submodel hn; exact ⟨.submodel_aasd_022, by decide, rfl, rfl, hr⟩
    case aasd120 hn hr => obtain rfl := cls_of h .submodelElementList hn; exact ⟨.submodelElementList_aasd_120, by decide, rfl, rfl, hr⟩
    case aasd134 hn hr => obtain rfl := cls_of h .operation hn; exact ⟨.operation_aasd_134, by decide, rfl, rfl, hr⟩
    case observed hn hr => obtain rfl := cls_of h .basicEventElement hn; exact ⟨.basicEventElement_observed, by decide, rfl, rfl, hr⟩
    case messageBroker hn hr =>
      obtain rfl := cls_of h .basicEventElement hn; exact ⟨.basicEventElement_message_broker, by decide, rfl, rfl, hr⟩
    case aasd014 hn hr => obtain rfl := cls_of h .entity hn; exact ⟨.entity_aasd_014, by decide, rfl, rfl, hr⟩
    case elementType hn hr =>
      obtain rfl := cls_of h .submodelElementList hn; exact ⟨.submodelElementList_type_value_list_element, by decide, rfl, rfl, hr⟩
    case aasd107 hn hr => obtain rfl := cls_of h .submodelElementList hn; exact ⟨.submodelElementList_aasd_107, by decide, rfl, rfl, hr⟩
    case aasd108 hn hr => obtain rfl := cls_of h .submodelElementList hn; exact ⟨.submodelElementList_aasd_108, by decide, rfl, rfl, hr⟩
    case aasd109 hn hr => obtain rfl := cls_of h .submodelElementList hn; exact ⟨.submodelElementList_aasd_109, by decide, rfl, rfl, hr⟩
    case aasd114 hn hr => obtain rfl := cls_of h .submodelElementList hn; exact ⟨.submodelElementList_aasd_114, by decide, rfl, rfl, hr⟩
    case aasd119 hn hr => obtain rfl := cls_of h .submodel hn; exact ⟨.submodel_aasd_119, by decide, rfl, rfl, hr⟩
    case aasd129 hn hr => obtain rfl := cls_of h .submodel hn; exact ⟨.submodel_aasd_129, by decide, rfl, rfl, hr⟩
    case aasc004 hn hr => obtain rfl := cls_of h .conceptDescription hn; exact ⟨.conceptDescription_aasc_3a_004, by decide, rfl, rfl, hr⟩
    case aasc005 hn hr => obtain rfl := cls_of h .conceptDescription hn; exact ⟨.conceptDescription_aasc_3a_005, by decide, rfl, rfl, hr⟩
    case aasc006 hn hr => obtain rfl := cls_of h .conceptDescription hn; exact ⟨.conceptDescription_aasc_3a_006, by decide, rfl, rfl, hr⟩
    case aasc007 hn hr => obtain rfl := cls_of h .conceptDescription hn; exact ⟨.conceptDescription_aasc_3a_007, by decide, rfl, rfl, hr⟩
    case aasc008 hn hr => obtain rfl := cls_of h .conceptDescription hn; exact ⟨.conceptDescription_aasc_3a_008, by decide, rfl, rfl, hr⟩
  · rintro ⟨m, hm, rfl, rfl, hr⟩
    have ho := owner_ok c m hm
    cases m
    case langStringSet_language => exact .language (by rw [h.className]; exact f5 hm hc) hr
    case langStringSet_text => exact .text (by rw [h.className]; exact f6 hm hc) hr
    case hasSemantics_aasd_118 => exact .aasd118 hr
    case referable_constraint_aasd_002 => exact .aasd002 hr
    case dataElement_aasd_090 => exact .aasd090 (by rw [h.className]; exact f3 hm ha) hr
    case submodelElement_aasc_3a_050 => exact absurd trivial hr
    all_goals
      obtain rfl : _ = c := by
        rcases ho with ho | ho
        · cases ho
        · exact Option.some.inj ho
      have hn := h.className
    all_goals first
      | exact absurd trivial hr
      | exact .aasd121 hn hr
      | exact .aasd122 hn hr
      | exact .aasd123 hn hr
      | exact .aasd124 hn hr
      | exact .aasd125 hn hr
      | exact .aasd126 hn hr
      | exact .aasd127 hn hr
      | exact .aasd128 hn hr
      | exact .dataSpecification hn hr
      | exact .aasc002 hn hr
      | exact .aasc009 hn hr
      | exact .aasc010 hn hr
      | exact .min hn hr
      | exact .max hn hr
      | exact .value (by rw [hn]; decide) hr
      | exact .aasd005 hn hr
      | exact .aasd133 hn hr
      | exact .aasd131 hn hr
      | exact .aasd116 hn hr
      | exact .annotations hn hr
      | exact .statements hn hr
      | exact .collection hn hr
      | exact .submodel hn hr
      | exact .uniqueCollection hn hr
      | exact .uniqueSubmodel hn hr
      | exact .aasd120 hn hr
      | exact .aasd134 hn hr
      | exact .observed hn hr
      | exact .messageBroker hn hr
      | exact .aasd014 hn hr
      | exact .elementType hn hr
      | exact .aasd107 hn hr
      | exact .aasd108 hn hr
      | exact .aasd109 hn hr
      | exact .aasd114 hn hr
      | exact .aasd119 hn hr
      | exact .aasd129 hn hr
      | exact .aasc004 hn hr
      | exact .aasc005 hn hr
      | exact .aasc006 hn hr
      | exact .aasc007 hn hr
      | exact .aasc008 hn hr

theorem crashes_iff (h : Obj lim c v) : Crashes lim v ↔ ∃ m ∈ checkTable c, crashOf lim m v := by
  constructor
  · intro hb
    cases hb with
    | value hn hr =>
      simp only [List.mem_cons, List.not_mem_nil, or_false] at hn
      rcases hn with hn | hn | hn
      · obtain rfl := cls_of h .extension hn
        exact ⟨.extension_value_type, by decide, hr⟩
      · obtain rfl := cls_of h .qualifier hn
        exact ⟨.qualifier_value_type, by decide, hr⟩
      · obtain rfl := cls_of h .property hn
        exact ⟨.property_value_type, by decide, hr⟩
    | min hn hr => obtain rfl := cls_of h .range hn; exact ⟨.range_value_type_min, by decide, hr⟩
    | max hn hr => obtain rfl := cls_of h .range hn; exact ⟨.range_value_type_max, by decide, hr⟩
    | operationVariable hn hr => obtain rfl := cls_of h .operationVariable hn; exact ⟨.operationVariable_aasd_117, by decide, hr⟩
    | derivedFrom hn hr =>
      obtain rfl := cls_of h .assetAdministrationShell hn; exact ⟨.assetAdministrationShell_derived_from, by decide, hr⟩
    | submodels hn hr => obtain rfl := cls_of h .assetAdministrationShell hn; exact ⟨.assetAdministrationShell_submodels, by decide, hr⟩
  · rintro ⟨m, hm, hr⟩
    have ho := owner_ok c m hm
    cases m
    all_goals try exact hr.elim
    all_goals
      obtain rfl : _ = c := by
        rcases ho with ho | ho
        · cases ho
        · exact Option.some.inj ho
      have hn := h.className
    all_goals first
      | exact .min hn hr
      | exact .max hn hr
      | exact .value (by rw [hn]; decide) hr
      | exact .operationVariable hn hr
      | exact .derivedFrom hn hr
      | exact .submodels hn hr

end Verif.Aas
