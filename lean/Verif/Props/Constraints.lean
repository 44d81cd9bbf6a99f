import Verif.Samples
import Verif.Props.Values

/-!
# C42 to C48, C61 to C63: the constraints of the AAS specification

`Obj lim c v`: `v` is an object of the class `c` whose attributes are typed, as the parser returns it (C36). `runMethod` runs one of
the methods `check_...`. `Decides name x rule`: `x` reports nothing if the rule holds, and an error with the text `name` otherwise.
-/

namespace Verif.Props
open Verif Verif.Parse Verif.Spec.Parse Verif.Spec.Model Verif.Aas Verif.DataTypes Verif.Spec
open Verif.Aas.Samples (mk key ref modelRef badRef globalRef obj_of_check)

variable (lim : Option Nat) (v : AVal)

/-! ## C42: references -/

/-- what Python reads as a number that is not negative -/
def IndexText (lim : Option Nat) (s : Str) : Prop :=
  ∃ n k, PyIntText digitVal numSpace s n k ∧ (∀ l, lim = some l → k ≤ l) ∧ 0 ≤ n

theorem num128_iff (s : Str) : Num128 lim s ↔ IndexText lim s := by
  have := C17_accepted_partial lim .nonNegativeInteger (some 0, none) (by decide) s
  rw [validate, Except.ok.injEq] at this
  rw [Num128, this, IndexText]
  simp [InRange]

/-- each check decides its rule -/
theorem C42_rules (h : Obj lim .reference v) :
    Decides py!"AASd-121" (runMethod lim .reference_aasd_121 v) (AASd121 v) ∧
    Decides py!"AASd-122" (runMethod lim .reference_aasd_122 v) (AASd122 v) ∧
    Decides py!"AASd-123" (runMethod lim .reference_aasd_123 v) (AASd123 v) ∧
    Decides py!"AASd-124" (runMethod lim .reference_aasd_124 v) (AASd124 v) ∧
    Decides py!"AASd-125" (runMethod lim .reference_aasd_125 v) (AASd125 v) ∧
    Decides py!"AASd-126" (runMethod lim .reference_aasd_126 v) (AASd126 v) ∧
    Decides py!"AASd-127" (runMethod lim .reference_aasd_127 v) (AASd127 v) ∧
    Decides py!"AASd-128" (runMethod lim .reference_aasd_128 v) (AASd128 (IndexText lim) v) :=
  ⟨decides_121 h, decides_122 h, decides_123 h, decides_124 h, decides_125 h, decides_126 h, decides_127 h,
    (decides_128 h).iff (by simp only [AASd128, num128_iff])⟩

theorem keyAt_unique {r : AVal} {i : Nat} {s t : Str} (h1 : KeyAt r i s) (h2 : KeyAt r i t) : s = t := by
  obtain ⟨k, hk, rfl⟩ := h1
  obtain ⟨k', hk', rfl⟩ := h2
  rw [hk] at hk'; cases hk'; rfl

/-- A reference passes the eight checks iff it satisfies the eight rules, with AASd-127 also for a first key. Partial: the numbers of
AASd-128 are those that Python accepts. -/
theorem C42_reference_partial (h : Obj lim .reference v) :
    (∀ m ∈ checkTable .reference, runMethod lim m v = .ok ()) ↔
      AASd121 v ∧ AASd122 v ∧ AASd123 v ∧ AASd124 v ∧ AASd125 v ∧ AASd126 v ∧ AASd127Strict v ∧ AASd128 (IndexText lim) v := by
  obtain ⟨h1, h2, h3, h4, h5, h6, h7, h8⟩ := C42_rules lim v h
  have ht : checkTable .reference = [.reference_aasd_121, .reference_aasd_122, .reference_aasd_123, .reference_aasd_124,
    .reference_aasd_125, .reference_aasd_126, .reference_aasd_127, .reference_aasd_128] := by decide
  have key : ∀ {name : Str} {x : Chk Unit} {r : Prop}, Decides name x r → (x = .ok () ↔ r) := by
    intro name x r hd
    refine ⟨fun hx => Classical.byContradiction fun hn => ?_, hd.accepts⟩
    rw [hd.reports hn] at hx; cases hx
  have hstrict : AASd123 v → (AASd127 v ↔ AASd127Strict v) := by
    intro h123
    constructor
    · intro hr hm _ i hk
      cases i with
      | zero =>
        exact absurd (h123 hm _ hk) (by decide)
      | succ i =>
        obtain ⟨k, hk', -⟩ := id hk
        have hi : i < (elems v .keys).length := by
          have := (List.getElem?_eq_some_iff.mp hk').1; omega
        exact ⟨i, _, rfl, ⟨_, List.getElem?_eq_getElem hi, rfl⟩, hr hm i _ hk ⟨_, List.getElem?_eq_getElem hi, rfl⟩⟩
    · intro hr hm i t hf ht
      obtain ⟨k, hk, -⟩ := id hf
      have hl : 1 < (elems v .keys).length := by
        have := (List.getElem?_eq_some_iff.mp hk).1; omega
      obtain ⟨j, t', he, hk', hr'⟩ := hr hm hl _ hf
      obtain rfl : i = j := by omega
      rw [keyAt_unique ht hk']; exact hr'
  rw [ht]
  simp only [List.mem_cons, List.not_mem_nil, or_false, forall_eq_or_imp, forall_eq, key h1, key h2, key h3, key h4, key h5, key h6, key h7,
    key h8]
  constructor
  · rintro ⟨a, b, c, d, e, f, g, i⟩; exact ⟨a, b, c, d, e, f, (hstrict c).mp g, i⟩
  · rintro ⟨a, b, c, d, e, f, g, i⟩; exact ⟨a, b, c, d, e, f, (hstrict c).mpr g, i⟩

/-- AASd-128 for visible ASCII text without underscore: the key is an integer that is not negative -/
theorem C42_index (s : Str) (hp : ∀ c ∈ s, 33 ≤ c ∧ c < 128 ∧ c ≠ pc! '_') (hf : Fits lim s) :
    IndexText lim s ↔ ∃ n, IntegerText s n ∧ 0 ≤ n := by
  have h1 := C17_plain_text lim .nonNegativeInteger (some 0, none) (by decide) s hp hf
  have h2 := C17_accepted_partial lim .nonNegativeInteger (some 0, none) (by decide) s
  rw [h2] at h1
  simpa [IndexText, InRange] using h1

/-- AASd-128 accepts keys that are no integers: `1_0` -/
theorem C42_index_violated : IndexText none py!"1_0" ∧ ¬ ∃ n, IntegerText py!"1_0" n := by
  refine ⟨(num128_iff none _).mp (by unfold Num128; decide +kernel), ?_⟩
  rintro ⟨n, h⟩
  exact (integerText_plain h 95 (by simp)).2.2 rfl

example : Obj none .reference modelRef := obj_of_check 9 rfl (by decide +kernel)
-- all rules hold; the first key of `badRef` fits, the index does not
example : ∀ m ∈ checkTable .reference, runMethod none m modelRef = .ok () := by decide +kernel
example : Obj none .reference badRef ∧ runMethod none .reference_aasd_128 badRef = .error (.violated py!"AASd-128" .error) :=
  ⟨obj_of_check 9 rfl (by decide +kernel), by decide +kernel⟩

/-! ## C43: idShorts -/

/-- AASd-022: unique in submodels and collections -/
theorem C43_unique :
    (Obj lim .submodel v → Decides py!"AASd-022" (runMethod lim .submodel_aasd_022 v) (UniqueIdShorts (elems v .submodelElements))) ∧
    (Obj lim .submodelElementCollection v →
      Decides py!"AASd-022" (runMethod lim .submodelElementCollection_aasd_022 v) (UniqueIdShorts (elems v .value))) :=
  ⟨decides_022_submodel, decides_022_collection⟩

/-- AASd-117: elements outside of lists have an idShort -/
theorem C43_have :
    (Obj lim .submodel v → Decides py!"AASd-117" (runMethod lim .submodel_aasd_117 v) (HaveIdShorts (elems v .submodelElements))) ∧
    (Obj lim .submodelElementCollection v →
      Decides py!"AASd-117" (runMethod lim .submodelElementCollection_aasd_117 v) (HaveIdShorts (elems v .value))) ∧
    (Obj lim .entity v → Decides py!"AASd-117" (runMethod lim .entity_aad_117 v) (HaveIdShorts (elems v .statements))) ∧
    (Obj lim .annotatedRelationshipElement v →
      Decides py!"AASd-117" (runMethod lim .annotatedRelationshipElement_aasd_117 v) (HaveIdShorts (elems v .annotations))) :=
  ⟨decides_117_submodel, decides_117_collection, decides_117_entity, decides_117_annotations⟩

/-- AASd-120 and AASd-134: elements of lists have none, those of operation variables are unique -/
theorem C43_lists_and_operations :
    (Obj lim .submodelElementList v → Decides py!"AASd-120" (runMethod lim .submodelElementList_aasd_120 v) (NoIdShorts (elems v .value))) ∧
    (Obj lim .operation v → Decides py!"AASd-134" (runMethod lim .operation_aasd_134 v) (AASd134 v)) :=
  ⟨decides_120, decides_134⟩

/-- AASd-117 for operation variables. Partial: if the idShort is missing, the check does not report it, it raises `AttributeError`. -/
theorem C43_operation_variable_partial (h : Obj lim .operationVariable v) :
    ((idShort? (get v .value)).isSome = true → runMethod lim .operationVariable_aasd_117 v = .ok ()) ∧
    (¬ (idShort? (get v .value)).isSome = true → runMethod lim .operationVariable_aasd_117 v = pyErr .attributeError) :=
  operationVariable_outcome h

def capability (idShort : AVal) : AVal := mk .capability [(.idShort, idShort)]
def named (s : Str) : AVal := .sfv .nameTypeString s

/-- C43 fails for an operation variable without idShort -/
theorem C43_operation_variable_violated : ∃ v, Obj none .operationVariable v ∧ idShort? (get v .value) = none ∧
    runMethod none .operationVariable_aasd_117 v = pyErr .attributeError :=
  ⟨mk .operationVariable [(.value, capability .none)], obj_of_check 9 rfl (by decide +kernel), rfl, by decide +kernel⟩

def twins : AVal := mk .entity [(.entityType, .enum .entityType py!"CoManagedEntity"),
  (.statements, .list [capability (named py!"a"), capability (named py!"a")])]

/-- C43 fails for statements of entities: no check requires that their idShorts are unique -/
theorem C43_entity_violated : Obj none .entity twins ∧ ¬ UniqueIdShorts (elems twins .statements) ∧
    ∀ m ∈ checkTable .entity, runMethod none m twins = .ok () :=
  ⟨obj_of_check 9 rfl (by decide +kernel), by unfold UniqueIdShorts; decide +kernel, by decide +kernel⟩

def namedProp (s : Str) : AVal := mk .property [(.valueType, .enum .dataTypeDefXsd py!"xs:int"), (.idShort, named s)]
def pair : AVal := mk .annotatedRelationshipElement [(.first_, globalRef py!"a"), (.second, globalRef py!"b"),
  (.annotations, .list [namedProp py!"a", namedProp py!"a"])]
/-- … and for annotations -/
theorem C43_annotations_violated : Obj none .annotatedRelationshipElement pair ∧ ¬ UniqueIdShorts (elems pair .annotations) ∧
    ∀ m ∈ checkTable .annotatedRelationshipElement, runMethod none m pair = .ok () :=
  ⟨obj_of_check 9 rfl (by decide +kernel), by unfold UniqueIdShorts; decide +kernel, by decide +kernel⟩

def smallSubmodel (els : List AVal) : AVal := mk .submodel [(.id, .sfv .identifierString py!"urn:s"), (.submodelElements, .list els)]
example : Obj none .submodel (smallSubmodel [capability (named py!"a"), capability (named py!"b")]) := obj_of_check 9 rfl (by decide +kernel)
example : runMethod none .submodel_aasd_022 (smallSubmodel [capability (named py!"a"), capability (named py!"b")]) = .ok () ∧
    runMethod none .submodel_aasd_022 (smallSubmodel [capability (named py!"a"), capability (named py!"a")]) =
      .error (.violated py!"AASd-022" .error) := by decide +kernel

/-! ## C44: lists -/

/-- AASd-107, AASd-114, and the type of the elements -/
theorem C44_semantics (h : Obj lim .submodelElementList v) :
    Decides py!"AASd-107" (runMethod lim .submodelElementList_aasd_107 v) (AASd107 v) ∧
    Decides py!"AASd-114" (runMethod lim .submodelElementList_aasd_114 v) (AASd114 v) ∧
    Decides py!"typeValueListElement" (runMethod lim .submodelElementList_type_value_list_element v) (ElementType v) :=
  ⟨decides_107 h, decides_114 h, decides_elementType h⟩

/-- AASd-108. Partial: only for types without more special ones. -/
theorem C44_types_partial (h : Obj lim .submodelElementList v) (ht : specializations (txt v .typeValueListElement) = []) :
    Decides py!"AASd-108" (runMethod lim .submodelElementList_aasd_108 v) (AASd108 v) :=
  (decides_108 h).iff (by simp [AASd108, AASd108Exact, ht])

/-- what is not of the declared type, or of a more special one, is always reported -/
theorem C44_types_sound (h : Obj lim .submodelElementList v) (hv : ¬ AASd108 v) :
    runMethod lim .submodelElementList_aasd_108 v = .error (.violated py!"AASd-108" .error) :=
  (decides_108 h).reports (fun he => hv fun x hx => .inl (he x hx))

/-- AASd-109 of the elements. Partial: that the value type is declared is not checked for lists without elements. -/
theorem C44_value_types_partial (h : Obj lim .submodelElementList v) :
    Decides py!"AASd-109" (runMethod lim .submodelElementList_aasd_109 v) (AASd109 v) := decides_109 h

def boolProp : AVal := mk .property [(.valueType, .enum .dataTypeDefXsd py!"xs:boolean")]
def someList (t : Str) (vt : AVal) (l : AVal) : AVal := mk .submodelElementList
  [(.typeValueListElement, .enum .keyType t), (.valueTypeListElement, vt), (.value, l)]

/-- C44 fails for types that have more special types: a property in a list of data elements is reported -/
theorem C44_types_violated : ∃ v, Obj none .submodelElementList v ∧ AASd108 v ∧
    runMethod none .submodelElementList_aasd_108 v = .error (.violated py!"AASd-108" .error) :=
  ⟨someList py!"DataElement" .none (.list [boolProp]), obj_of_check 9 rfl (by decide +kernel), by unfold AASd108; decide +kernel,
    by decide +kernel⟩

/-- C44 fails for an empty list of properties without declared value type -/
theorem C44_declared_violated : ∃ v, Obj none .submodelElementList v ∧ ¬ AASd109Declared v ∧
    ∀ m ∈ checkTable .submodelElementList, runMethod none m v = .ok () :=
  ⟨someList py!"Property" .none .none, obj_of_check 9 rfl (by decide +kernel),
    fun hh => hh (.inl (by decide +kernel)) rfl, by decide +kernel⟩

example : Obj none .submodelElementList (someList py!"Property" (.enum .dataTypeDefXsd py!"xs:boolean") (.list [boolProp])) :=
  obj_of_check 9 rfl (by decide +kernel)
example : runMethod none .submodelElementList_aasd_109 (someList py!"Property" (.enum .dataTypeDefXsd py!"xs:boolean") (.list [boolProp])) = .ok () ∧
    runMethod none .submodelElementList_aasd_109 (someList py!"Property" (.enum .dataTypeDefXsd py!"xs:int") (.list [boolProp])) =
      .error (.violated py!"AASd-109" .error) := by decide +kernel

/-! ## C45: assets and entities -/

/-- AASd-014, AASd-131, and AASd-116 as far as the case of the name is respected -/
theorem C45_rules :
    (Obj lim .entity v → Decides py!"AASd-014" (runMethod lim .entity_aasd_014 v) (AASd014 v)) ∧
    (Obj lim .assetInformation v → Decides py!"AASd-131" (runMethod lim .assetInformation_aasd_131 v) (AASd131 v)) ∧
    (Obj lim .assetInformation v → Decides py!"AASd-116" (runMethod lim .assetInformation_aasd_116 v) (AASd116Exact v)) :=
  ⟨decides_014, decides_131, decides_116⟩

/-- AASd-116. Partial: only if no name is a variant of `globalAssetId` in another case. -/
theorem C45_reserved_name_partial (h : Obj lim .assetInformation v)
    (hc : ∀ x ∈ elems v .specificAssetIds, (txt x .name).map lowerChar = py!"globalassetid" → txt x .name = py!"globalAssetId") :
    Decides py!"AASd-116" (runMethod lim .assetInformation_aasd_116 v) (AASd116 v) :=
  (decides_116 h).iff ⟨fun hh x hx he => hh x hx (hc x hx he), fun hh x hx he => hh x hx (by rw [he]; decide)⟩

def asset (name : Str) : AVal := mk .assetInformation [(.assetKind, .enum .assetKind py!"Instance"),
  (.specificAssetIds, .list [mk .specificAssetId [(.name, .sfv .labelString name), (.value, .sfv .identifierString py!"1")]])]

/-- AASd-116 is not reported for the name in another case -/
theorem C45_case_violated : ∃ v, Obj none .assetInformation v ∧ ¬ AASd116 v ∧ ∀ m ∈ checkTable .assetInformation, runMethod none m v = .ok () :=
  ⟨asset py!"GlobalAssetId", obj_of_check 9 rfl (by decide +kernel), by unfold AASd116; decide +kernel, by decide +kernel⟩

example : runMethod none .assetInformation_aasd_116 (asset py!"globalAssetId") = .error (.violated py!"AASd-116" .error) ∧
    runMethod none .assetInformation_aasd_116 (asset py!"serial") = .ok () := by decide +kernel
example : Obj none .entity twins ∧ AASd014 twins := ⟨obj_of_check 9 rfl (by decide +kernel), by unfold AASd014 Set; exact ⟨fun h => absurd h (by decide +kernel), fun _ => ⟨fun h => h rfl, fun h => h rfl⟩⟩⟩

/-! ## C46: semantics, templates, administration -/

/-- AASd-118, AASd-002 and AASd-090 for all classes that have these checks -/
theorem C46_shared (c : Cls) (h : Obj lim c v) :
    (.hasSemantics_aasd_118 ∈ checkTable c → Decides py!"AASd-118" (runMethod lim .hasSemantics_aasd_118 v) (AASd118 v)) ∧
    (.referable_constraint_aasd_002 ∈ checkTable c → Decides py!"AASd-002" (runMethod lim .referable_constraint_aasd_002 v) (AASd002 v)) ∧
    (.dataElement_aasd_090 ∈ checkTable c → Decides py!"AASd-090" (runMethod lim .dataElement_aasd_090 v) (AASd090 v)) :=
  ⟨decides_118 h, decides_002 h, decides_090 h⟩

/-- … and these are all classes with the attributes concerned -/
theorem C46_classes (c : Cls) :
    (.hasSemantics_aasd_118 ∈ checkTable c ↔ (slotOf c .supplementalSemanticIds).isSome = true) ∧
    (.referable_constraint_aasd_002 ∈ checkTable c ↔ (slotOf c .idShort).isSome = true) ∧
    (.dataElement_aasd_090 ∈ checkTable c ↔ c = .dataElement ∨ c ∈ [Cls.blob, .file, .multiLanguageProperty, .property, .range, .referenceElement]) := by
  cases c <;> decide +kernel

/-- AASd-005, AASd-119, AASd-133, and AASd-129 for elements at the top level -/
theorem C46_rules :
    (Obj lim .administrativeInformation v →
      Decides py!"AASd-005" (runMethod lim .administrativeInformation_constraint_aasd_005 v) (AASd005 v)) ∧
    (Obj lim .submodel v → Decides py!"AASd-119" (runMethod lim .submodel_aasd_119 v) (AASd119 v)) ∧
    (Obj lim .specificAssetId v → Decides py!"AASd-133" (runMethod lim .specificAssetId_aasd_133 v) (AASd133 v)) ∧
    (Obj lim .submodel v → Decides py!"AASd-129" (runMethod lim .submodel_aasd_129 v) (AASd129Top v)) :=
  ⟨decides_005, decides_119, decides_133, decides_129⟩

/-- AASd-129. Partial: only if all elements with template qualifiers are at the top level. -/
theorem C46_template_elements_partial (h : Obj lim .submodel v)
    (ht : ∀ x, Within v x → TemplateQualified x → ∃ y ∈ elems v .submodelElements, TemplateQualified y) :
    Decides py!"AASd-129" (runMethod lim .submodel_aasd_129 v) (AASd129 v) :=
  (decides_129 h).iff ⟨fun hh ⟨x, hx, hq⟩ => hh (ht x hx hq), fun hh ⟨x, hx, hq⟩ => hh ⟨x, .top hx, hq⟩⟩

def templateQualifier : AVal := mk .qualifier [(.kind, .enum .qualifierKind py!"TemplateQualifier"), (.type_, .sfv .nameTypeString py!"t"),
  (.valueType, .enum .dataTypeDefXsd py!"xs:int")]
def hidden : AVal := smallSubmodel [mk .submodelElementCollection [(.idShort, named py!"c"), (.value, .list [
  mk .capability [(.idShort, named py!"d"), (.qualifiers, .list [templateQualifier])]])]]

/-- AASd-129 is not reported for elements in collections -/
theorem C46_nested_violated : Obj none .submodel hidden ∧ ¬ AASd129 hidden ∧ ∀ m ∈ checkTable .submodel, runMethod none m hidden = .ok () := by
  refine ⟨obj_of_check 12 rfl (by decide +kernel), fun hh => ?_, by decide +kernel⟩
  have : Template hidden := hh ⟨_, .deeper .value (.top (List.mem_cons_self (l := []))) (by simp) (List.mem_cons_self (l := [])),
    templateQualifier, List.mem_cons_self (l := []), rfl⟩
  revert this; unfold Template; decide +kernel

example : Obj none .capability (capability (named py!"a1_b")) ∧ AASd002 (capability (named py!"a1_b")) ∧
    runMethod none .referable_constraint_aasd_002 (capability (named py!"_a")) = .error (.violated py!"AASd-002" .error) := by
  refine ⟨obj_of_check 9 rfl (by decide +kernel), ?_, by rw [runMethod, idShortRe_eq]; decide +kernel⟩
  intro s hs
  have : s = py!"a1_b" := by
    have h2 : idShort? (capability (named py!"a1_b")) = some py!"a1_b" := rfl
    rw [h2] at hs; cases hs; rfl
  subst this
  exact ⟨97, _, rfl, by decide, by decide⟩
example : runMethod none .submodel_aasd_129 (smallSubmodel [mk .capability [(.idShort, named py!"d"), (.qualifiers, .list [templateQualifier])]]) =
    .error (.violated py!"AASd-129" .error) := by decide +kernel

/-! ## C47: concept descriptions -/

/-- AASc-3a-002, 009 and 010: the content of data specifications -/
theorem C47_content (h : Obj lim .dataSpecificationIec61360 v) :
    Decides py!"AASc-3a-002" (runMethod lim .dataSpecificationIec61360_aasc_3a_002 v) (AASc002 v) ∧
    Decides py!"AASc-3a-009" (runMethod lim .dataSpecificationIec61360_aasc_3a_009 v) (AASc009 v) ∧
    Decides py!"AASc-3a-010" (runMethod lim .dataSpecificationIec61360_aasc_3a_010 v) (AASc010 v) :=
  ⟨decides_3a_002 h, decides_3a_009 h, decides_3a_010 h⟩

/-- AASc-3a-007 and 008 -/
theorem C47_concept (h : Obj lim .conceptDescription v) :
    Decides py!"AASc-3a-007" (runMethod lim .conceptDescription_aasc_3a_007 v) (AASc007 v) ∧
    Decides py!"AASc-3a-008" (runMethod lim .conceptDescription_aasc_3a_008 v) (AASc008 v) :=
  ⟨decides_3a_007 h, decides_3a_008 h⟩

/-- AASc-3a-004 to 006. Partial: what is reported is every content, whatever its data type. -/
theorem C47_data_types_partial (h : Obj lim .conceptDescription v) :
    Decides py!"AASc-3a-004" (runMethod lim .conceptDescription_aasc_3a_004 v) (NoContent [py!"PROPERTY", py!"VALUE"] v) ∧
    Decides py!"AASc-3a-005" (runMethod lim .conceptDescription_aasc_3a_005 v) (NoContent [py!"REFERENCE"] v) ∧
    Decides py!"AASc-3a-006" (runMethod lim .conceptDescription_aasc_3a_006 v) (NoContent [py!"DOCUMENT"] v) :=
  ⟨decides_iec h _ _, decides_iec h _ _, decides_iec h _ _⟩

/-- violations of the rules 004 to 006 are reported -/
theorem C47_data_types_sound (h : Obj lim .conceptDescription v) :
    (¬ AASc004 v → runMethod lim .conceptDescription_aasc_3a_004 v = .error (.violated py!"AASc-3a-004" .error)) ∧
    (¬ AASc005 v → runMethod lim .conceptDescription_aasc_3a_005 v = .error (.violated py!"AASc-3a-005" .error)) ∧
    (¬ AASc006 v → runMethod lim .conceptDescription_aasc_3a_006 v = .error (.violated py!"AASc-3a-006" .error)) := by
  obtain ⟨h1, h2, h3⟩ := C47_data_types_partial lim v h
  exact ⟨fun hn => h1.reports fun hc => hn fun a b c hh => absurd hh (hc a b c),
    fun hn => h2.reports fun hc => hn fun a b c hh => absurd hh (hc a b c),
    fun hn => h3.reports fun hc => hn fun a b c hh => absurd hh (hc a b c)⟩

def iec (dataType : AVal) : AVal := mk .dataSpecificationIec61360 [(.dataType, dataType),
  (.preferredName, .list [mk .preferredNameTypeIec61360 [(.language, .str py!"en"), (.text, .str py!"name")]]),
  (.definition, .list [mk .definitionTypeIec61360 [(.language, .str py!"en-GB"), (.text, .str py!"text")]])]
def concept (category dataType : Str) : AVal := mk .conceptDescription [(.id, .sfv .identifierString py!"urn:c"),
  (.category, .sfv .nameTypeString category),
  (.embeddedDataSpecifications, .list [mk .embeddedDataSpecification [(.dataSpecification, globalRef py!"x"),
    (.dataSpecificationContent, iec (.enum .dataTypeIec61360 dataType))]])]

/-- C47 fails: a property of type string is reported -/
theorem C47_data_types_violated : Obj none .conceptDescription (concept py!"PROPERTY" py!"STRING") ∧ AASc004 (concept py!"PROPERTY" py!"STRING") ∧
    runMethod none .conceptDescription_aasc_3a_004 (concept py!"PROPERTY" py!"STRING") = .error (.violated py!"AASc-3a-004" .error) := by
  refine ⟨obj_of_check 12 rfl (by decide +kernel), ?_, by decide +kernel⟩
  rintro - - c ⟨ds, hds, rfl, -⟩
  have : ds = mk .embeddedDataSpecification [(.dataSpecification, globalRef py!"x"),
    (.dataSpecificationContent, iec (.enum .dataTypeIec61360 py!"STRING"))] := by
      have h : elems (concept py!"PROPERTY" py!"STRING") .embeddedDataSpecifications = [mk .embeddedDataSpecification
        [(.dataSpecification, globalRef py!"x"), (.dataSpecificationContent, iec (.enum .dataTypeIec61360 py!"STRING"))]] := rfl
      rw [h] at hds
      exact List.mem_singleton.mp hds
  subst this
  have ht : txt (get (mk .embeddedDataSpecification [(.dataSpecification, globalRef py!"x"),
    (.dataSpecificationContent, iec (.enum .dataTypeIec61360 py!"STRING"))]) .dataSpecificationContent) .dataType = py!"STRING" := rfl
  rw [ht]; decide

example : Obj none .dataSpecificationIec61360 (iec .none) := obj_of_check 9 rfl (by decide +kernel)
example : runMethod none .conceptDescription_aasc_3a_007 (concept py!"QUALIFIER_TYPE" py!"STRING") = .ok () := by decide +kernel

/-! ## C48: values -/

/-- the outcome of the check of a value, in all cases: nothing is reported iff there is no value or the value is accepted for the type, an
error iff it is not accepted; exceptions are passed on. The accepted values are the subject of C17 to C28. -/
theorem C48_values :
    (Obj lim .property v → ValueOutcome lim .value v (runMethod lim .property_value_type v)) ∧
    (Obj lim .range v → ValueOutcome lim .min v (runMethod lim .range_value_type_min v)) ∧
    (Obj lim .range v → ValueOutcome lim .max v (runMethod lim .range_value_type_max v)) ∧
    (Obj lim .qualifier v → ValueOutcome lim .value v (runMethod lim .qualifier_value_type v)) ∧
    (Obj lim .extension v → Set v .valueType → ValueOutcome lim .value v (runMethod lim .extension_value_type v)) ∧
    (Obj lim .extension v → ¬ Set v .valueType → runMethod lim .extension_value_type v = .ok ()) :=
  ⟨property_value, range_min, range_max, qualifier_value,
    fun h hs => (extension_value h).elim (fun h' => absurd hs h'.1) (·.2), fun h hs => (extension_value h).elim (·.2) (fun h' => absurd h'.1 hs)⟩

/-- a violation is reported iff the value is not accepted, and the check raises iff it is a date with too long a year -/
def DecidesValue (lim : Option Nat) (f : Fld) (v : AVal) (x : Chk Unit) : Prop :=
  (¬ ValueRaises lim f v → Decides py!"value" x (ValueOk lim f v)) ∧ (ValueRaises lim f v → x = pyErr .valueError)

theorem outcome_decides {f : Fld} {x : Chk Unit} (h : ValueOutcome lim f v x) : DecidesValue lim f v x := by
  rcases h with ⟨h1, rfl⟩ | ⟨h1, t, ht, h⟩
  · exact ⟨fun _ => decides_ok (fun hs => absurd hs h1), fun hr => absurd hr.1 h1⟩
  · have hi : ValueOk lim f v ↔ validate lim t (txt v f) = .ok true :=
      ⟨fun hh => (C82_accepted lim t _).mpr (hh h1 t ht),
        fun hh _ u hu => by rw [xsd_name_inj u t (hu.trans ht.symm)]; exact (C82_accepted lim t _).mp hh⟩
    have hj : ValueRaises lim f v ↔ validate lim t (txt v f) = .error .valueError := by
      rw [C82_fails]
      exact ⟨fun ⟨_, u, hu, hf⟩ => ⟨rfl, xsd_name_inj u t (hu.trans ht.symm) ▸ hf⟩, fun hf => ⟨h1, t, ht, hf.2⟩⟩
    cases h with
    | valid hv => exact ⟨fun _ => decides_ok (hi.mpr hv), fun hr => by rw [hj.mp hr] at hv; cases hv⟩
    | invalid hv => exact ⟨fun _ => decides_violated (fun hh => by rw [hi.mp hh] at hv; cases hv), fun hr => by rw [hj.mp hr] at hv; cases hv⟩
    | raised hv =>
      obtain ⟨rfl, hf⟩ := (C82_fails _ _ _ _).mp hv
      exact ⟨fun hn => absurd (hj.mpr hv) hn, fun _ => rfl⟩

/-- A violation is reported iff the value is not accepted for its type. Partial: except for dates whose years have too many digits
for `int`, whose check raises. -/
theorem C48_reported_partial :
    (Obj lim .property v → DecidesValue lim .value v (runMethod lim .property_value_type v)) ∧
    (Obj lim .range v → DecidesValue lim .min v (runMethod lim .range_value_type_min v)) ∧
    (Obj lim .range v → DecidesValue lim .max v (runMethod lim .range_value_type_max v)) ∧
    (Obj lim .qualifier v → DecidesValue lim .value v (runMethod lim .qualifier_value_type v)) := by
  obtain ⟨h1, h2, h3, h4, -⟩ := C48_values lim v
  exact ⟨fun h => outcome_decides lim v (h1 h), fun h => outcome_decides lim v (h2 h), fun h => outcome_decides lim v (h3 h),
    fun h => outcome_decides lim v (h4 h)⟩

def typedProp (t s : Str) : AVal := mk .property [(.valueType, .enum .dataTypeDefXsd t), (.value, .sfv .valueDataType s)]
example : Obj none .property (typedProp py!"xs:byte" py!"127") ∧ Set (typedProp py!"xs:byte" py!"127") .value :=
  ⟨obj_of_check 9 rfl (by decide +kernel), by unfold Set; exact fun h => by cases h⟩
example : runMethod none .property_value_type (typedProp py!"xs:byte" py!"127") = .ok () ∧
    runMethod none .property_value_type (typedProp py!"xs:byte" py!"128") = .error (.violated py!"value" .error) := by decide +kernel

/-! ## C61: language strings -/

/-- the language is a language tag. Partial: one line feed at the end is accepted, grandfathered tags have their registered case (C26). -/
theorem C61_language_partial (c : Cls) (h : Obj lim c v) (hm : .langStringSet_language ∈ checkTable c) :
    Decides py!"language" (runMethod lim .langStringSet_language v) (OrLineFeed LanguageTagExactCase (txt v .language)) :=
  decides_language h hm

/-- the text is not empty and not longer than its class allows -/
theorem C61_text (c : Cls) (h : Obj lim c v) (hm : .langStringSet_text ∈ checkTable c) (hc : c ≠ .langStringSet) :
    Decides py!"text" (runMethod lim .langStringSet_text v) (TextLength v) := decides_text h hm hc

/-- both checks belong to all classes with a language -/
theorem C61_classes (c : Cls) : (.langStringSet_language ∈ checkTable c ↔ (slotOf c .language).isSome = true) ∧
    (.langStringSet_text ∈ checkTable c ↔ (slotOf c .language).isSome = true) := by
  cases c <;> decide +kernel

def shortName (lang text : Str) : AVal := mk .shortNameTypeIec61360 [(.language, .str lang), (.text, .str text)]
example : Obj none .shortNameTypeIec61360 (shortName py!"de-AT" py!"eighteen letters..") := obj_of_check 9 rfl (by decide +kernel)
example : runMethod none .langStringSet_text (shortName py!"de-AT" py!"eighteen letters..") = .ok () ∧
    runMethod none .langStringSet_text (shortName py!"de-AT" py!"nineteen letters...") = .error (.violated py!"text" .error) := by decide +kernel

/-! ## C62: references to data specifications -/

/-- nothing is reported for the id of the IEC 61360 template, a warning for all others -/
theorem C62_reference (h : Obj lim .embeddedDataSpecification v) :
    (RefersToIec61360 v → runMethod lim .embeddedDataSpecification_reference v = .ok ()) ∧
    (¬ RefersToIec61360 v → runMethod lim .embeddedDataSpecification_reference v = .error (.violated py!"dataSpecification" .warning)) :=
  decides_dataSpecification h

def specification (s : Str) : AVal := mk .embeddedDataSpecification [(.dataSpecification, globalRef s), (.dataSpecificationContent, iec .none)]
example : Obj none .embeddedDataSpecification (specification py!"x") := obj_of_check 12 rfl (by decide +kernel)
example : ¬ RefersToIec61360 (specification py!"x") ∧
    RefersToIec61360 (specification py!"https://admin-shell.io/DataSpecificationTemplates/DataSpecificationIec61360/3") :=
  ⟨fun ⟨k, h1, h2⟩ => by
    have h : elems (get (specification py!"x") .dataSpecification) .keys = [key py!"GlobalReference" py!"x"] := rfl
    rw [h] at h1; cases h1; revert h2; decide +kernel,
   ⟨_, rfl, rfl⟩⟩

/-! ## C63: references to elements of the model -/

/-- the observed element and the message broker of events are model references -/
theorem C63_events (h : Obj lim .basicEventElement v) :
    Decides py!"observed" (runMethod lim .basicEventElement_observed v) (ModelRef (get v .observed)) ∧
    Decides py!"messageBroker" (runMethod lim .basicEventElement_message_broker v) (ModelRefAt .messageBroker v) :=
  ⟨decides_observed h, decides_messageBroker h⟩

/-- the submodels of shells, and what they are derived from. Partial: instead of a violation, `AttributeError` is raised. -/
theorem C63_shells_partial (h : Obj lim .assetAdministrationShell v) :
    ((ModelRefAt .derivedFrom v → runMethod lim .assetAdministrationShell_derived_from v = .ok ()) ∧
    (¬ ModelRefAt .derivedFrom v → runMethod lim .assetAdministrationShell_derived_from v = pyErr .attributeError)) ∧
    ((∀ r ∈ elems v .submodels, ModelRef r) → runMethod lim .assetAdministrationShell_submodels v = .ok ()) ∧
    (¬ (∀ r ∈ elems v .submodels, ModelRef r) → runMethod lim .assetAdministrationShell_submodels v = pyErr .attributeError) :=
  ⟨derivedFrom_outcome h, submodels_outcome h⟩

def shell (r : AVal) : AVal := mk .assetAdministrationShell [(.id, .sfv .identifierString py!"urn:a"), (.submodels, .list [r]),
  (.assetInformation, mk .assetInformation [(.assetKind, .enum .assetKind py!"Instance"), (.globalAssetId, .sfv .identifierString py!"g")])]

/-- C63 fails: a shell with an external reference as submodel makes the check crash -/
theorem C63_shells_violated : Obj none .assetAdministrationShell (shell (globalRef py!"x")) ∧
    runMethod none .assetAdministrationShell_submodels (shell (globalRef py!"x")) = pyErr .attributeError :=
  ⟨obj_of_check 12 rfl (by decide +kernel), by decide +kernel⟩

example : Obj none .basicEventElement (mk .basicEventElement [(.observed, modelRef), (.direction, .enum .direction py!"input"),
    (.state, .enum .stateOfEvent py!"on")]) := obj_of_check 9 rfl (by decide +kernel)

end Verif.Props
