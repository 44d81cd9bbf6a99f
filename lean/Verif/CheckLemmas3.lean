import Verif.CheckLemmas2

/-! # Checks of lists, events, concept descriptions, values and texts -/

namespace Verif.Aas
open Verif Verif.Parse Verif.Spec.Parse Verif.Spec.Model Verif.DataTypes Verif.Spec Verif.Props

variable {lim : Option Nat} {c : Cls} {v : AVal}

/-! ## submodel element lists -/

theorem list_values (h : Obj lim .submodelElementList v) :
    (attr v .value = .ok .none ∧ elems v .value = []) ∨
    (attr v .value = .ok (.list (elems v .value)) ∧ truthy (.list (elems v .value)) = true ∧
      ∀ x ∈ elems v .value, ∃ d, d ∈ subclassesOf .submodelElement ∧ Obj lim d x) := by
  rcases h.list? (f := .value) rfl with ⟨b1, b2, b3⟩ | ⟨b1, b2, b3, b4⟩
  · exact .inl ⟨b1, b3⟩
  · refine .inr ⟨b1, by simp [truthy, b3], fun x hx => ?_⟩
    obtain ⟨d, hd, ho⟩ := obj_of_abstract rfl (b4 x hx)
    exact ⟨d, hd, ho⟩

theorem element_semantic {d : Cls} (hd : d ∈ subclassesOf .submodelElement) {x : AVal} (ho : Obj lim d x) :
    (attr x .semanticId = .ok .none ∧ ¬ Set x .semanticId) ∨
    (attr x .semanticId = .ok (get x .semanticId) ∧ Set x .semanticId ∧ Obj lim .reference (get x .semanticId)) :=
  ho.obj? rfl (element_named .submodelElement (by simp) d hd).2.1

theorem decides_107 (h : Obj lim .submodelElementList v) :
    Decides py!"AASd-107" (runMethod lim .submodelElementList_aasd_107 v) (AASd107 v) := by
  simp only [runMethod, violatedAt_eq h rfl]
  rcases list_values h with ⟨b1, b2⟩ | ⟨b1, b2, b3⟩ <;> rcases h.obj? (f := .semanticIdListElement) rfl rfl with ⟨a1, a2⟩ | ⟨a1, a2, a3⟩ <;>
    simp only [a1, b1, ok_bind]
  · exact decides_ok (fun hs => absurd hs a2)
  · exact decides_ok (by simp [AASd107, b2])
  · simp only [truthy, Bool.not_false, Bool.or_true, if_true]; exact decides_ok (fun hs => absurd hs a2)
  · simp only [b2, a3.exists.2.2, iter, ok_bind]
    refine (decides_for (P := fun x => Set x .semanticId → SameRef (get x .semanticId) (get v .semanticIdListElement)) ?_).iff
      ⟨fun hh _ => hh, fun hh => hh a2⟩
    intro x hx
    obtain ⟨d, hd, ho⟩ := b3 x hx
    rcases element_semantic hd ho with ⟨c1, c2⟩ | ⟨c1, c2, c3⟩ <;> simp only [c1, ok_bind]
    · exact decides_ok (fun hs => absurd hs c2)
    · simp only [c3.exists.2.1, refEq_iff c3 a3, ok_bind, Bool.false_eq_true, if_false]
      exact decides_ite.iff (by simp [c2])

theorem decides_114_some (h : Obj lim .submodelElementList v) {t : AVal} (ht : Obj lim .reference t) : ∀ l : List AVal,
    (∀ x ∈ l, ∃ d, d ∈ subclassesOf .submodelElement ∧ Obj lim d x) →
    Decides py!"AASd-114" (check114 v (some t) l) (∀ x ∈ l, Set x .semanticId → SameRef (get x .semanticId) t)
  | [], _ => by rw [check114]; exact decides_ok (by simp)
  | x :: l, hl => by
    have ih := decides_114_some h ht l (fun y hy => hl y (List.mem_cons_of_mem _ hy))
    obtain ⟨d, hd, ho⟩ := hl x List.mem_cons_self
    rw [check114, violatedAt_eq h rfl]
    rcases element_semantic hd ho with ⟨c1, c2⟩ | ⟨c1, c2, c3⟩ <;> simp only [c1, ok_bind]
    · exact ih.iff (by simp [c2])
    · simp only [c3.exists.2.2, if_true, refEq_iff c3 ht, ok_bind, decide_eq_true_eq]
      by_cases hs : SameRef (get x .semanticId) t
      · rw [if_pos hs]; exact ih.iff (by simp [hs])
      · rw [if_neg hs]; exact decides_violated (fun hh => hs (hh x List.mem_cons_self c2))

theorem decides_114_none (h : Obj lim .submodelElementList v) : ∀ l : List AVal,
    (∀ x ∈ l, ∃ d, d ∈ subclassesOf .submodelElement ∧ Obj lim d x) →
    Decides py!"AASd-114" (check114 v none l) (∀ x ∈ l, ∀ y ∈ l, Set x .semanticId → Set y .semanticId →
      SameRef (get x .semanticId) (get y .semanticId))
  | [], _ => by rw [check114]; exact decides_ok (by simp)
  | x :: l, hl => by
    have hl' : ∀ y ∈ l, ∃ d, d ∈ subclassesOf .submodelElement ∧ Obj lim d y := fun y hy => hl y (List.mem_cons_of_mem _ hy)
    obtain ⟨d, hd, ho⟩ := hl x List.mem_cons_self
    rw [check114]
    rcases element_semantic hd ho with ⟨c1, c2⟩ | ⟨c1, c2, c3⟩ <;> simp only [c1, ok_bind]
    · refine (decides_114_none h l hl').iff ?_
      simp [c2]
    · simp only [c3.exists.2.2, if_true]
      refine (decides_114_some h c3 l hl').iff ?_
      constructor
      · intro hh y hy z hz sy sz
        have key : ∀ w ∈ x :: l, Set w .semanticId → SameRef (get w .semanticId) (get x .semanticId) := by
          intro w hw sw
          rcases List.mem_cons.mp hw with rfl | hw
          · rfl
          · exact hh w hw sw
        exact (key y hy sy).trans (key z hz sz).symm
      · exact fun hh y hy sy => hh y (List.mem_cons_of_mem _ hy) x List.mem_cons_self sy c2

theorem decides_114 (h : Obj lim .submodelElementList v) :
    Decides py!"AASd-114" (runMethod lim .submodelElementList_aasd_114 v) (AASd114 v) := by
  simp only [runMethod]
  rcases list_values h with ⟨b1, b2⟩ | ⟨b1, b2, b3⟩ <;> simp only [b1, ok_bind]
  · exact decides_ok (by simp [AASd114, b2])
  · simp only [b2, iter, ok_bind]
    exact decides_114_none h _ b3

theorem decides_108 (h : Obj lim .submodelElementList v) :
    Decides py!"AASd-108" (runMethod lim .submodelElementList_aasd_108 v) (AASd108Exact v) := by
  simp only [runMethod, violatedAt_eq h rfl]
  rcases list_values h with ⟨b1, b2⟩ | ⟨b1, b2, b3⟩ <;> simp only [b1, ok_bind]
  · exact decides_ok (by simp [AASd108Exact, b2])
  · simp only [b2, (h.enum (f := .typeValueListElement) rfl).1, iter, ok_bind]
    refine decides_for fun x hx => ?_
    obtain ⟨d, hd, ho⟩ := b3 x hx
    rw [ho.cls, ho.className]
    split
    · rename_i he; exact decides_ok (by simpa using he)
    · rename_i he; exact decides_violated (by simpa using he)

theorem decides_109 (h : Obj lim .submodelElementList v) :
    Decides py!"AASd-109" (runMethod lim .submodelElementList_aasd_109 v) (AASd109 v) := by
  simp only [runMethod, violatedAt_eq h rfl]
  rcases list_values h with ⟨b1, b2⟩ | ⟨b1, b2, b3⟩ <;> simp only [b1, ok_bind]
  · exact decides_ok (by simp [AASd109, b2])
  · simp only [b2, iter, ok_bind]
    refine decides_for fun x hx => ?_
    obtain ⟨d, hd, ho⟩ := b3 x hx
    rw [ho.cls, ho.className]
    have hname : d.pyName = py!"Property" ∨ d.pyName = py!"Range" ↔ d = .property ∨ d = .range := by
      clear ho; revert hd; revert d; decide +kernel
    by_cases hp : d = .property ∨ d = .range
    · rw [if_pos (by simpa using hp)]
      have hv : attr x .valueType = .ok (.enum .dataTypeDefXsd (txt x .valueType)) := by
        rcases hp with rfl | rfl
        · exact (ho.enum rfl).1
        · exact (ho.enum rfl).1
      rcases h.enum? (f := .valueTypeListElement) rfl with ⟨a1, a2, a3⟩ | ⟨a1, a2, a3⟩ <;> simp only [a1, hv, ok_bind]
      · exact decides_violated (fun hh => a2 (hh (hname.mpr hp)).1)
      · simp only [isNone, enumEq, true_and]
        refine decides_ite.iff ?_
        rw [decide_eq_true_eq]
        exact ⟨fun he _ => ⟨a2, he⟩, fun hh => (hh (hname.mpr hp)).2⟩
    · rw [if_neg (by simpa using hp)]
      exact decides_ok (fun hh => absurd (hname.mp hh) hp)

theorem decides_120 (h : Obj lim .submodelElementList v) :
    Decides py!"AASd-120" (runMethod lim .submodelElementList_aasd_120 v) (NoIdShorts (elems v .value)) := by
  simp only [runMethod, violatedAt_eq h rfl]
  rcases list_values h with ⟨b1, b2⟩ | ⟨b1, b2, b3⟩ <;> simp only [b1, ok_bind]
  · exact decides_ok (by simp [NoIdShorts, b2])
  · simp only [b2, iter, ok_bind]
    refine (decides_for (P := fun x => idShort? x = none) ?_).iff Iff.rfl
    intro x hx
    obtain ⟨d, hd, ho⟩ := b3 x hx
    rcases idShort_facts ho (element_named .submodelElement (by simp) d hd).1 with ⟨h1, h2⟩ | ⟨s, h1, h2⟩
    · rw [h1, h2]; exact decides_ok rfl
    · rw [h1, h2]; exact decides_violated (by simp)

theorem elementTypes_iff (t : Str) : t ∈ aasSubmodelElements ↔ t ∈ submodelElementTypes := by
  simp [aasSubmodelElements, submodelElementTypes]
  grind

theorem decides_elementType (h : Obj lim .submodelElementList v) :
    Decides py!"typeValueListElement" (runMethod lim .submodelElementList_type_value_list_element v) (ElementType v) := by
  simp only [runMethod, violatedAt_eq h rfl, (h.enum (f := .typeValueListElement) rfl).1, ok_bind]
  refine decides_ite.iff ?_
  rw [ElementType, ← elementTypes_iff]
  simp [enumIn]

/-! ## references that must be model references -/

theorem decides_modelRef {name : Str} {r : AVal} (h : Obj lim .reference r) :
    Decides name (do if isModelReference (← attr r .type_) then .ok () else violated name) (ModelRef r) := by
  rw [(ref_facts h).1, ok_bind]
  exact decides_ite.iff (isModel_iff _)

theorem decides_observed (h : Obj lim .basicEventElement v) :
    Decides py!"observed" (runMethod lim .basicEventElement_observed v) (ModelRef (get v .observed)) := by
  simp only [runMethod, violatedAt_eq h rfl]
  obtain ⟨h1, h2⟩ := h.obj (f := .observed) rfl rfl
  rw [h1, ok_bind]
  exact decides_modelRef h2

theorem decides_messageBroker (h : Obj lim .basicEventElement v) :
    Decides py!"messageBroker" (runMethod lim .basicEventElement_message_broker v) (ModelRefAt .messageBroker v) := by
  simp only [runMethod, violatedAt_eq h rfl]
  rcases h.obj? (f := .messageBroker) rfl rfl with ⟨a1, a2⟩ | ⟨a1, a2, a3⟩
  · simp only [a1, ok_bind, truthy]; exact decides_ok (fun hs => absurd hs a2)
  · simp only [a1, ok_bind, a3.exists.2.2, if_true]
    exact (decides_modelRef a3).iff ⟨fun hh _ => hh, fun hh => hh a2⟩

theorem lookup_none {f : Fld} : ∀ attrs : List (Fld × AVal), (∀ a ∈ attrs, a.1 ≠ f) → lookup f attrs = none
  | [], _ => rfl
  | (g, w) :: rest, h => by
    rw [lookup, if_neg (fun e => h (g, w) List.mem_cons_self e), lookup_none rest (fun a ha => h a (List.mem_cons_of_mem _ ha))]

/-- the path of an object that has none -/
theorem no_path (h : Obj lim c v) (hc : ∀ x ∈ fieldsOf c, x.name ≠ .idShortPath) (t : Str) : violatedAt v t = pyErr .attributeError := by
  obtain ⟨attrs, rfl, hf⟩ := h.fields
  have : lookup .idShortPath attrs = none := by
    refine lookup_none attrs ?_
    intro a ha he
    have hm : Fld.idShortPath ∈ attrs.map (·.1) := List.mem_map.mpr ⟨a, ha, he⟩
    rw [hf.names] at hm
    obtain ⟨x, hx, hn⟩ := List.mem_map.mp hm
    exact hc x hx hn
  rw [violatedAt, attr, this]; rfl

theorem derivedFrom_outcome (h : Obj lim .assetAdministrationShell v) :
    (ModelRefAt .derivedFrom v → runMethod lim .assetAdministrationShell_derived_from v = .ok ()) ∧
    (¬ ModelRefAt .derivedFrom v → runMethod lim .assetAdministrationShell_derived_from v = pyErr .attributeError) := by
  simp only [runMethod, no_path h (by decide)]
  rcases h.obj? (f := .derivedFrom) rfl rfl with ⟨a1, a2⟩ | ⟨a1, a2, a3⟩
  · simp only [a1, ok_bind, truthy]; exact ⟨fun _ => rfl, fun hn => absurd (fun hs => absurd hs a2) hn⟩
  · simp only [a1, ok_bind, a3.exists.2.2, if_true, (ref_facts a3).1]
    have : isModelReference (.enum .referenceType (txt (get v .derivedFrom) .type_)) = true ↔ ModelRefAt .derivedFrom v :=
      (isModel_iff _).trans ⟨fun hh _ => hh, fun hh => hh a2⟩
    exact ⟨fun hh => by rw [if_pos (this.mpr hh)], fun hh => by rw [if_neg (fun e => hh (this.mp e))]⟩

theorem for_outcome {α : Type} {body : α → Chk Unit} {P : α → Prop} {e : PyExc} : ∀ {l : List α},
    (∀ x ∈ l, (P x → body x = .ok ()) ∧ (¬ P x → body x = pyErr e)) →
    ((∀ x ∈ l, P x) → forM body l = .ok ()) ∧ (¬ (∀ x ∈ l, P x) → forM body l = pyErr e)
  | [], _ => ⟨fun _ => rfl, fun h => absurd (by simp) h⟩
  | x :: xs, h => by
    obtain ⟨h1, h2⟩ := h x List.mem_cons_self
    obtain ⟨i1, i2⟩ := for_outcome (l := xs) (fun y hy => h y (List.mem_cons_of_mem _ hy))
    rw [forM]
    by_cases hp : P x
    · rw [h1 hp, ok_bind]
      refine ⟨fun hh => i1 (fun y hy => hh y (List.mem_cons_of_mem _ hy)), fun hh => i2 (fun h' => hh ?_)⟩
      exact List.forall_mem_cons.mpr ⟨hp, h'⟩
    · rw [h2 hp]
      exact ⟨fun hh => absurd (hh x List.mem_cons_self) hp, fun _ => rfl⟩

theorem submodels_outcome (h : Obj lim .assetAdministrationShell v) :
    ((∀ r ∈ elems v .submodels, ModelRef r) → runMethod lim .assetAdministrationShell_submodels v = .ok ()) ∧
    (¬ (∀ r ∈ elems v .submodels, ModelRef r) → runMethod lim .assetAdministrationShell_submodels v = pyErr .attributeError) := by
  simp only [runMethod, no_path h (by decide)]
  rcases h.list? (f := .submodels) rfl with ⟨b1, b2, b3⟩ | ⟨b1, b2, b3, b4⟩ <;> simp only [b1, ok_bind]
  · exact ⟨fun _ => rfl, fun hn => absurd (by simp [b3]) hn⟩
  · have ht : truthy (.list (elems v .submodels)) = true := by simp [truthy, b3]
    simp only [ht, if_true, iter, ok_bind]
    refine for_outcome fun r hr => ?_
    have ho : Obj lim .reference r := obj_of_concrete rfl (b4 r hr)
    rw [(ref_facts ho).1, ok_bind]
    have := isModel_iff (txt r .type_)
    exact ⟨fun hh => by rw [if_pos (this.mpr hh)], fun hh => by rw [if_neg (fun e => hh (this.mp e))]⟩

theorem operationVariable_outcome (h : Obj lim .operationVariable v) :
    ((idShort? (get v .value)).isSome = true → runMethod lim .operationVariable_aasd_117 v = .ok ()) ∧
    (¬ (idShort? (get v .value)).isSome = true → runMethod lim .operationVariable_aasd_117 v = pyErr .attributeError) := by
  simp only [runMethod, no_path h (by decide)]
  obtain ⟨h1, h2⟩ := variable_named h
  simp only [h1, ok_bind]
  rcases h2 with ⟨a1, a2⟩ | ⟨s, a1, a2⟩ <;> simp only [a1, a2, ok_bind, isNone]
  · exact ⟨fun hh => by simp at hh, fun _ => rfl⟩
  · exact ⟨fun _ => rfl, fun hh => by simp at hh⟩

/-! ## concept descriptions -/

theorem anyEnglish_spec {d : Cls} (hd : isAbstract d = false) (hm : slotOf d .language = some (.attr py!"language" .str true)) (l : List AVal)
    (h : ∀ x ∈ l, HasType (schema lim) (.cls d) x) : ∃ b, anyEnglish (.list l) = .ok b ∧ (b = true ↔ English l) := by
  refine ⟨l.any fun x => isBcp47ForEnglish (txt x .language), ?_, ?_⟩
  · rw [anyEnglish, iter, ok_bind]
    refine anyM_ok fun x hx => ?_
    have ho : Obj lim d x := obj_of_concrete hd (h x hx)
    rw [ho.str hm, ok_bind, asStr, ok_bind]
  · rw [English]; simp [C26_english_partial]

theorem decides_3a_002 (h : Obj lim .dataSpecificationIec61360 v) :
    Decides py!"AASc-3a-002" (runMethod lim .dataSpecificationIec61360_aasc_3a_002 v) (AASc002 v) := by
  obtain ⟨h1, -, h2⟩ := h.list (f := .preferredName) rfl
  obtain ⟨b, hb, hi⟩ := anyEnglish_spec (d := .preferredNameTypeIec61360) rfl rfl _ h2
  simp only [runMethod, h1, hb, ok_bind]
  exact decides_ite.iff hi

theorem decides_3a_009 (h : Obj lim .dataSpecificationIec61360 v) :
    Decides py!"AASc-3a-009" (runMethod lim .dataSpecificationIec61360_aasc_3a_009 v) (AASc009 v) := by
  simp only [runMethod]
  rcases h.enum? (f := .dataType) rfl with ⟨a1, a2, a3⟩ | ⟨a1, a2, a3⟩ <;> simp only [a1, ok_bind]
  · exact decides_ok (by simp [AASc009, a3])
  · by_cases ht : txt v .dataType ∈ [py!"INTEGER_MEASURE", py!"REAL_MEASURE", py!"RATIONAL_MEASURE", py!"INTEGER_CURRENCY", py!"REAL_CURRENCY"]
    · rw [if_pos (by simpa [enumIn] using ht)]
      rcases h.sfv? (f := .unit) rfl with ⟨b1, b2⟩ | ⟨b1, b2⟩ <;> rcases h.obj? (f := .unitId) rfl rfl with ⟨d1, d2⟩ | ⟨d1, d2, d3⟩ <;>
        simp only [b1, d1, ok_bind]
      · exact decides_violated (fun hh => (hh ht).elim b2 d2)
      · simp only [d3.exists.2.1, Bool.and_false]; exact decides_ok (fun _ => .inr d2)
      · exact decides_ok (fun _ => .inl b2)
      · exact decides_ok (fun _ => .inl b2)
    · rw [if_neg (by simpa [enumIn] using ht)]; exact decides_ok (fun hh => absurd hh ht)

theorem decides_3a_010 (h : Obj lim .dataSpecificationIec61360 v) :
    Decides py!"AASc-3a-010" (runMethod lim .dataSpecificationIec61360_aasc_3a_010 v) (AASc010 v) := by
  simp only [runMethod]
  rcases h.sfv? (f := .value) rfl with ⟨b1, b2⟩ | ⟨b1, b2⟩ <;> rcases h.obj? (f := .valueList) rfl rfl with ⟨d1, d2⟩ | ⟨d1, d2, d3⟩ <;>
    simp only [b1, d1, ok_bind]
  · exact decides_ok (fun hh => b2 hh.1)
  · exact decides_ok (fun hh => b2 hh.1)
  · exact decides_ok (fun hh => d2 hh.2)
  · simp only [d3.exists.2.1]; exact decides_violated (fun hh => hh ⟨b2, d2⟩)

/-- the contents of the data specifications of a concept description -/
theorem content_facts {ds : AVal} (h : Obj lim .embeddedDataSpecification ds) :
    attr ds .dataSpecificationContent = .ok (get ds .dataSpecificationContent) ∧
    isIec61360 (get ds .dataSpecificationContent) = true ∧ Obj lim .dataSpecificationIec61360 (get ds .dataSpecificationContent) ∧
    className (get ds .dataSpecificationContent) = py!"DataSpecificationIec61360" := by
  obtain ⟨h1, ⟨_, h2⟩ | h2⟩ := h.field (f := .dataSpecificationContent) rfl
  · cases h2
  · obtain ⟨d, hd, ho⟩ := obj_of_abstract rfl h2
    have : d = .dataSpecificationIec61360 := by clear ho; revert hd; revert d; decide
    subst this
    exact ⟨h1, by rw [isIec61360, ho.cls]; rfl, ho, ho.className⟩

theorem specs_facts (h : Obj lim .conceptDescription v) :
    (attr v .embeddedDataSpecifications = .ok .none ∧ ∀ x, ¬ IecContent v x) ∨
    (attr v .embeddedDataSpecifications = .ok (.list (elems v .embeddedDataSpecifications)) ∧ elems v .embeddedDataSpecifications ≠ [] ∧
      (∀ ds ∈ elems v .embeddedDataSpecifications, Obj lim .embeddedDataSpecification ds) ∧
      ∀ x, IecContent v x ↔ ∃ ds ∈ elems v .embeddedDataSpecifications, get ds .dataSpecificationContent = x) := by
  rcases h.list? (f := .embeddedDataSpecifications) rfl with ⟨b1, b2, b3⟩ | ⟨b1, b2, b3, b4⟩
  · refine .inl ⟨b1, ?_⟩
    rintro x ⟨ds, hds, -⟩
    simp [b3] at hds
  · have ho := fun ds hds => obj_of_concrete (lim := lim) (c := .embeddedDataSpecification) rfl (b4 ds hds)
    refine .inr ⟨b1, b3, ho, fun x => ⟨fun ⟨ds, hds, he, _⟩ => ⟨ds, hds, he⟩, ?_⟩⟩
    rintro ⟨ds, hds, rfl⟩
    exact ⟨ds, hds, rfl, (content_facts (ho ds hds)).2.2.2⟩

theorem decides_iec (h : Obj lim .conceptDescription v) (categories : List Str) (name : Str) :
    Decides name (checkIec61360 v categories name) (NoContent categories v) := by
  rw [checkIec61360]
  rcases h.sfv? (f := .category) rfl with ⟨a1, a2⟩ | ⟨a1, a2⟩ <;> simp only [a1, ok_bind, isNone, if_true]
  · exact decides_ok (fun hh => absurd hh a2)
  · simp only [Bool.false_eq_true, if_false, rawValue, ok_bind]
    by_cases hc : txt v .category ∈ categories
    · rw [if_neg (by simpa using hc)]
      rcases specs_facts h with ⟨b1, b2⟩ | ⟨b1, b2, b3, b4⟩ <;> simp only [b1, ok_bind]
      · exact decides_ok (fun _ _ => b2)
      · simp only [Bool.false_eq_true, if_false, iter, ok_bind]
        refine (decides_for (P := fun _ => False) ?_).iff ?_
        · intro ds hds
          obtain ⟨c1, c2, c3, -⟩ := content_facts (b3 ds hds)
          simp only [c1, ok_bind, c2, if_true, (c3.field (f := .dataType) rfl).1]
          exact decides_violated id
        · obtain ⟨ds, hds⟩ := List.exists_mem_of_ne_nil _ b2
          exact ⟨fun hh => absurd (hh ds hds) id, fun hh => absurd ((b4 _).mpr ⟨ds, hds, rfl⟩) (hh a2 hc _)⟩
    · rw [if_pos (by simpa using hc)]; exact decides_ok (fun _ hh => absurd hh hc)

theorem decides_3a_007 (h : Obj lim .conceptDescription v) :
    Decides py!"AASc-3a-007" (runMethod lim .conceptDescription_aasc_3a_007 v) (AASc007 v) := by
  simp only [runMethod]
  rcases h.sfv? (f := .category) rfl with ⟨a1, a2⟩ | ⟨a1, a2⟩ <;> simp only [a1, ok_bind, isNone, if_true]
  · exact decides_ok (fun hh => absurd hh a2)
  · simp only [Bool.false_eq_true, if_false, rawValue, ok_bind]
    by_cases hc : txt v .category = py!"QUALIFIER_TYPE"
    · rw [if_neg (by simpa using hc)]
      rcases specs_facts h with ⟨b1, b2⟩ | ⟨b1, b2, b3, b4⟩ <;> simp only [b1, ok_bind]
      · exact decides_ok (fun _ _ x hx => absurd hx (b2 x))
      · simp only [Bool.false_eq_true, if_false, iter, ok_bind]
        refine (decides_for (P := fun ds => Set (get ds .dataSpecificationContent) .dataType) ?_).iff ?_
        · intro ds hds
          obtain ⟨c1, c2, c3, -⟩ := content_facts (b3 ds hds)
          simp only [c1, ok_bind, c2, if_true]
          rcases c3.enum? (f := .dataType) rfl with ⟨d1, d2, d3⟩ | ⟨d1, d2, d3⟩ <;> simp only [d1, ok_bind, if_true]
          · exact decides_violated d2
          · exact decides_ok d2
        · refine ⟨fun hh _ _ x hx => ?_, fun hh ds hds => hh a2 hc _ ((b4 _).mpr ⟨ds, hds, rfl⟩)⟩
          obtain ⟨ds, hds, rfl⟩ := (b4 x).mp hx
          exact hh ds hds
    · rw [if_pos hc]; exact decides_ok (fun _ hh => absurd hh hc)

theorem decides_3a_008 (h : Obj lim .conceptDescription v) :
    Decides py!"AASc-3a-008" (runMethod lim .conceptDescription_aasc_3a_008 v) (AASc008 v) := by
  simp only [runMethod]
  rcases specs_facts h with ⟨b1, b2⟩ | ⟨b1, b2, b3, b4⟩ <;> simp only [b1, ok_bind]
  · exact decides_ok (fun x hx => absurd hx (b2 x))
  · simp only [isNone, Bool.false_eq_true, if_false, iter, ok_bind]
    refine (decides_for (P := fun ds => Set (get ds .dataSpecificationContent) .value ∨
      English (elems (get ds .dataSpecificationContent) .definition)) ?_).iff ?_
    · intro ds hds
      obtain ⟨c1, c2, c3, -⟩ := content_facts (b3 ds hds)
      simp only [c1, ok_bind, c2, if_true]
      rcases c3.sfv? (f := .value) rfl with ⟨d1, d2⟩ | ⟨d1, d2⟩ <;> simp only [d1, ok_bind]
      · rcases c3.list? (f := .definition) rfl with ⟨e1, e2, e3⟩ | ⟨e1, e2, e3, e4⟩ <;> simp only [e1, ok_bind]
        · refine decides_violated ?_
          rintro (hh | ⟨x, hx, -⟩)
          · exact d2 hh
          · simp [e3] at hx
        · obtain ⟨b, hb, hi⟩ := anyEnglish_spec (d := .definitionTypeIec61360) rfl rfl _ e4
          simp only [hb, ok_bind, Bool.not_true, Bool.false_eq_true, if_false]
          refine decides_ite.iff ?_
          rw [hi]
          exact ⟨.inr, fun hh => hh.elim (fun hh => absurd hh d2) id⟩
      · exact decides_ok (.inl d2)
    · refine ⟨fun hh x hx => ?_, fun hh ds hds => hh _ ((b4 _).mpr ⟨ds, hds, rfl⟩)⟩
      obtain ⟨ds, hds, rfl⟩ := (b4 x).mp hx
      exact hh ds hds

/-! ## values -/

/-- the outcome of a check of a value -/
inductive ValueCheck (lim : Option Nat) (t : Xsd) (s : Str) : Chk Unit → Prop
  | valid : validate lim t s = .ok true → ValueCheck lim t s (.ok ())
  | invalid : validate lim t s = .ok false → ValueCheck lim t s (violated py!"value")
  | raised {e : PyExc} : validate lim t s = .error e → ValueCheck lim t s (pyErr e)

theorem xsdOf_some : ∀ s ∈ enumValuesOf .dataTypeDefXsd, ∃ t, xsdOf s = some t ∧ t.name = s := by
  have h : ∀ s ∈ enumValuesOf .dataTypeDefXsd, ((xsdOf s).map Xsd.name) = some s := by decide +kernel
  intro s hs
  have := h s hs
  cases hx : xsdOf s with
  | none => simp [hx] at this
  | some t => exact ⟨t, rfl, by simpa [hx] using this⟩

theorem xsd_name_inj : ∀ t u : Xsd, t.name = u.name → t = u := by
  intro t u; cases t <;> cases u <;> first | (intro _; rfl) | (intro h; exact absurd h (by decide))

theorem validateValue_check {ty : Str} (h : ty ∈ enumValuesOf .dataTypeDefXsd) (s : Str) :
    ∃ t : Xsd, t.name = ty ∧ ValueCheck lim t s (validateValue lim s (.enum .dataTypeDefXsd ty)) := by
  obtain ⟨t, ht, hn⟩ := xsdOf_some ty h
  refine ⟨t, hn, ?_⟩
  rw [validateValue, ht]
  simp only
  cases hv : validate lim t s with
  | error e => exact .raised hv
  | ok b => cases b with
    | true => exact .valid hv
    | false => exact .invalid hv

theorem value_facts (h : Obj lim c v) {f : Fld} {key k2 : Str} (hm : slotOf c f = some (.attr key (.sfv .valueDataType) false))
    (ht : slotOf c .valueType = some (.attr k2 (.enum .dataTypeDefXsd) true)) :
    (attr v f = .ok .none ∧ ¬ Set v f) ∨ (attr v f = .ok (.sfv .valueDataType (txt v f)) ∧ Set v f ∧
      attr v .valueType = .ok (.enum .dataTypeDefXsd (txt v .valueType)) ∧ ∃ t : Xsd, t.name = txt v .valueType ∧
      ValueCheck lim t (txt v f) (validateValue lim (txt v f) (.enum .dataTypeDefXsd (txt v .valueType)))) := by
  have h2 := h.enum ht
  rcases h.sfv? hm with ⟨a1, a2⟩ | ⟨a1, a2⟩
  · exact .inl ⟨a1, a2⟩
  · exact .inr ⟨a1, a2, h2.1, validateValue_check h2.2 _⟩

/-- the outcome of a check of an attribute with a value: nothing to check, or the value is checked against the type -/
def ValueOutcome (lim : Option Nat) (f : Fld) (v : AVal) (x : Chk Unit) : Prop :=
  (¬ Set v f ∧ x = .ok ()) ∨ (Set v f ∧ ∃ t : Xsd, t.name = txt v .valueType ∧ ValueCheck lim t (txt v f) x)

theorem property_value (h : Obj lim .property v) : ValueOutcome lim .value v (runMethod lim .property_value_type v) := by
  obtain ⟨w, hw⟩ := h.path (mem_of_slotOf rfl)
  rcases value_facts h (f := .value) rfl rfl with ⟨a1, a2⟩ | ⟨a1, a2, a3, a4⟩
  · exact .inl ⟨a2, by simp only [runMethod, a1, ok_bind, truthy]; rfl⟩
  · exact .inr ⟨a2, by simpa only [runMethod, a1, hw, a3, ok_bind, truthy, if_true, rawValue] using a4⟩

theorem range_min (h : Obj lim .range v) : ValueOutcome lim .min v (runMethod lim .range_value_type_min v) := by
  obtain ⟨w, hw⟩ := h.path (mem_of_slotOf rfl)
  rcases value_facts h (f := .min) rfl rfl with ⟨a1, a2⟩ | ⟨a1, a2, a3, a4⟩
  · exact .inl ⟨a2, by simp only [runMethod, a1, ok_bind, truthy]; rfl⟩
  · exact .inr ⟨a2, by simpa only [runMethod, a1, hw, a3, ok_bind, truthy, if_true, rawValue] using a4⟩

theorem range_max (h : Obj lim .range v) : ValueOutcome lim .max v (runMethod lim .range_value_type_max v) := by
  obtain ⟨w, hw⟩ := h.path (mem_of_slotOf rfl)
  rcases value_facts h (f := .max) rfl rfl with ⟨a1, a2⟩ | ⟨a1, a2, a3, a4⟩
  · exact .inl ⟨a2, by simp only [runMethod, a1, ok_bind, truthy]; rfl⟩
  · exact .inr ⟨a2, by simpa only [runMethod, a1, hw, a3, ok_bind, truthy, if_true, rawValue] using a4⟩

theorem qualifier_value (h : Obj lim .qualifier v) : ValueOutcome lim .value v (runMethod lim .qualifier_value_type v) := by
  rcases value_facts h (f := .value) rfl rfl with ⟨a1, a2⟩ | ⟨a1, a2, a3, a4⟩
  · exact .inl ⟨a2, by simp only [runMethod, a1, ok_bind, truthy]; rfl⟩
  · exact .inr ⟨a2, by simpa only [runMethod, a1, a3, ok_bind, truthy, if_true, rawValue] using a4⟩

theorem extension_value (h : Obj lim .extension v) :
    (¬ Set v .valueType ∧ runMethod lim .extension_value_type v = .ok ()) ∨
    (Set v .valueType ∧ ValueOutcome lim .value v (runMethod lim .extension_value_type v)) := by
  simp only [runMethod]
  rcases h.enum? (f := .valueType) rfl with ⟨a1, a2, a3⟩ | ⟨a1, a2, a3⟩
  · left
    rcases h.sfv? (f := .value) rfl with ⟨b1, b2⟩ | ⟨b1, b2⟩ <;> exact ⟨a2, by simp only [a1, b1, ok_bind, truthy]; rfl⟩
  · right
    refine ⟨a2, ?_⟩
    rcases h.sfv? (f := .value) rfl with ⟨b1, b2⟩ | ⟨b1, b2⟩
    · exact .inl ⟨b2, by simp only [a1, b1, ok_bind, truthy]; rfl⟩
    · refine .inr ⟨b2, ?_⟩
      have := validateValue_check (lim := lim) a3 (txt v .value)
      simpa only [a1, b1, ok_bind, truthy, Bool.and_self, if_true, rawValue] using this

/-! ## language strings -/

theorem decides_language (h : Obj lim c v) (hm : .langStringSet_language ∈ checkTable c) :
    Decides py!"language" (runMethod lim .langStringSet_language v) (OrLineFeed LanguageTagExactCase (txt v .language)) := by
  have hs := (shared_slots c).2.2.2.1 hm
  simp only [runMethod, h.str hs, ok_bind, asStr]
  by_cases hb : isBcpLangString (txt v .language) = true
  · have hne : ¬ (txt v .language).length < 1 := by
      intro hl
      have : txt v .language = [] := by cases ht : txt v .language with
        | nil => rfl
        | cons => rw [ht] at hl; simp at hl
      rw [this] at hb
      revert hb; rw [isBcpLangString, bcp47Re_eq]; decide +kernel
    simp only [hb, Bool.not_true, Bool.false_eq_true, if_false, hne]
    exact decides_ok ((C26_tag_partial _).mp hb)
  · simp only [hb, Bool.not_false, if_true]
    exact decides_violated (fun hh => hb ((C26_tag_partial _).mpr hh))

theorem decides_text (h : Obj lim c v) (hm : .langStringSet_text ∈ checkTable c) (hc : c ≠ .langStringSet) :
    Decides py!"text" (runMethod lim .langStringSet_text v) (TextLength v) := by
  have hs := (shared_slots c).2.2.2.2 hm
  have hl : maxLenText c = some (textLimit v) := by
    rw [textLimit, h.className]
    clear h hs
    cases c <;> first | rfl | exact absurd rfl hc | exact absurd hm (by decide)
  simp only [runMethod, h.str hs, ok_bind, asStr, h.cls, Option.bind_some, hl]
  by_cases h1 : (txt v .text).length < 1
  · rw [if_pos h1]; exact decides_violated (fun hh => by have := hh.1; omega)
  · rw [if_neg h1]
    by_cases h2 : textLimit v < (txt v .text).length
    · rw [if_pos h2]; exact decides_violated (fun hh => by have := hh.2; omega)
    · rw [if_neg h2]; exact decides_ok ⟨by omega, by omega⟩

theorem langStringSet_text_outcome (h : Obj lim .langStringSet v) (ht : 1 ≤ (txt v .text).length) :
    runMethod lim .langStringSet_text v = pyErr .attributeError := by
  simp only [runMethod, h.str (f := .text) rfl, ok_bind, asStr, h.cls, Option.bind_some, maxLenText]
  rw [if_neg (by omega)]

/-! ## data specifications -/

theorem decides_dataSpecification (h : Obj lim .embeddedDataSpecification v) :
    ((∃ k, elems (get v .dataSpecification) .keys = [k] ∧ txt k .value = expectedSpec) →
      runMethod lim .embeddedDataSpecification_reference v = .ok ()) ∧
    (¬ (∃ k, elems (get v .dataSpecification) .keys = [k] ∧ txt k .value = expectedSpec) →
      runMethod lim .embeddedDataSpecification_reference v = violated py!"dataSpecification" .warning) := by
  obtain ⟨h1, h2⟩ := h.obj (f := .dataSpecification) rfl rfl
  obtain ⟨-, r2, r3, r4⟩ := ref_facts h2
  simp only [runMethod, h1, r2, ok_bind, iter]
  cases hk : elems (get v .dataSpecification) .keys with
  | nil => exact absurd hk r3
  | cons k ks =>
    cases ks with
    | cons k' ks => exact ⟨fun ⟨k, he, _⟩ => by simp at he, fun _ => rfl⟩
    | nil =>
      have ho := r4 k (by rw [hk]; simp)
      simp only [head, ok_bind, (key_facts ho).2, rawValue, List.length_singleton, ne_eq, not_true_eq_false, if_false]
      have hd : ∀ s, s ∈ deprecatedSpecs → s ≠ expectedSpec := by decide +kernel
      by_cases he : txt k .value = expectedSpec
      · have hn : ¬ deprecatedSpecs.contains (txt k .value) = true := by
          rw [List.contains_iff_mem]; exact fun hm => hd _ hm he
        exact ⟨fun _ => by rw [if_neg hn, if_neg (by simpa using he)], fun hh => absurd ⟨k, rfl, he⟩ hh⟩
      · refine ⟨fun ⟨k', hk', he'⟩ => ?_, fun _ => ?_⟩
        · simp only [List.cons.injEq, and_true] at hk'; subst hk'; exact absurd he' he
        · rw [if_pos (c := ¬ txt k .value = expectedSpec) he]
          split <;> rfl

end Verif.Aas
