import Verif.Spec.Metamodel
import Verif.Model

/-! The tables of the code compared with those of the specification -/

namespace Verif.Props
open Verif Verif.Parse Verif.Spec.Parse Verif.Aas Verif.Spec.Metamodel

/-- the enumeration of the specification -/
def enumOf : EnumCls → Enumeration
  | .keyType => .keyTypes
  | .referenceType => .referenceTypes
  | .dataTypeIec61360 => .dataTypeIec61360
  | .modellingKind => .modellingKind
  | .qualifierKind => .qualifierKind
  | .assetKind => .assetKind
  | .stateOfEvent => .stateOfEvent
  | .direction => .direction
  | .entityType => .entityType
  | .dataTypeDefXsd => .dataTypeDefXsd

/-- the type of the specification -/
def kindOf : ATy → Option Verif.Spec.Metamodel.Kind
  | .str => some .plain
  | .bool => some .flag
  | .enum e => some (.literal (enumOf e))
  | .sfv f => some (.text f)
  | .cls c => some (.one c.pyName)
  | .list (.cls c) false => some (.many c.pyName)
  | _ => none

/-- the attribute `a` is read with type `ty` -/
def agrees (ty : ATy) (a : Attribute) : Bool :=
  kindOf ty == some a.kind || (a.name == py!"lastUpdate" && ty == .sfv .dateTime && a.kind == .text .dateTimeUtc) ||
    (a.name == py!"typeValueListElement" && ty == .enum .keyType && a.kind == .literal .aasSubmodelElements)

/-- `c` is the class `d` -/
def sameClass (c : Cls) (d : Class) : Bool :=
  (d.attributes.all fun a => (fieldsOf c).any fun f =>
    match f.slot with
    | .attr k ty r => k == a.name && r == a.required && agrees ty a
    | .excluded => false) &&
  (fieldsOf c).all fun f =>
    match f.slot with
    | .attr k ty r => d.attributes.any fun a => k == a.name && r == a.required && agrees ty a
    | .excluded => true

def rootCls (c : Cls) : Bool :=
  (([py!"SubmodelElement", py!"DataElement", py!"DataSpecificationContent"].contains c.pyName) || classes.any fun d => d.name == c.pyName) &&
    !submodelElements.contains c.pyName && c.pyName != py!"DataSpecificationIec61360"

def rootTy : ATy → Bool
  | .cls c => rootCls c
  | .list it _ => rootTy it
  | _ => true

theorem mem_allCls (c : Cls) : c ∈ allCls := by cases c <;> decide

/-- the classes of the specification are classes of the code -/
theorem classes_ok : (classes.all fun d => allCls.any fun c => c.pyName == d.name && sameClass c d) = true := by decide +kernel

theorem names_ok : (allCls.all fun c => allCls.all fun c' => c.pyName != c'.pyName || c == c') = true := by decide +kernel

theorem same_ok : (allCls.all fun c => classes.all fun d => c.pyName != d.name || sameClass c d) = true := by decide +kernel

theorem instances_ok : (allCls.all fun c => classes.all fun d => allCls.all fun c' =>
    !((instances c.pyName).contains d.name && c'.pyName == d.name) ||
      (if isAbstract c then (subclassesOf c).contains c' else c' == c) && (!(isAbstract c || needsModelTypeOf c') || d.tagged)) = true := by
  decide +kernel

theorem isA_ok : (allCls.all fun c => !rootCls c || (if isAbstract c then subclassesOf c else [c]).all fun c' =>
    c' == .eventElement || classes.any fun d => d.name == c'.pyName && (instances c.pyName).contains d.name &&
      (!d.tagged || (isAbstract c || needsModelTypeOf c'))) = true := by
  decide +kernel

theorem types_ok : (allCls.all fun c => (fieldsOf c).all fun f =>
    match f.slot with
    | .attr _ ty _ => rootTy ty
    | .excluded => true) = true := by decide +kernel

theorem enums_ok (e : EnumCls) (s : Str) : s ∈ enumValuesOf e ↔ s ∈ literals (enumOf e) := by
  have h : ((enumValuesOf e).all (literals (enumOf e)).contains && (literals (enumOf e)).all (enumValuesOf e).contains) = true := by
    cases e <;> decide +kernel
  simp only [Bool.and_eq_true, List.all_eq_true, List.contains_iff_mem] at h
  exact ⟨h.1 s, h.2 s⟩

/-! ### the same as propositions -/

theorem pyName_inj {c c' : Cls} (h : c.pyName = c'.pyName) : c = c' := by
  have := names_ok
  simp only [List.all_eq_true, Bool.or_eq_true, bne_iff_ne, ne_eq, beq_iff_eq] at this
  exact (this c (mem_allCls c) c' (mem_allCls c')).resolve_left (by simpa using h)

theorem cls_of {d : Class} (hd : d ∈ classes) : ∃ c : Cls, c.pyName = d.name := by
  have := classes_ok
  simp only [List.all_eq_true, List.any_eq_true, Bool.and_eq_true, beq_iff_eq] at this
  obtain ⟨c, -, h, -⟩ := this d hd
  exact ⟨c, h⟩

theorem same_of {c : Cls} {d : Class} (hd : d ∈ classes) (h : c.pyName = d.name) : sameClass c d = true := by
  have := same_ok
  simp only [List.all_eq_true, Bool.or_eq_true, bne_iff_ne, ne_eq] at this
  exact (this c (mem_allCls c) d hd).resolve_left (by simpa using h)

theorem field_of {c : Cls} {d : Class} (hd : d ∈ classes) (h : c.pyName = d.name) {a : Attribute} (ha : a ∈ d.attributes) :
    ∃ f ty, ⟨f, .attr a.name ty a.required⟩ ∈ fieldsOf c ∧ agrees ty a = true := by
  have := same_of hd h
  simp only [sameClass, Bool.and_eq_true, List.all_eq_true, List.any_eq_true] at this
  obtain ⟨⟨f, slot⟩, hf, h'⟩ := this.1 a ha
  cases slot with
  | excluded => cases h'
  | attr k ty r =>
    simp only [Bool.and_eq_true, beq_iff_eq] at h'
    obtain ⟨⟨rfl, rfl⟩, h3⟩ := h'
    exact ⟨f, ty, hf, h3⟩

theorem attribute_of {c : Cls} {d : Class} (hd : d ∈ classes) (h : c.pyName = d.name) {f k ty r} (hf : ⟨f, .attr k ty r⟩ ∈ fieldsOf c) :
    ∃ a ∈ d.attributes, a.name = k ∧ a.required = r ∧ agrees ty a = true := by
  have := same_of hd h
  simp only [sameClass, Bool.and_eq_true, List.all_eq_true] at this
  have h' := this.2 _ hf
  simp only [List.any_eq_true, Bool.and_eq_true, beq_iff_eq] at h'
  obtain ⟨a, ha, ⟨h1, h2⟩, h3⟩ := h'
  exact ⟨a, ha, h1.symm, h2.symm, h3⟩

theorem type_root {c : Cls} {f k ty r} (hf : ⟨f, .attr k ty r⟩ ∈ fieldsOf c) : rootTy ty = true := by
  have := types_ok
  simp only [List.all_eq_true] at this
  exact this c (mem_allCls c) _ hf

theorem isA_of (lim : Option Nat) {c c' : Cls} {d : Class} (hd : d ∈ classes) (hi : d.name ∈ instances c.pyName) (h : c'.pyName = d.name) :
    IsA (schema lim) c c' ∧ (isAbstract c = true ∨ needsModelTypeOf c' = true → d.tagged = true) := by
  have := instances_ok
  simp only [List.all_eq_true] at this
  have := this c (mem_allCls c) d hd c' (mem_allCls c')
  rw [show ((instances c.pyName).contains d.name && c'.pyName == d.name) = true by simp [hi, h]] at this
  simp only [Bool.not_true, Bool.false_or, Bool.and_eq_true, Bool.or_eq_true, Bool.not_eq_true'] at this
  obtain ⟨h1, h2⟩ := this
  constructor
  · unfold IsA
    show isAbstract c = false ∧ _ ∨ isAbstract c = true ∧ c' ∈ subclassesOf c
    cases ha : isAbstract c <;> simp_all
  · intro h3
    rcases h2 with h2 | h2
    · simp only [Bool.or_eq_false_iff] at h2
      rcases h3 with h3 | h3 <;> simp_all
    · exact h2

theorem class_of (lim : Option Nat) {c c' : Cls} (hr : rootCls c = true) (h : IsA (schema lim) c c') (he : c' ≠ .eventElement) :
    ∃ d ∈ classes, c'.pyName = d.name ∧ d.name ∈ instances c.pyName ∧ (d.tagged = true → isAbstract c = true ∨ needsModelTypeOf c' = true) := by
  have := isA_ok
  simp only [List.all_eq_true] at this
  have := this c (mem_allCls c)
  rw [hr] at this
  simp only [Bool.not_true, Bool.false_or, List.all_eq_true] at this
  have hm : c' ∈ (if isAbstract c then subclassesOf c else [c]) := by
    rcases h with ⟨h1, h2⟩ | ⟨h1, h2⟩
    · rw [show isAbstract c = false from h1]; simp [h2]
    · rw [show isAbstract c = true from h1]; exact h2
  have := this c' hm
  simp only [Bool.or_eq_true, beq_iff_eq, he, false_or, List.any_eq_true, Bool.and_eq_true, Bool.not_eq_true', List.contains_iff_mem] at this
  obtain ⟨d, hd, ⟨h1, h2⟩, h3⟩ := this
  exact ⟨d, hd, h1.symm, h2, fun ht => h3.resolve_left (by simp [ht])⟩

theorem event_abstract (lim : Option Nat) {c : Cls} (hr : rootCls c = true) (h : IsA (schema lim) c .eventElement) : isAbstract c = true := by
  rcases h with ⟨h1, h2⟩ | ⟨h1, -⟩
  · subst h2; revert hr; decide +kernel
  · exact h1

theorem rootCls_iff (c : Cls) : rootCls c = true ↔ Root c.pyName := by
  simp [rootCls, Root, and_assoc]

theorem kindOf_inv {ty : ATy} {k} (h : kindOf ty = some k) : match (generalizing := false) k with
    | .text f => ty = .sfv f
    | .plain => ty = .str
    | .flag => ty = .bool
    | .literal e => ∃ e', ty = .enum e' ∧ e = enumOf e'
    | .one c => ∃ c' : Cls, ty = .cls c' ∧ c = c'.pyName
    | .many c => ∃ c' : Cls, ty = .list (.cls c') false ∧ c = c'.pyName := by
  unfold kindOf at h
  split at h <;> cases h
  · rfl
  · rfl
  · exact ⟨_, rfl, rfl⟩
  · rfl
  · exact ⟨_, rfl, rfl⟩
  · exact ⟨_, rfl, rfl⟩

end Verif.Props
