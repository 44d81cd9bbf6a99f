import Verif.AasWorld
import Verif.SchemaLemmas
import Verif.ReflectLemmas2

/-!
# The symbol table of the meta-model

`symbolTypes` are the types of the table in the order of insertion. They are exactly the types reachable from `Environment`.
-/

namespace Verif.Aas
open Verif Verif.Reflect Verif.Spec.Reflect

/-- the types reachable from `Environment` -/
def symbolTypes : List AAnn :=
  [.cls .environment, .list (.cls .assetAdministrationShell) false, .cls .assetAdministrationShell,
   .list (.cls .embeddedDataSpecification) false, .cls .embeddedDataSpecification, .cls .reference, .enum .referenceType,
   .list (.cls .key) false, .cls .key, .enum .keyType, .sfv .identifierString, .cls .dataSpecificationContent,
   .cls .dataSpecificationIec61360, .list (.cls .preferredNameTypeIec61360) false, .cls .preferredNameTypeIec61360, .str,
   .list (.cls .shortNameTypeIec61360) false, .cls .shortNameTypeIec61360, .sfv .nonEmptyString, .enum .dataTypeIec61360,
   .list (.cls .definitionTypeIec61360) false, .cls .definitionTypeIec61360, .cls .valueList, .list (.cls .valueReferencePair) false,
   .cls .valueReferencePair, .sfv .valueTypeIec61360, .cls .levelType, .bool, .list (.cls .extension) false, .cls .extension,
   .list (.cls .reference) false, .sfv .nameTypeString, .enum .dataTypeDefXsd, .sfv .valueDataType,
   .list (.cls .multiLanguageNameType) false, .cls .multiLanguageNameType, .list (.cls .multiLanguageTextType) false,
   .cls .multiLanguageTextType, .cls .administrativeInformation, .sfv .versionString, .sfv .revisionString, .cls .assetInformation,
   .enum .assetKind, .list (.cls .specificAssetId) false, .cls .specificAssetId, .sfv .labelString, .cls .resource, .sfv .pathString,
   .sfv .contentType, .list (.cls .submodel) false, .cls .submodel, .list (.cls .qualifier) false, .cls .qualifier, .enum .qualifierKind,
   .enum .modellingKind, .list (.cls .submodelElement) false, .cls .submodelElement, .cls .blob, .sfv .blobString, .cls .file,
   .cls .multiLanguageProperty, .cls .property, .cls .range, .cls .referenceElement, .cls .relationshipElement,
   .cls .annotatedRelationshipElement, .list (.cls .dataElement) false, .cls .dataElement, .cls .eventElement, .cls .basicEventElement,
   .enum .direction, .enum .stateOfEvent, .sfv .messageTopicString, .sfv .dateTime, .sfv .duration, .cls .capability, .cls .entity,
   .enum .entityType, .cls .operation, .list (.cls .operationVariable) false, .cls .operationVariable, .cls .submodelElementCollection,
   .cls .submodelElementList, .list (.cls .conceptDescription) false, .cls .conceptDescription]

/-- longest chain of subclasses -/
def rank : Nat → Cls → Nat
  | 0, _ => 0
  | n + 1, c => ((directSubclasses c).map fun d => rank n d + 1).foldl max 0

theorem grounded : Grounded world :=
  ⟨rank 5, fun c => by cases c <;> decide +kernel, fun c => by cases c <;> decide +kernel⟩

/-- the meaning of a forward reference -/
def meant : AAnn → List AAnn
  | .forward n => (world.names n).toList
  | a => [a]

theorem mem_meant {a b : AAnn} : b ∈ meant a ↔ Means world a b := by
  cases a <;> simp [meant, Means]

/-- the types used by a type -/
def usesOf : AAnn → List AAnn
  | .list i _ => meant i
  | .cls c => ((pfields c).filter fun f => !f.exclude).flatMap (fun f => meant (bare f.type)) ++ (collect world 6 c).map .cls
  | _ => []

theorem mem_usesOf {a b : AAnn} : b ∈ usesOf a ↔ Uses world a b := by
  cases a with
  | list i ae => exact mem_meant.trans ⟨.item, fun h => by cases h; assumption⟩
  | cls c =>
    simp only [usesOf, List.mem_append, List.mem_flatMap, List.mem_filter, Bool.not_eq_true', List.mem_map, mem_meant]
    constructor
    · rintro (⟨f, ⟨h1, h2⟩, h3⟩ | ⟨d, hd, rfl⟩)
      · exact .attr h1 h2 h3
      · have := (collect_iff grounded c d).mp hd
        exact .sub this.1 this.2
    · rintro (_ | ⟨h1, h2, h3⟩ | ⟨h1, h2⟩)
      · exact .inl ⟨_, ⟨h1, h2⟩, h3⟩
      · exact .inr ⟨_, (collect_iff grounded c _).mpr ⟨h1, h2⟩, rfl⟩
  | _ => exact ⟨fun h => (by cases h), fun h => (by cases h)⟩

theorem closed : (symbolTypes.all fun a => (usesOf a).all fun b => symbolTypes.contains b) = true := by decide +kernel

/-- every type but the first is used by an earlier one -/
def chained : List AAnn → List AAnn → Bool
  | _, [] => true
  | before, b :: rest => before.any (fun a => (usesOf a).contains b) && chained (before ++ [b]) rest

theorem chained_symbols : chained [.cls .environment] symbolTypes.tail = true := by decide +kernel

theorem reachable_of_chained {r : AAnn} : ∀ {rest before : List AAnn}, (∀ a ∈ before, Reachable world r a) → chained before rest = true →
    ∀ b ∈ rest, Reachable world r b
  | [], _, _, _, b, hb => by cases hb
  | x :: rest, before, h, hc, b, hb => by
    rw [chained, Bool.and_eq_true, List.any_eq_true] at hc
    obtain ⟨⟨a, ha, hx⟩, hc⟩ := hc
    have hxr : Reachable world r x := Reachable.trans (h a ha) (.step (mem_usesOf.mp (List.contains_iff_mem.mp hx)) .refl)
    rcases List.mem_cons.mp hb with rfl | hb
    · exact hxr
    · refine reachable_of_chained (before := before ++ [x]) (fun a ha => ?_) hc b hb
      rcases List.mem_append.mp ha with ha | ha
      · exact h a ha
      · rw [List.mem_singleton.mp ha]; exact hxr

theorem mem_symbolTypes {b : AAnn} : b ∈ symbolTypes ↔ Reachable world (.cls .environment) b := by
  constructor
  · intro h
    rcases List.mem_cons.mp (show b ∈ Ann.cls Cls.environment :: symbolTypes.tail from h) with rfl | h
    · exact .refl
    · exact reachable_of_chained (fun a ha => by rw [List.mem_singleton.mp ha]; exact .refl) chained_symbols b h
  · intro h
    have hc := closed
    simp only [List.all_eq_true, List.contains_iff_mem] at hc
    have main : ∀ a b, Reachable world a b → a ∈ symbolTypes → b ∈ symbolTypes := by
      intro a b hab
      induction hab with
      | refl => exact id
      | step hu _ ih => exact fun ha => ih (hc _ ha _ (mem_usesOf.mpr hu))
    exact main _ _ h (by decide)

theorem symbolKeys_nodup : (symbolTypes.map keyOf).Nodup := by decide +kernel

theorem inj_of_nodup {α β : Type} {f : α → β} : ∀ {l : List α}, (l.map f).Nodup → ∀ a ∈ l, ∀ b ∈ l, f a = f b → a = b
  | [], _, a, ha, _, _, _ => by cases ha
  | x :: l, h, a, ha, b, hb, e => by
    rw [List.map_cons, List.nodup_cons] at h
    rcases List.mem_cons.mp ha with rfl | ha' <;> rcases List.mem_cons.mp hb with rfl | hb'
    · rfl
    · exact absurd (e ▸ List.mem_map_of_mem hb') h.1
    · exact absurd (e ▸ List.mem_map_of_mem ha') h.1
    · exact inj_of_nodup h.2 a ha' b hb' e

theorem keyOf_inj {a b : AAnn} (ha : Reachable world (.cls .environment) a) (hb : Reachable world (.cls .environment) b) (h : keyOf a = keyOf b) : a = b :=
  inj_of_nodup symbolKeys_nodup a (mem_symbolTypes.mpr ha) b (mem_symbolTypes.mpr hb) h

theorem supported_iff {a : AAnn} : Supported world a ↔ (symOf world a).isSome = true := by
  rw [← symOf_some, Option.isSome_iff_exists]

theorem symbols_supported : (symbolTypes.all fun a => (symOf world a).isSome) = true := by decide +kernel

end Verif.Aas
