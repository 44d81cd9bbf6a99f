import Verif.CheckLemmas
import Verif.Props.Text
import Verif.Props.Numbers

/-! # The other checks -/

namespace Verif.Aas
open Verif Verif.Parse Verif.Spec.Parse Verif.Spec.Model Verif.DataTypes Verif.Spec Verif.Props

variable {lim : Option Nat} {c : Cls} {v : AVal}

theorem violatedAt_eq (h : Obj lim c v) (hm : slotOf c .idShortPath = some .excluded) (t : Str) : violatedAt v t = violated t := by
  obtain ⟨w, hw⟩ := h.path (mem_of_slotOf hm)
  rw [violatedAt, hw, ok_bind]

/-- the slots that the methods of several classes use -/
theorem shared_slots : ∀ c,
    (.hasSemantics_aasd_118 ∈ checkTable c →
      slotOf c .semanticId = some (.attr py!"semanticId" (.cls .reference) false) ∧
      slotOf c .supplementalSemanticIds = some (.attr py!"supplementalSemanticIds" (.list (.cls .reference) false) false)) ∧
    (.referable_constraint_aasd_002 ∈ checkTable c → slotOf c .idShort = some (.attr py!"idShort" (.sfv .nameTypeString) false)) ∧
    (.dataElement_aasd_090 ∈ checkTable c → slotOf c .category = some (.attr py!"category" (.sfv .nameTypeString) false) ∧
      slotOf c .idShortPath = some .excluded) ∧
    (.langStringSet_language ∈ checkTable c → slotOf c .language = some (.attr py!"language" .str true)) ∧
    (.langStringSet_text ∈ checkTable c → slotOf c .text = some (.attr py!"text" .str true)) := by
  intro c; cases c <;> refine ⟨?_, ?_, ?_, ?_, ?_⟩ <;> intro h <;>
    first | exact ⟨rfl, rfl⟩ | rfl | exact absurd h (by decide)

/-! ## semantics, idShort, category, administration, asset ids -/

theorem decides_118 (h : Obj lim c v) (hm : .hasSemantics_aasd_118 ∈ checkTable c) :
    Decides py!"AASd-118" (runMethod lim .hasSemantics_aasd_118 v) (AASd118 v) := by
  obtain ⟨s1, s2⟩ := (shared_slots c).1 hm
  simp only [runMethod]
  rcases h.obj? rfl s1 with ⟨a1, a2⟩ | ⟨a1, a2, a3⟩ <;> rcases h.list? s2 with ⟨b1, b2, b3⟩ | ⟨b1, b2, b3⟩
  · simp only [a1, b1, ok_bind, isNone]; exact decides_ok (fun hs => absurd hs b2)
  · simp only [a1, b1, ok_bind, isNone]; exact decides_violated (fun hs => a2 (hs b2))
  · simp only [a1, b1, ok_bind, isNone]; exact decides_ok (fun hs => a2)
  · simp only [a1, b1, ok_bind, a3.exists.2.1, Bool.and_false, Bool.false_eq_true, if_false]; exact decides_ok (fun hs => a2)

theorem idShortRe_eq : idShortRe = .seq (.cls false [(97, 122), (65, 90)]) (.star (.cls false [(97, 122), (65, 90), (48, 57), (95, 95)])) := by
  decide +kernel

theorem idShortRe_iff (s : Str) : Re.fullmatch idShortRe s = true ↔ IdShortText s := by
  rw [Re.fullmatch_iff, idShortRe_eq]
  simp only [Re.matches_seq, Re.matches_cls, Re.matches_star_cls]
  constructor
  · rintro ⟨_, t, rfl, ⟨c, rfl, hc⟩, ht⟩
    refine ⟨c, t, rfl, ?_, ?_⟩
    · simp [Re.inCls] at hc; unfold IsAlpha IsLower IsUpper; omega
    · intro x hx; have := ht x hx; simp [Re.inCls] at this; unfold IsAlpha IsLower IsUpper IsNum; omega
  · rintro ⟨c, t, rfl, hc, ht⟩
    refine ⟨[c], t, rfl, ⟨c, rfl, ?_⟩, ?_⟩
    · simp [Re.inCls]; unfold IsAlpha IsLower IsUpper at hc; omega
    · intro x hx; have := ht x hx; simp [Re.inCls]; unfold IsAlpha IsLower IsUpper IsNum at this; omega

theorem decides_002 (h : Obj lim c v) (hm : .referable_constraint_aasd_002 ∈ checkTable c) :
    Decides py!"AASd-002" (runMethod lim .referable_constraint_aasd_002 v) (AASd002 v) := by
  simp only [runMethod]
  rcases idShort_facts h ((shared_slots c).2.1 hm) with ⟨h1, h2⟩ | ⟨s, h1, h2⟩
  · simp only [h1, ok_bind, truthy]; exact decides_ok (fun s hs => by rw [h2] at hs; cases hs)
  · simp only [h1, ok_bind, truthy, if_true, rawValue]
    refine decides_ite.iff ?_
    rw [idShortRe_iff]
    exact ⟨fun h s' hs => by rw [h2] at hs; cases hs; exact h, fun h => h s h2⟩

theorem decides_090 (h : Obj lim c v) (hm : .dataElement_aasd_090 ∈ checkTable c) :
    Decides py!"AASd-090" (runMethod lim .dataElement_aasd_090 v) (AASd090 v) := by
  obtain ⟨s1, s2⟩ := (shared_slots c).2.2.1 hm
  simp only [runMethod, violatedAt_eq h s2]
  rcases h.sfv? s1 with ⟨a1, a2⟩ | ⟨a1, a2⟩
  · simp only [a1, ok_bind, isNone, if_true]; exact decides_ok (fun hs => absurd hs a2)
  · simp only [a1, ok_bind, isNone, Bool.false_eq_true, if_false, rawValue]
    refine decides_ite.iff ?_
    rw [AASd090, List.contains_iff_mem]
    exact ⟨fun h _ => h, fun h => h a2⟩

theorem decides_005 (h : Obj lim .administrativeInformation v) :
    Decides py!"AASd-005" (runMethod lim .administrativeInformation_constraint_aasd_005 v) (AASd005 v) := by
  simp only [runMethod]
  rcases h.sfv? (f := .revision) rfl with ⟨a1, a2⟩ | ⟨a1, a2⟩ <;> rcases h.sfv? (f := .version) rfl with ⟨b1, b2⟩ | ⟨b1, b2⟩ <;>
    simp only [a1, b1, ok_bind, isNone]
  · exact decides_ok (fun hs => absurd hs a2)
  · exact decides_ok (fun hs => b2)
  · exact decides_violated (fun hs => b2 (hs a2))
  · exact decides_ok (fun hs => b2)

theorem decides_133 (h : Obj lim .specificAssetId v) :
    Decides py!"AASd-133" (runMethod lim .specificAssetId_aasd_133 v) (AASd133 v) := by
  simp only [runMethod]
  rcases h.obj? (f := .externalSubjectId) rfl rfl with ⟨a1, a2⟩ | ⟨a1, a2, a3⟩
  · simp only [a1, ok_bind, truthy]; exact decides_ok (fun hs => absurd hs a2)
  · simp only [a1, ok_bind, a3.exists.2.2, if_true, (ref_facts a3).1]
    refine decides_ite.iff ?_
    rw [isExternal_iff]
    exact ⟨fun h _ => h, fun h => h a2⟩

theorem decides_131 (h : Obj lim .assetInformation v) :
    Decides py!"AASd-131" (runMethod lim .assetInformation_aasd_131 v) (AASd131 v) := by
  simp only [runMethod]
  rcases h.sfv? (f := .globalAssetId) rfl with ⟨a1, a2⟩ | ⟨a1, a2⟩ <;> rcases h.list? (f := .specificAssetIds) rfl with ⟨b1, b2, b3⟩ | ⟨b1, b2, b3, b4⟩ <;>
    simp only [a1, b1, ok_bind, truthy]
  · exact decides_violated (fun hs => hs.elim a2 b2)
  · simp only [List.isEmpty_eq_false_iff.mpr b3]; exact decides_ok (.inr b2)
  · exact decides_ok (.inl a2)
  · exact decides_ok (.inl a2)

theorem decides_116 (h : Obj lim .assetInformation v) :
    Decides py!"AASd-116" (runMethod lim .assetInformation_aasd_116 v) (AASd116Exact v) := by
  simp only [runMethod]
  rcases h.list? (f := .specificAssetIds) rfl with ⟨b1, b2, b3⟩ | ⟨b1, b2, b3, b4⟩ <;> simp only [b1, ok_bind, isNone, if_true]
  · exact decides_ok (by simp [AASd116Exact, b3])
  · simp only [iter, ok_bind, Bool.false_eq_true, if_false]
    refine decides_for fun x hx => ?_
    have ho : Obj lim .specificAssetId x := obj_of_concrete rfl (b4 x hx)
    rw [ho.sfv (f := .name) rfl]
    simp only [ok_bind, rawValue]
    split
    · rename_i he; exact decides_violated (by simp [he])
    · rename_i he; exact decides_ok he

theorem decides_014 (h : Obj lim .entity v) : Decides py!"AASd-014" (runMethod lim .entity_aasd_014 v) (AASd014 v) := by
  simp only [runMethod, violatedAt_eq h rfl, (h.enum (f := .entityType) rfl).1, ok_bind]
  have hk : enumIs .entityType py!"SelfManagedEntity" (.enum .entityType (txt v .entityType)) =
      decide (txt v .entityType = py!"SelfManagedEntity") := by simp [enumIs]
  rw [hk]
  rcases h.sfv? (f := .globalAssetId) rfl with ⟨a1, a2⟩ | ⟨a1, a2⟩ <;> rcases h.list? (f := .specificAssetIds) rfl with ⟨b1, b2, b3⟩ | ⟨b1, b2, b3, b4⟩ <;>
    simp only [a1, b1, ok_bind, truthy, isNone] <;> by_cases ht : txt v .entityType = py!"SelfManagedEntity" <;>
    simp only [ht, decide_true, decide_false]
  · exact decides_violated (fun hs => (hs.1 ht).elim a2 b2)
  · exact decides_ok ⟨fun h => absurd h ht, fun _ => ⟨a2, b2⟩⟩
  · exact decides_ok ⟨fun _ => .inr b2, fun h => absurd ht h⟩
  · simp only [List.isEmpty_eq_false_iff.mpr b3]; exact decides_violated (fun hs => (hs.2 ht).2 b2)
  · exact decides_ok ⟨fun _ => .inl a2, fun h => absurd ht h⟩
  · exact decides_violated (fun hs => (hs.2 ht).1 a2)
  · exact decides_ok ⟨fun _ => .inl a2, fun h => absurd ht h⟩
  · exact decides_violated (fun hs => (hs.2 ht).1 a2)

/-! ## qualifiers -/

theorem anyTemplate_iff {x : AVal} (l : List AVal) (h : ∀ q ∈ l, HasType (schema lim) (.cls .qualifier) q) (hl : elems x .qualifiers = l) :
    ∃ b, anyTemplateQualifier (.list l) = .ok b ∧ (b = true ↔ TemplateQualified x) := by
  refine ⟨l.any fun q => decide (txt q .kind = py!"TemplateQualifier"), ?_, ?_⟩
  · rw [anyTemplateQualifier, iter, ok_bind]
    refine anyM_ok fun q hq => ?_
    have ho : Obj lim .qualifier q := obj_of_concrete rfl (h q hq)
    rcases ho.enum? (f := .kind) rfl with ⟨a1, a2, a3⟩ | ⟨a1, a2, a3⟩
    · rw [a1, a3]; rfl
    · rw [a1, ok_bind]; simp [enumIs]
  · rw [TemplateQualified, hl]; simp

theorem template_facts (h : Obj lim .submodel v) : ∃ w, attr v .kind = .ok w ∧ (enumIs .modellingKind py!"Template" w = true ↔ Template v) := by
  rcases h.enum? (f := .kind) rfl with ⟨a1, a2, a3⟩ | ⟨a1, a2, a3⟩
  · exact ⟨_, a1, by rw [Template, a3]; simp [enumIs]⟩
  · exact ⟨_, a1, by rw [Template]; simp [enumIs]⟩

theorem decides_119 (h : Obj lim .submodel v) : Decides py!"AASd-119" (runMethod lim .submodel_aasd_119 v) (AASd119 v) := by
  obtain ⟨w, hk, hw⟩ := template_facts h
  simp only [runMethod, hk]
  rcases h.list? (f := .qualifiers) rfl with ⟨b1, b2, b3⟩ | ⟨b1, b2, b3, b4⟩ <;> simp only [b1, ok_bind, isNone, if_true]
  · exact decides_ok (by rintro ⟨q, hq, -⟩; simp [b3] at hq)
  · obtain ⟨b, hb, hbi⟩ := anyTemplate_iff (x := v) _ b4 rfl
    simp only [hb, ok_bind, Bool.false_eq_true, if_false]
    cases b
    · exact decides_ok (fun hq => by simp at hbi; exact absurd hq hbi)
    · refine decides_ite.iff ?_
      rw [hw]
      exact ⟨fun h _ => h, fun h => h (hbi.mp rfl)⟩

theorem decides_129 (h : Obj lim .submodel v) : Decides py!"AASd-129" (runMethod lim .submodel_aasd_129 v) (AASd129Top v) := by
  obtain ⟨w, hk, hw⟩ := template_facts h
  simp only [runMethod, hk]
  rcases h.list? (f := .submodelElements) rfl with ⟨b1, b2, b3⟩ | ⟨b1, b2, b3, b4⟩ <;> simp only [b1, ok_bind, isNone, if_true]
  · exact decides_ok (by rintro ⟨q, hq, -⟩; simp [b3] at hq)
  · simp only [iter, ok_bind, Bool.false_eq_true, if_false]
    refine (decides_for (P := fun x => TemplateQualified x → Template v) ?_).iff ?_
    · intro x hx
      obtain ⟨d, hd, ho⟩ := obj_of_abstract rfl (b4 x hx)
      rcases ho.list? (element_named _ (by simp) d hd).2.2 with ⟨c1, c2, c3⟩ | ⟨c1, c2, c3, c4⟩ <;> simp only [c1, ok_bind, if_true]
      · exact decides_ok (by rintro ⟨q, hq, -⟩; simp [c3] at hq)
      · obtain ⟨b, hb, hbi⟩ := anyTemplate_iff (x := x) _ c4 rfl
        simp only [hb, ok_bind, Bool.false_eq_true, if_false]
        cases b
        · exact decides_ok (fun hq => by simp at hbi; exact absurd hq hbi)
        · refine decides_ite.iff ?_
          rw [hw]
          exact ⟨fun h _ => h, fun h => h (hbi.mp rfl)⟩
    · exact ⟨fun hh ⟨x, hx, hq⟩ => hh x hx hq, fun hh x hx hq => hh ⟨x, hx, hq⟩⟩

/-! ## idShorts -/

theorem nodup_reverse {α : Type} (l : List α) : l.reverse.Nodup ↔ l.Nodup := (List.reverse_perm l).nodup_iff


theorem elements_named {f : Fld} {d : Cls} (hd : d ∈ [Cls.submodelElement, .dataElement])
    (h : ∀ x ∈ elems v f, HasType (schema lim) (.cls d) x) : ∀ x ∈ elems v f, Named x := fun x hx => named_of_element hd (h x hx)

theorem decides_have_attr (h : Obj lim c v) {f : Fld} {key : Str} {d : Cls} (hd : d ∈ [Cls.submodelElement, .dataElement])
    (hm : slotOf c f = some (.attr key (.list (.cls d) false) false)) :
    Decides py!"AASd-117" (do ensureHaveIdShorts (← attr v f)) (HaveIdShorts (elems v f)) := by
  rcases h.list? hm with ⟨b1, b2, b3⟩ | ⟨b1, b2, b3, b4⟩ <;> simp only [b1, ok_bind]
  · exact decides_ok (by simp [HaveIdShorts, b3])
  · exact decides_have _ (elements_named hd b4)

theorem decides_unique_attr (h : Obj lim c v) {f : Fld} {key : Str} {d : Cls} (hd : d ∈ [Cls.submodelElement, .dataElement])
    (hm : slotOf c f = some (.attr key (.list (.cls d) false) false)) :
    Decides py!"AASd-022" (do ensureUniqueIdShorts (← attr v f)) (UniqueIdShorts (elems v f)) := by
  rcases h.list? hm with ⟨b1, b2, b3⟩ | ⟨b1, b2, b3, b4⟩ <;> simp only [b1, ok_bind]
  · exact decides_ok (by simp [UniqueIdShorts, b3])
  · exact decides_unique _ (elements_named hd b4)

theorem bind_path (h : Obj lim c v) (hm : slotOf c .idShortPath = some .excluded) (f : Fld) (g : AVal → Chk Unit) :
    (do let l ← attr v f; let _ ← attr v .idShortPath; g l) = (do g (← attr v f)) := by
  obtain ⟨w, hw⟩ := h.path (mem_of_slotOf hm)
  simp only [hw, ok_bind]

theorem decides_117_annotations (h : Obj lim .annotatedRelationshipElement v) :
    Decides py!"AASd-117" (runMethod lim .annotatedRelationshipElement_aasd_117 v) (HaveIdShorts (elems v .annotations)) := by
  rw [runMethod, bind_path h rfl]
  exact decides_have_attr (d := .dataElement) h (by simp) rfl

theorem decides_117_entity (h : Obj lim .entity v) :
    Decides py!"AASd-117" (runMethod lim .entity_aad_117 v) (HaveIdShorts (elems v .statements)) := by
  rw [runMethod, bind_path h rfl]
  exact decides_have_attr (d := .submodelElement) h (by simp) rfl

theorem decides_117_collection (h : Obj lim .submodelElementCollection v) :
    Decides py!"AASd-117" (runMethod lim .submodelElementCollection_aasd_117 v) (HaveIdShorts (elems v .value)) := by
  rw [runMethod, bind_path h rfl]
  exact decides_have_attr (d := .submodelElement) h (by simp) rfl

theorem decides_117_submodel (h : Obj lim .submodel v) :
    Decides py!"AASd-117" (runMethod lim .submodel_aasd_117 v) (HaveIdShorts (elems v .submodelElements)) := by
  rw [runMethod]
  exact decides_have_attr (d := .submodelElement) h (by simp) rfl

theorem decides_022_collection (h : Obj lim .submodelElementCollection v) :
    Decides py!"AASd-022" (runMethod lim .submodelElementCollection_aasd_022 v) (UniqueIdShorts (elems v .value)) := by
  rw [runMethod, bind_path h rfl]
  exact decides_unique_attr (d := .submodelElement) h (by simp) rfl

theorem decides_022_submodel (h : Obj lim .submodel v) :
    Decides py!"AASd-022" (runMethod lim .submodel_aasd_022 v) (UniqueIdShorts (elems v .submodelElements)) := by
  rw [runMethod]
  exact decides_unique_attr (d := .submodelElement) h (by simp) rfl

/-- the value of an operation variable -/
theorem variable_named {x : AVal} (h : Obj lim .operationVariable x) : attr x .value = .ok (get x .value) ∧ Named (get x .value) := by
  obtain ⟨h1, ⟨_, h2⟩ | h2⟩ := h.field (f := .value) rfl
  · cases h2
  · exact ⟨h1, named_of_element (d := .submodelElement) (by simp) h2⟩

/-- the check of operation variables: violated, or the idShorts are collected -/
theorem checkVariables_spec (hp : ∃ w, attr v .idShortPath = .ok w) : ∀ (l : List AVal) (seen : List Str), (∀ x ∈ l, Obj lim .operationVariable x) →
    seen.Nodup → ∃ l', l' = (l.map (get · .value)).filterMap idShort? ∧
    (((l'.reverse ++ seen).Nodup → checkVariables v l seen = .ok (l'.reverse ++ seen)) ∧
      (¬ (l'.reverse ++ seen).Nodup → checkVariables v l seen = violated py!"AASd-134"))
  | [], seen, _, hn => ⟨[], rfl, fun _ => rfl, fun h => absurd (by simpa using hn) h⟩
  | x :: l, seen, h, hn => by
    refine ⟨_, rfl, ?_⟩
    obtain ⟨w, hw⟩ := hp
    obtain ⟨h1, h2⟩ := variable_named (h x List.mem_cons_self)
    have ht : ∀ y ∈ l, Obj lim .operationVariable y := fun y hy => h y (List.mem_cons_of_mem _ hy)
    rw [checkVariables]
    simp only [h1, ok_bind, List.map_cons, List.filterMap_cons]
    rcases h2 with ⟨a1, a2⟩ | ⟨s, a1, a2⟩
    · obtain ⟨_, rfl, ih⟩ := checkVariables_spec ⟨w, hw⟩ l seen ht hn
      simp only [a1, ok_bind, isNone, if_true, a2]
      exact ih
    · simp only [a1, ok_bind, isNone, rawValue, Bool.false_eq_true, if_false, a2, List.reverse_cons, List.append_assoc, List.singleton_append]
      by_cases hs : s ∈ seen
      · rw [if_pos (by simpa using hs)]
        refine ⟨fun hh => ?_, fun _ => by rw [hw, ok_bind]⟩
        rw [List.nodup_append] at hh
        have := hh.2.1
        simp only [List.nodup_cons] at this
        exact absurd hs this.1
      · rw [if_neg (by simpa using hs)]
        obtain ⟨_, rfl, ih⟩ := checkVariables_spec ⟨w, hw⟩ l (s :: seen) ht (List.nodup_cons.mpr ⟨hs, hn⟩)
        exact ih

theorem checkVariableList_spec (h : Obj lim .operation v) {f : Fld} {key : Str}
    (hm : slotOf .operation f = some (.attr key (.list (.cls .operationVariable) false) false)) (seen : List Str) (hn : seen.Nodup) :
    ∃ l', l' = ((elems v f).map (get · .value)).filterMap idShort? ∧ ∃ w, attr v f = .ok w ∧
    (((l'.reverse ++ seen).Nodup → checkVariableList v w seen = .ok (l'.reverse ++ seen)) ∧
      (¬ (l'.reverse ++ seen).Nodup → checkVariableList v w seen = violated py!"AASd-134")) := by
  rcases h.list? hm with ⟨b1, b2, b3⟩ | ⟨b1, b2, b3, b4⟩
  · refine ⟨_, rfl, _, b1, ?_⟩
    rw [b3]
    exact ⟨fun _ => rfl, fun hh => absurd (by simpa using hn) hh⟩
  · obtain ⟨l', hl, hs⟩ := checkVariables_spec (h.path (mem_of_slotOf rfl)) _ seen (fun x hx => obj_of_concrete rfl (b4 x hx)) hn
    refine ⟨l', hl, _, b1, ?_⟩
    simpa only [checkVariableList, isNone, iter, ok_bind, Bool.false_eq_true, if_false] using hs

theorem decides_134 (h : Obj lim .operation v) : Decides py!"AASd-134" (runMethod lim .operation_aasd_134 v) (AASd134 v) := by
  obtain ⟨a, ha, wa, ea, a1, a2⟩ := checkVariableList_spec h (f := .inputVariables) rfl [] List.nodup_nil
  simp only [runMethod, ea, ok_bind]
  have hrule : AASd134 v ↔ (a ++ ((elems v .outputVariables).map (get · .value)).filterMap idShort? ++
      ((elems v .inoutputVariables).map (get · .value)).filterMap idShort?).Nodup := by
    rw [AASd134, UniqueIdShorts, List.map_append, List.map_append, List.filterMap_append, List.filterMap_append, ← ha]
  by_cases hna : (a.reverse ++ []).Nodup
  · rw [a1 hna, ok_bind]
    obtain ⟨b, hb, wb, eb, b1, b2⟩ := checkVariableList_spec h (f := .outputVariables) rfl _ hna
    simp only [eb, ok_bind]
    by_cases hnb : (b.reverse ++ (a.reverse ++ [])).Nodup
    · rw [b1 hnb, ok_bind]
      obtain ⟨d, hd, wd, ed, d1, d2⟩ := checkVariableList_spec h (f := .inoutputVariables) rfl _ hnb
      simp only [ed, ok_bind]
      have hr : AASd134 v ↔ (d.reverse ++ (b.reverse ++ (a.reverse ++ []))).Nodup := by
        rw [hrule, ← hb, ← hd, ← nodup_reverse]; simp
      by_cases hnd : (d.reverse ++ (b.reverse ++ (a.reverse ++ []))).Nodup
      · rw [d1 hnd]; exact decides_ok (hr.mpr hnd)
      · rw [d2 hnd]; exact decides_violated (fun hh => hnd (hr.mp hh))
    · rw [b2 hnb]
      refine decides_violated (fun hh => hnb ?_)
      rw [hrule, ← hb] at hh
      have := (List.nodup_append.mp hh).1
      rw [← nodup_reverse] at this
      simpa using this
  · rw [a2 hna]
    refine decides_violated (fun hh => hna ?_)
    rw [hrule, List.append_assoc] at hh
    have := (List.nodup_append.mp hh).1
    rw [← nodup_reverse] at this
    simpa using this

end Verif.Aas
