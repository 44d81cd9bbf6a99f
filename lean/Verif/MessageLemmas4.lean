import Verif.MessageLemmas3

/-! # What the texts say: the other rules -/

namespace Verif.Aas
open Verif Verif.Parse Verif.Spec.Parse Verif.Spec.Model Verif.DataTypes Verif.Spec Verif.Props

variable {lim : Option Nat} {c : Cls} {v : AVal} {t : Str} {l : Level} {Number : Str → Prop}

/-! ## texts without numbers -/

theorem means_language (h : Obj lim c v) (hm : .langStringSet_language ∈ checkTable c)
    (ht : tellMethod lim .langStringSet_language v = .error (.violated t l)) : Means lim Number v t l := by
  have hs := (shared_slots c).2.2.2.1 hm
  simp only [tellMethod, h.str hs, ok_bind, asStr] at ht
  by_cases hb : isBcpLangString (txt v .language) = true
  · have hne : ¬ (txt v .language).length < 1 := by
      intro hl
      have : txt v .language = [] := by cases ht : txt v .language with
        | nil => rfl
        | cons => rw [ht] at hl; simp at hl
      rw [this] at hb
      revert hb; rw [isBcpLangString, bcp47Re_eq]; decide +kernel
    simp only [hb, Bool.not_true, Bool.false_eq_true, if_false, hne] at ht
    cases ht
  · simp only [hb, Bool.not_false, if_true] at ht
    rw [violated_tells] at ht
    obtain ⟨rfl, rfl⟩ := ht
    exact .language fun hh => hb ((C26_tag_partial _).mpr hh)

theorem means_text (h : Obj lim c v) (hm : .langStringSet_text ∈ checkTable c) (hc : c ≠ .langStringSet)
    (ht : tellMethod lim .langStringSet_text v = .error (.violated t l)) : Means lim Number v t l := by
  have hs := (shared_slots c).2.2.2.2 hm
  have hl : maxLenText c = some (textLimit v) := by
    rw [textLimit, h.className]
    clear h hs ht
    cases c <;> first | rfl | exact absurd rfl hc | exact absurd hm (by decide)
  simp only [tellMethod, h.str hs, ok_bind, asStr, h.cls, Option.bind_some, hl] at ht
  invert ht
  rcases ht with ⟨h1, rfl, rfl⟩ | ⟨-, h2, rfl, rfl⟩
  · exact .noText (List.eq_nil_of_length_eq_zero (by omega))
  · exact .longText h2

theorem means_reference (h : Obj lim .embeddedDataSpecification v)
    (ht : tellMethod lim .embeddedDataSpecification_reference v = .error (.violated t l)) : Means lim Number v t l := by
  obtain ⟨h1, h2⟩ := h.obj (f := .dataSpecification) rfl rfl
  obtain ⟨-, r2, r3, r4⟩ := ref_facts h2
  simp only [tellMethod, h1, r2, ok_bind, iter] at ht
  rw [ite_tells] at ht
  rcases ht with ⟨hn, ht⟩ | ⟨-, ht⟩
  · rw [violated_tells] at ht
    obtain ⟨rfl, rfl⟩ := ht
    exact .specKeys hn
  · cases hk : elems (get v .dataSpecification) .keys with
    | nil => exact absurd hk r3
    | cons k ks =>
      have ho := r4 k (by rw [hk]; simp)
      rw [hk] at ht
      simp only [head, ok_bind, (key_facts ho).2, rawValue] at ht
      invert ht
      rcases ht with ⟨hd, rfl, rfl⟩ | ⟨-, he, rfl, rfl⟩
      · have := Means.deprecated (lim := lim) (Number := Number) (v := v) k (by rw [hk]; rfl) (List.contains_iff_mem.mp hd)
        simpa only [List.append_assoc, expectedSpec, List.cons_append, List.nil_append] using this
      · have := Means.unexpected (lim := lim) (Number := Number) (v := v) k (by rw [hk]; rfl) he
        simpa only [List.append_assoc, expectedSpec, List.cons_append, List.nil_append] using this

theorem means_3a_002 (hb : ¬ AASc002 v) (ht : tellMethod lim .dataSpecificationIec61360_aasc_3a_002 v = .error (.violated t l)) :
    Means lim Number v t l := by
  simp only [tellMethod] at ht
  invert ht
  obtain ⟨_, _, _, _, _, rfl, rfl⟩ := ht
  exact .aasc002 hb

theorem means_3a_009 (hb : ¬ AASc009 v) (ht : tellMethod lim .dataSpecificationIec61360_aasc_3a_009 v = .error (.violated t l)) :
    Means lim Number v t l := by
  simp only [tellMethod] at ht
  invert ht
  obtain ⟨_, _, _, _, _, _, _, _, rfl, rfl⟩ := ht
  exact .aasc009 hb

theorem means_3a_010 (hb : ¬ AASc010 v) (ht : tellMethod lim .dataSpecificationIec61360_aasc_3a_010 v = .error (.violated t l)) :
    Means lim Number v t l := by
  simp only [tellMethod] at ht
  invert ht
  obtain ⟨_, _, _, _, _, rfl, rfl⟩ := ht
  have hb := Classical.not_not.mp hb
  exact .aasc010 hb.1 hb.2

theorem means_118 (hb : ¬ AASd118 v) (ht : tellMethod lim .hasSemantics_aasd_118 v = .error (.violated t l)) : Means lim Number v t l := by
  simp only [tellMethod] at ht
  invert ht
  obtain ⟨_, _, _, _, _, rfl, rfl⟩ := ht
  rw [AASd118, Classical.not_imp] at hb
  exact .aasd118 hb.1 hb.2

theorem means_002 (hb : ¬ AASd002 v) (ht : tellMethod lim .referable_constraint_aasd_002 v = .error (.violated t l)) :
    Means lim Number v t l := by
  simp only [tellMethod] at ht
  invert ht
  obtain ⟨_, _, _, _, _, _, rfl, rfl⟩ := ht
  exact .aasd002 hb

/-- the text of AASd-005 -/
theorem tell_005 (ht : tellMethod lim .administrativeInformation_constraint_aasd_005 v = .error (.violated t l)) :
    t = py!"Constraint AASd-005 violated: version is given but no revision" ∧ l = .error := by
  simp only [tellMethod] at ht
  invert ht
  obtain ⟨_, _, _, _, _, h⟩ := ht
  exact h

theorem means_133 (hb : ¬ AASd133 v) (ht : tellMethod lim .specificAssetId_aasd_133 v = .error (.violated t l)) : Means lim Number v t l := by
  simp only [tellMethod] at ht
  invert ht
  obtain ⟨_, _, _, _, _, _, rfl, rfl⟩ := ht
  exact .aasd133 hb

theorem means_131 (hb : ¬ AASd131 v) (ht : tellMethod lim .assetInformation_aasd_131 v = .error (.violated t l)) : Means lim Number v t l := by
  simp only [tellMethod] at ht
  invert ht
  obtain ⟨_, _, _, _, _, rfl, rfl⟩ := ht
  rw [AASd131, not_or] at hb
  exact .aasd131 hb.1 hb.2

theorem means_090 (h : Obj lim c v) (hb : ¬ AASd090 v) (ht : tellMethod lim .dataElement_aasd_090 v = .error (.violated t l)) :
    Means lim Number v t l := by
  simp only [tellMethod] at ht
  invert ht
  obtain ⟨cat, hcat, _, raw, hraw, _, ht⟩ := ht
  obtain ⟨rfl, rfl⟩ := tellAt_place h ht
  have : raw = txt v .category := by
    rw [txt, attr_ok hcat]
    cases cat <;> simp_all [rawValue, pyErr, text]
  have hm := Means.aasd090 (lim := lim) (Number := Number) hb
  rw [this]
  simpa using hm

theorem means_observed (h : Obj lim .basicEventElement v) (hb : ¬ ModelRef (get v .observed))
    (ht : tellMethod lim .basicEventElement_observed v = .error (.violated t l)) : Means lim Number v t l := by
  simp only [tellMethod] at ht
  invert ht
  obtain ⟨_, _, _, _, _, ht⟩ := ht
  obtain ⟨rfl, rfl⟩ := tellAt_place h ht
  simpa using Means.observed (lim := lim) (Number := Number) hb

theorem tell_broker (h : Obj lim .basicEventElement v) (ht : tellMethod lim .basicEventElement_message_broker v = .error (.violated t l)) :
    t = py!"Constraint violated: Property 'observed' must be a model reference @ " ++ place v ∧ l = .error := by
  simp only [tellMethod] at ht
  invert ht
  obtain ⟨_, _, _, _, _, _, ht⟩ := ht
  obtain ⟨rfl, rfl⟩ := tellAt_place h ht
  simp

theorem means_014 (h : Obj lim .entity v) (ht : tellMethod lim .entity_aasd_014 v = .error (.violated t l)) : Means lim Number v t l := by
  have he := h.enum (f := .entityType) rfl
  simp only [tellMethod, he.1, ok_bind] at ht
  invert ht
  obtain ⟨g, hg, s, hs, ht⟩ := ht
  rcases ht with ⟨h1, h2, ht⟩ | ⟨h1, h2, ht⟩
  · obtain ⟨rfl, rfl⟩ := tellAt_place h ht
    have hset : ∀ {w : AVal} {f}, attr v f = .ok w → isNone w = true → ¬ Set v f := by
      intro w f hw hn hset
      rw [Set, attr_ok hw] at hset
      cases w <;> simp_all [isNone]
    rw [Bool.and_eq_true] at h2
    simpa using Means.selfManaged (lim := lim) (Number := Number) (by simpa [enumIs] using h1) (hset hg h2.1) (hset hs h2.2)
  · obtain ⟨rfl, rfl⟩ := tellAt_place h ht
    have hset : ∀ {w : AVal} {f}, attr v f = .ok w → truthy w = true → Set v f := by
      intro w f hw hn hset
      rw [attr_ok hw] at hset
      rw [hset] at hn; cases hn
    have hco : txt v .entityType = py!"CoManagedEntity" := by
      have h1 : txt v .entityType ≠ py!"SelfManagedEntity" := by simpa [enumIs] using h1
      have := he.2
      simp only [enumValuesOf] at this
      simp at this h1
      rcases this with h | h
      · simp [h]
      · exact absurd h h1
    rw [Bool.or_eq_true] at h2
    simpa using Means.coManaged (lim := lim) (Number := Number) hco (h2.imp (hset hg) (hset hs))

theorem variables_text (h : Obj lim c v) : ∀ (xs : List AVal) (seen : List Str), tellVariables v xs seen = .error (.violated t l) →
    t = py!"Constraint AASd-134 violated: duplicate id short @ " ++ place v ∧ l = .error
  | [], _, ht => by simp [tellVariables] at ht
  | x :: xs, seen, ht => by
    rw [tellVariables] at ht
    invert ht
    obtain ⟨_, _, _, _, ht⟩ := ht
    rcases ht with ⟨-, ht⟩ | ⟨-, raw, -, ⟨-, p, hp, rfl, rfl⟩ | ⟨-, ht⟩⟩
    · exact variables_text h xs seen ht
    · rw [← attr_ok hp, shown_place h]; exact ⟨rfl, rfl⟩
    · exact variables_text h xs _ ht

theorem variableList_text (h : Obj lim c v) {w : AVal} {seen : List Str} (ht : tellVariableList v w seen = .error (.violated t l)) :
    t = py!"Constraint AASd-134 violated: duplicate id short @ " ++ place v ∧ l = .error := by
  rw [tellVariableList] at ht
  invert ht
  obtain ⟨-, xs, -, ht⟩ := ht
  exact variables_text h xs seen ht

/-- the left or the right part fails -/
theorem bind_fails {α β : Type} {x : Chk α} {f : α → Chk β} (h : (x >>= f) = .error (.violated t l)) :
    x = .error (.violated t l) ∨ ∃ a, x = .ok a ∧ f a = .error (.violated t l) := by
  cases x with
  | ok a => exact .inr ⟨a, rfl, h⟩
  | error e =>
    have h : (.error e : Chk β) = .error (.violated t l) := h
    cases h; exact .inl rfl

theorem means_134 (h : Obj lim .operation v) (hb : ¬ AASd134 v) (ht : tellMethod lim .operation_aasd_134 v = .error (.violated t l)) :
    Means lim Number v t l := by
  have key : t = py!"Constraint AASd-134 violated: duplicate id short @ " ++ place v ∧ l = .error := by
    simp only [tellMethod] at ht
    rw [bind_tells (quiet_attr _ _)] at ht
    obtain ⟨_, _, ht⟩ := ht
    rcases bind_fails ht with ht | ⟨_, _, ht⟩
    · exact variableList_text h ht
    rw [bind_tells (quiet_attr _ _)] at ht
    obtain ⟨_, _, ht⟩ := ht
    rcases bind_fails ht with ht | ⟨_, _, ht⟩
    · exact variableList_text h ht
    rw [bind_tells (quiet_attr _ _)] at ht
    obtain ⟨_, _, ht⟩ := ht
    rcases bind_fails ht with ht | ⟨_, _, ht⟩
    · exact variableList_text h ht
    · cases ht
  obtain ⟨rfl, rfl⟩ := key
  exact .aasd134 hb

theorem means_elementType (h : Obj lim .submodelElementList v) (hb : ¬ ElementType v)
    (ht : tellMethod lim .submodelElementList_type_value_list_element v = .error (.violated t l)) : Means lim Number v t l := by
  simp only [tellMethod] at ht
  invert ht
  obtain ⟨_, _, _, ht⟩ := ht
  obtain ⟨rfl, rfl⟩ := tellAt_place h ht
  simpa using Means.elementType (lim := lim) (Number := Number) hb

/-- the text of AASd-119 and AASd-129 -/
theorem tell_119 (ht : tellMethod lim .submodel_aasd_119 v = .error (.violated t l)) :
    t = py!"Constraint AASd-129 violated: kind must be Template as at least one qualifier is a TemplateQualifier" ∧ l = .error := by
  simp only [tellMethod] at ht
  invert ht
  obtain ⟨_, _, _, _, _, _, _, _, _, h⟩ := ht
  exact h

theorem means_129 (hb : ¬ AASd129Top v) (ht : tellMethod lim .submodel_aasd_129 v = .error (.violated t l)) : Means lim Number v t l := by
  simp only [tellMethod] at ht
  invert ht
  obtain ⟨_, _, _, _, _, ht⟩ := ht
  obtain ⟨x, _, ht⟩ := forM_tells ht
  invert ht
  obtain ⟨_, _, _, _, _, _, _, _, _, rfl, rfl⟩ := ht
  exact .aasd129 hb

/-! ## values -/

theorem value_means {f : Fld} (hf : f ∈ [Fld.value, .min, .max]) (hs : Set v f)
    (hty : txt v .valueType ∈ enumValuesOf .dataTypeDefXsd) {p : AVal} (hp : Placed v (pathNote p))
    (ht : tellValue lim (txt v f) (.enum .dataTypeDefXsd (txt v .valueType)) p = .error (.violated t l)) : Means lim Number v t l := by
  obtain ⟨x, hx, hn⟩ := xsdOf_some _ hty
  rw [tellValue, hx] at ht
  simp only at ht
  cases hv : validate lim x (txt v f) with
  | error e => rw [hv] at ht; cases ht
  | ok b =>
    cases b with
    | true => rw [hv] at ht; cases ht
    | false =>
      rw [hv] at ht
      simp only at ht
      rw [violated_tells] at ht
      obtain ⟨rfl, rfl⟩ := ht
      exact .value f x _ hf hs hn (fun ha => by rw [(C82_accepted lim x _).mpr ha] at hv; cases hv) hp

theorem means_property (h : Obj lim .property v) (ht : tellMethod lim .property_value_type v = .error (.violated t l)) : Means lim Number v t l := by
  obtain ⟨w, hw⟩ := h.path (mem_of_slotOf rfl)
  have hw' := attr_ok hw
  rcases value_facts h (f := .value) rfl rfl with ⟨a1, a2⟩ | ⟨a1, a2, a3, a4⟩
  · simp only [tellMethod, a1, ok_bind, truthy] at ht; cases ht
  · simp only [tellMethod, a1, hw, a3, ok_bind, truthy, if_true, rawValue] at ht
    exact value_means (by simp) a2 (h.enum rfl).2 (by rw [← hw']; exact note_placed h) ht

theorem means_min (h : Obj lim .range v) (ht : tellMethod lim .range_value_type_min v = .error (.violated t l)) : Means lim Number v t l := by
  obtain ⟨w, hw⟩ := h.path (mem_of_slotOf rfl)
  have hw' := attr_ok hw
  rcases value_facts h (f := .min) rfl rfl with ⟨a1, a2⟩ | ⟨a1, a2, a3, a4⟩
  · simp only [tellMethod, a1, ok_bind, truthy] at ht; cases ht
  · simp only [tellMethod, a1, hw, a3, ok_bind, truthy, if_true, rawValue] at ht
    exact value_means (by simp) a2 (h.enum rfl).2 (by rw [← hw']; exact note_placed h) ht

theorem means_max (h : Obj lim .range v) (ht : tellMethod lim .range_value_type_max v = .error (.violated t l)) : Means lim Number v t l := by
  obtain ⟨w, hw⟩ := h.path (mem_of_slotOf rfl)
  have hw' := attr_ok hw
  rcases value_facts h (f := .max) rfl rfl with ⟨a1, a2⟩ | ⟨a1, a2, a3, a4⟩
  · simp only [tellMethod, a1, ok_bind, truthy] at ht; cases ht
  · simp only [tellMethod, a1, hw, a3, ok_bind, truthy, if_true, rawValue] at ht
    exact value_means (by simp) a2 (h.enum rfl).2 (by rw [← hw']; exact note_placed h) ht

theorem means_qualifier (h : Obj lim .qualifier v) (ht : tellMethod lim .qualifier_value_type v = .error (.violated t l)) : Means lim Number v t l := by
  rcases value_facts h (f := .value) rfl rfl with ⟨a1, a2⟩ | ⟨a1, a2, a3, a4⟩
  · simp only [tellMethod, a1, ok_bind, truthy] at ht; cases ht
  · simp only [tellMethod, a1, a3, ok_bind, truthy, if_true, rawValue] at ht
    exact value_means (by simp) a2 (h.enum rfl).2 (pathless h (by decide)) ht

theorem means_extension (h : Obj lim .extension v) (ht : tellMethod lim .extension_value_type v = .error (.violated t l)) : Means lim Number v t l := by
  rcases h.enum? (f := .valueType) rfl with ⟨a1, a2, a3⟩ | ⟨a1, a2, a3⟩ <;> rcases h.sfv? (f := .value) rfl with ⟨b1, b2⟩ | ⟨b1, b2⟩
  · simp only [tellMethod, a1, b1, ok_bind, truthy] at ht; cases ht
  · simp only [tellMethod, a1, b1, ok_bind, truthy] at ht; cases ht
  · simp only [tellMethod, a1, b1, ok_bind, truthy] at ht; cases ht
  · simp only [tellMethod, a1, b1, ok_bind, truthy, Bool.and_self, if_true, rawValue] at ht
    exact value_means (by simp) b2 a3 (pathless h (by decide)) ht

end Verif.Aas
