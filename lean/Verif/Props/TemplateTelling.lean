import Verif.TemplateTellLemmas4
import Verif.Props.Flaws
import Verif.Props.Telling

/-!
# C93: what the lines about submodels with a template say

Three parts of the property fail: lines about wrong numbers of elements do not tell the collection (`C93_place_violated`), values outside of an
enumeration are left out after other mistakes (`C93_enum_violated`), and values with line feeds are shown over several lines (`C93_one_line_violated`).
-/

namespace Verif.Props
open Verif Parse Aas Engine Templates Spec.Model Spec.Templates Spec.Parse Spec Aas.Samples TemplateSamples FlawSamples

variable (W : Words) {lim : Option Nat}

/-- a report without its texts: the levels of all lines and their nesting -/
def levels {μ : Type} (r : Res μ) : Res Unit := r.mapMsg fun _ => ()

/-- The checks with all texts, on JSON data and for every class: they raise the same exceptions as those of `Engine.lean`, and report lines of
the same levels. So what is known about the verdicts (C51, C80) holds for the checks with texts. -/
theorem C93_json_report (text : Note → Str) (T : Str) (c : Cls) (hT : symbol T = .ok (.cls c)) (j : Json) (hw : WF j) :
    ((textEngine W lim).json j T).map levels = ((engine text lim).json j T).map levels :=
  same_of_sameV text (obj_same (same_json (W := W)) hT fun r v => json_typed (good_symbols (symbol_iff.mp hT).1) j hw r v)

/-- The same for XML data. -/
theorem C93_xml_report (text : Note → Str) (T : Str) (c : Cls) (hT : symbol T = .ok (.cls c)) (x : Xml) :
    ((textEngine W lim).xml x T).map levels = ((engine text lim).xml x T).map levels :=
  same_of_sameV text (obj_same (same_xml (W := W)) hT fun r v => xml_typed (good_symbols (symbol_iff.mp hT).1) x r v)

/-- The check of a submodel adds one result, which starts with the id of the submodel and the name of its template. Below are the lines of
`LineOf` and no other ones: what is wrong with an element, and its place; and which numbers of elements are wrong. Missing are values outside of
an enumeration after another mistake, and the places of wrong numbers. -/
theorem C93_submodel_partial (v : AVal) (h : HasType (schema lim) (.cls .submodel) v) (sid : Str) (c : TCls) (hs : semanticId? v = some sid)
    (ht : (sid, c) ∈ templates) (root r : Res Str) (hr : tellOne W root v = .ok r) : ∃ sub, SubmodelTold W c sid v sub ∧ r = root.append sub :=
  Texts.submodel_told (obj_of_concrete (c := .submodel) rfl h) hs ht root r hr

/-- Over all submodels: the reports on the submodels of supported templates, in their order. -/
theorem C93_environment_partial (env : AVal) (h : HasType (schema lim) (.cls .environment) env) (root r : Res Str)
    (hr : tellTemplates W root env = .ok r) : ∃ subs, r = root.appendAll subs ∧
      subs.length = (templated (elems env .submodels)).length ∧
      ∀ p ∈ (templated (elems env .submodels)).zip subs, ∃ sid, semanticId? p.1.1 = some sid ∧ SubmodelTold W p.1.2 sid p.1.1 p.2 := by
  rw [tellTemplates] at hr
  rcases (obj_of_concrete (c := .environment) rfl h).list? (f := .submodels) (key := py!"submodels") (ty := .cls .submodel) rfl with
    ⟨h1, h2, h3⟩ | ⟨h1, h2, h3, h4⟩
  · rw [getAttr_of h1] at hr
    cases hr
    rw [h3]
    exact ⟨[], rfl, rfl, by simp [templated]⟩
  · rw [getAttr_of h1] at hr
    exact Texts.submodels_told _ root r (fun x hx => obj_of_concrete (c := .submodel) rfl (h4 x hx)) hr

/-- A line about an element names exactly one place, and exactly one element stands there, for one field, with one rank. -/
theorem C93_place (c : TCls) (els : List AVal) (s : List Nat) (p : List Str) (ty : TTy) (y : AVal) (h : At c els s p ty y) (w : Str) :
    (∀ p', Place (textAt w p) p' ↔ p' = p) ∧ ∀ s' ty' y', At c els s' p ty' y' ↔ s' = s ∧ ty' = ty ∧ y' = y := by
  obtain ⟨q, rfl, hq, -⟩ := Texts.flaw_of_at (W := plainWords) h
  have hpl : Place (textAt w (q.map PTok.text)) (q.map PTok.text) :=
    ⟨w, pathText q, by simp [textAt, pathText], path_space hq, path_names hq⟩
  refine ⟨fun p' => ⟨fun h' => place_unique h' hpl, fun h' => h' ▸ hpl⟩, fun s' ty' y' => ⟨fun h' => ?_, ?_⟩⟩
  · exact Texts.at_unique h' h
  · rintro ⟨rfl, rfl, rfl⟩
    exact h

/-- At most one thing is wrong with an element itself. -/
theorem C93_one_mistake (ty : TTy) (y : AVal) (b b' : Bool) (w w' : Str) (h : Wrong W b ty y w) (h' : Wrong W b' ty y w') : b = b' ∧ w = w' := by
  have hv : ∀ {ty s t s' t'}, Value ty s t → Value ty s' t' → s = s' ∧ t = t' := by
    intro ty s t s' t' h1 h2
    cases h1 <;> cases h2 <;> exact ⟨rfl, rfl⟩
  cases h with
  | noProperty h1 h2 =>
    cases h' with
    | noProperty h3 _ => rw [(hv h1 h3).1]; exact ⟨rfl, rfl⟩
    | noValue _ h4 => exact absurd h4 h2
    | valueType _ h4 => exact absurd h4 h2
    | notInEnum h4 => exact absurd h4.1 h2
    | noLang _ => cases h1
    | noText _ => cases h1
    | noElements _ => cases h1
  | noValue h1 h2 h3 =>
    cases h' with
    | noProperty _ h4 => exact absurd h2 h4
    | noValue h4 _ => rw [(hv h1 h4).1]; exact ⟨rfl, rfl⟩
    | valueType _ _ h4 => exact absurd h4 h3
    | notInEnum h4 => exact absurd h4.2.1 h3
    | noLang _ => cases h1
    | noText _ => cases h1
    | noElements _ => cases h1
  | valueType h1 h2 h3 h4 =>
    cases h' with
    | noProperty _ h5 => exact absurd h2 h5
    | noValue _ _ h5 => exact absurd h3 h5
    | valueType h5 => rw [(hv h1 h5).1, (hv h1 h5).2]; exact ⟨rfl, rfl⟩
    | notInEnum h5 => cases h1; exact absurd h5.2.2 h4
    | noLang _ => cases h1
    | noText _ => cases h1
    | noElements _ => cases h1
  | notInEnum h1 h2 =>
    cases h' with
    | noProperty _ h5 => exact absurd h1.1 h5
    | noValue _ _ h5 => exact absurd h1.2.1 h5
    | valueType h3 _ _ h5 => cases h3; exact absurd h1.2.2 h5
    | notInEnum h5 => exact ⟨rfl, rfl⟩
  | noLang h1 =>
    cases h' with
    | noProperty h5 => cases h5
    | noValue h5 => cases h5
    | valueType h5 => cases h5
    | noLang _ => exact ⟨rfl, rfl⟩
    | noText h5 => exact absurd h5 h1
  | noText h1 h2 =>
    cases h' with
    | noProperty h5 => cases h5
    | noValue h5 => cases h5
    | valueType h5 => cases h5
    | noLang h5 => exact absurd h1 h5
    | noText h5 => exact ⟨rfl, rfl⟩
  | noElements h1 h2 =>
    cases h' with
    | noProperty h5 => cases h5
    | noValue h5 => cases h5
    | valueType h5 => cases h5
    | noElements _ _ => exact ⟨rfl, rfl⟩

/-- Numbers are shown in digits: the text of a number is the one numeral without leading zeros. -/
theorem C93_numbers (n : Nat) (t : Str) : Decimal n t ↔ t = Py.natStr n := decimal_iff

example : Decimal 120 py!"120" := (C93_numbers 120 _).mpr (by decide)
example : ¬ Decimal 120 py!"0120" := fun h => absurd ((C93_numbers 120 _).mp h) (by decide)

theorem sorted_unique {α : Type} {R : α → α → Prop} (hirr : ∀ a b, R a b → R b a → a = b) : ∀ {l l' : List α}, l.Pairwise R → l'.Pairwise R →
    l.Nodup → l'.Nodup → (∀ x, x ∈ l ↔ x ∈ l') → l = l' := by
  intro l l' h h' hn hn' hm
  exact List.Perm.eq_of_pairwise (fun a b _ _ => hirr a b) h h' ((List.perm_ext_iff_of_nodup hn hn').mpr hm)

/-- For each rank there is at most one mistake. -/
theorem one_line {c : TCls} {els : List AVal} {b b' : Bool} {s : List Nat} {t t' : Str} (h : LineOf W c els b (s, t)) (h' : LineOf W c els b' (s, t')) :
    b = b' ∧ t = t' := by
  have hin : ∀ {s d d' ys ys'}, Inside c els s d ys → Inside c els s d' ys' → d = d' ∧ ys = ys' := by
    rintro s d d' ys ys' (⟨rfl, rfl, rfl⟩ | ⟨p, x, h1, -, rfl⟩) (⟨e, rfl, rfl⟩ | ⟨p', x', h2, -, rfl⟩)
    · exact ⟨rfl, rfl⟩
    · exact (Texts.at_ne_nil h2).elim
    · subst e; exact (Texts.at_ne_nil h1).elim
    · obtain ⟨-, e, rfl⟩ := Texts.at_rank _ (Nat.lt_succ_self _) h1 h2
      cases e
      exact ⟨rfl, rfl⟩
  have heven : ∀ {s d ys}, Inside c els s d ys → s.length % 2 = 0 := by
    rintro s d ys (⟨rfl, -⟩ | ⟨p, x, h1, -⟩)
    · rfl
    · exact Texts.at_even h1
  generalize hm : (s, t) = m at h
  generalize hm' : (s, t') = m' at h'
  cases h with
  | element h1 h2 =>
    cases hm
    cases h' with
    | element h3 h4 =>
      cases hm'
      obtain ⟨rfl, rfl, rfl⟩ := Texts.at_rank _ (Nat.lt_succ_self _) h1 h3
      obtain ⟨rfl, rfl⟩ := C93_one_mistake W _ _ _ _ _ _ h2 h4
      exact ⟨rfl, rfl⟩
    | number h3 h4 h5 =>
      cases hm'
      have := Texts.at_even h1
      have := heven h3
      simp at *
      omega
  | number h1 h2 h3 =>
    simp only [Prod.mk.injEq] at hm
    obtain ⟨rfl, rfl⟩ := hm
    cases h' with
    | element h4 h5 =>
      have e := congrArg (fun m : List Nat × Str => m.1.length) hm'
      have := Texts.at_even h4
      have := heven h1
      simp at e
      omega
    | number h4 h5 h6 =>
      simp only [Prod.mk.injEq] at hm'
      obtain ⟨e, rfl⟩ := hm'
      obtain ⟨e1, e2⟩ := List.append_inj' e rfl
      subst e1
      cases e2
      obtain ⟨rfl, rfl⟩ := hin h1 h4
      rw [h2] at h5
      cases h5
      refine ⟨rfl, ?_⟩
      have hb := bounds _ _ (List.mem_of_getElem? h2)
      cases h3 with
      | tooMany a1 a2 a3 a4 =>
        cases h6 with
        | tooMany b1 b2 b3 b4 =>
          rw [a1] at b1
          cases b1
          rw [C93_numbers] at a3 a4 b3 b4
          rw [a3, a4, b3, b4]
        | tooFew b1 => have := hb _ a1; omega
      | tooFew a1 a3 a4 =>
        cases h6 with
        | tooMany b1 => have := hb _ b1; omega
        | tooFew b1 b3 b4 =>
          rw [C93_numbers] at a3 a4 b3 b4
          rw [a3, a4, b3, b4]

/-- The lines of a report are determined by the elements: which lines there are, how often, and in which order. -/
theorem C93_order (c : TCls) (els : List AVal) (ms ms' : List (List Nat × Str)) (h : Listed (LineOf W c els) ms) (h' : Listed (LineOf W c els) ms') :
    ms = ms' := by
  cases ms with
  | nil =>
    cases ms' with
    | nil => rfl
    | cons m l => obtain ⟨-, ⟨b, hb⟩, -⟩ := h'; exact absurd hb (h.2 b m)
  | cons m l =>
    cases ms' with
    | nil => obtain ⟨-, ⟨b, hb⟩, -⟩ := h; exact absurd hb (h'.2 b m)
    | cons m' l' =>
      obtain ⟨hp, ⟨b, hb⟩, h0, h1, h2⟩ := h
      obtain ⟨hp', ⟨b', hb'⟩, h0', h1', h2'⟩ := h'
      have hs : m.1 = m'.1 := List.le_antisymm (h0 _ _ hb') (h0' _ _ hb)
      have hm : m = m' := by
        obtain ⟨s, t⟩ := m
        obtain ⟨s', t'⟩ := m'
        cases hs
        rw [(one_line W hb hb').2]
      subst hm
      congr 1
      have hirr : ∀ a b : List Nat × Str, a.1 < b.1 → b.1 < a.1 → a = b := fun a b h1 h2 => absurd h2 (List.lt_asymm h1)
      have hmem : ∀ x, x ∈ l ↔ x ∈ l' := by
        intro x
        have aux : ∀ {l l' : List (List Nat × Str)}, (m :: l).Pairwise (fun a b => a.1 < b.1) → (∀ x ∈ l, LineOf W c els false x) →
            (∀ x, LineOf W c els false x → x ∈ m :: l') → x ∈ l → x ∈ l' := by
          intro l l' hp h1 h2 hx
          rcases List.mem_cons.mp (h2 x (h1 x hx)) with rfl | h
          · exact absurd (List.rel_of_pairwise_cons hp hx) (List.lt_irrefl _)
          · exact h
        exact ⟨aux hp h1 h2', aux hp' h1' h2⟩
      have hnd : ∀ {l : List (List Nat × Str)}, (m :: l).Pairwise (fun a b => a.1 < b.1) → l.Nodup := fun hp =>
        List.Pairwise.imp (fun {a b} (h : a.1 < b.1) (e : a = b) => List.lt_irrefl b.1 (by rw [e] at h; exact h)) (List.pairwise_cons.mp hp).2
      exact sorted_unique hirr (List.pairwise_cons.mp hp).2 (List.pairwise_cons.mp hp').2 (hnd hp) (hnd hp') hmem

namespace TextSamples
/-- the lines of the report -/
def linesOf (W : Words) (v : AVal) : Option (List (List Str)) :=
  match tellOne W (Res.new []) v with
  | .ok r => some (r.subs.map fun s => s.msg :: s.subs.map (·.msg))
  | .error _ => none
end TextSamples
open TextSamples

-- `flawed` of Flaws.lean with its texts
example : linesOf plainWords flawed = some [[
    py!"Check submodel 'urn:x'",
    py!"Template: ContactInformations (https://admin-shell.io/zvei/nameplate/1/0/ContactInformations)",
    py!"Cannot convert to lang string: not a MultiLanguageProperty @ /ContactInformation/0/NationalCode",
    py!"Cannot convert '2024-01-01' to string: valueType must be xs:string @ /ContactInformation/1/Language/1",
    py!"Cannot convert to lang string: not a MultiLanguageProperty @ /ContactInformation/1/Phone/TelephoneNumber"]] := by decide +kernel
example : linesOf plainWords (sm plateId plateEls) = some [[py!"Check submodel 'urn:x'",
    py!"Template: DigitalNameplate (https://admin-shell.io/zvei/nameplate/2/0/Nameplate)",
    py!"Either ManufacturerProductFamily or ManufacturerProductType is required @ /"]] := by decide +kernel
example : linesOf plainWords (sm contactsId [smc contactId [role]]) = some [[py!"Check submodel 'urn:x'",
    py!"Template: ContactInformations (https://admin-shell.io/zvei/nameplate/1/0/ContactInformations)",
    py!"'nobody' is not a valid RoleOfContactPerson @ /ContactInformation/0/RoleOfContactPerson"]] := by decide +kernel

/-- the list of mistakes of `flawed`, for `C93_order` -/
example : ∃ ms, Listed (LineOf plainWords .contactInformations (elems flawed .submodelElements)) ms ∧ ms.map (·.2) = [
    py!"Cannot convert to lang string: not a MultiLanguageProperty @ /ContactInformation/0/NationalCode",
    py!"Cannot convert '2024-01-01' to string: valueType must be xs:string @ /ContactInformation/1/Language/1",
    py!"Cannot convert to lang string: not a MultiLanguageProperty @ /ContactInformation/1/Phone/TelephoneNumber"] := by
  have hl : linesOf plainWords flawed = some [[
      py!"Check submodel 'urn:x'",
      py!"Template: ContactInformations (https://admin-shell.io/zvei/nameplate/1/0/ContactInformations)",
      py!"Cannot convert to lang string: not a MultiLanguageProperty @ /ContactInformation/0/NationalCode",
      py!"Cannot convert '2024-01-01' to string: valueType must be xs:string @ /ContactInformation/1/Language/1",
      py!"Cannot convert to lang string: not a MultiLanguageProperty @ /ContactInformation/1/Phone/TelephoneNumber"]] := by decide +kernel
  rw [linesOf] at hl
  cases hr : tellOne plainWords (Res.new []) flawed with
  | error e => rw [hr] at hl; cases hl
  | ok r =>
    rw [hr] at hl
    obtain ⟨sub, ⟨ms, extra, h1, h2, h3⟩, rfl⟩ := C93_submodel_partial plainWords (lim := none) flawed (typedB_sound 20 _ _ (by decide +kernel))
      contactsId .contactInformations (by decide +kernel) (by decide +kernel) _ _ hr
    rcases h2 with ⟨-, h2, -⟩ | ⟨-, rfl⟩
    · cases h2
    · refine ⟨ms, h1, ?_⟩
      have h4 : sub.subs.map (·.msg) = (py!"Template: ContactInformations (" ++ contactsId ++ py!")") :: ms.map (·.2) := by
        rw [h3, Res.appendAll_subs, List.map_append, List.append_nil, List.map_map, List.map_map]
        rfl
      have h5 : sub.msg :: sub.subs.map (·.msg) = _ := (List.cons.inj (Option.some.inj hl)).1
      rw [h4] at h5
      exact (List.cons.inj (List.cons.inj h5).2).2

/-- a place of `flawed`, for `C93_place` -/
example : At .contactInformations (elems flawed .submodelElements) [0, 1, 2, 1] [py!"ContactInformation", py!"1", py!"Language", py!"1"] .str
    (prop (contactId ++ py!"/Language") py!"xs:date" py!"2024-01-01") := by
  have h1 : At .contactInformations (elems flawed .submodelElements) [0, 1] [py!"ContactInformation", py!"1"] (.cls .contactInformation)
      ((elems flawed .submodelElements)[1]'(by decide +kernel)) :=
    .item (f := ⟨py!"contact_information", contactId, 1, none, .cls .contactInformation⟩) (i := 1) (by decide +kernel)
      ⟨by decide +kernel, fun m hm => by cases hm⟩ (by decide) rfl ((C93_numbers _ _).mpr (by decide))
  refine .deeper (s := [0, 1]) (p := [py!"ContactInformation", py!"1"]) h1 ⟨.inl (by decide +kernel), fun _ h => nomatch h⟩ ?_
  exact .item (f := ⟨py!"language", contactId ++ py!"/Language", 0, none, .str⟩) (i := 1) (by decide +kernel)
    ⟨by decide +kernel, fun m hm => by cases hm⟩ (by decide) rfl ((C93_numbers _ _).mpr (by decide))

/-- Two submodels whose first and whose second contact has a phone without number: the texts of the reports are equal. -/
theorem C93_place_violated :
    HasType (schema lim) (.cls .submodel) (sm contactsId [smc contactId [phone [number]], smc contactId [phone [telephone]]]) ∧
    HasType (schema lim) (.cls .submodel) (sm contactsId [smc contactId [phone [telephone]], smc contactId [phone [number]]]) ∧
    linesOf W (sm contactsId [smc contactId [phone [number]], smc contactId [phone [telephone]]]) = some [[py!"Check submodel 'urn:x'",
      py!"Template: ContactInformations (https://admin-shell.io/zvei/nameplate/1/0/ContactInformations)",
      py!"Field TelephoneNumber: found 0 elements with semanticId 0173-1#02-AAO136#002, but at least 1 required"]] ∧
    linesOf W (sm contactsId [smc contactId [phone [number]], smc contactId [phone [telephone]]]) =
      linesOf W (sm contactsId [smc contactId [phone [telephone]], smc contactId [phone [number]]]) :=
  ⟨typedB_sound 20 _ _ (by decide +kernel), typedB_sound 20 _ _ (by decide +kernel), rfl, rfl⟩

/-- A wrong role is reported alone: the wrong kind of the phone is kept back. -/
theorem C93_enum_violated :
    HasType (schema lim) (.cls .submodel) (sm contactsId [smc contactId [role, phone [telephone, number]]]) ∧
    linesOf W (sm contactsId [smc contactId [phone [telephone, number]]]) = some [[py!"Check submodel 'urn:x'",
      py!"Template: ContactInformations (https://admin-shell.io/zvei/nameplate/1/0/ContactInformations)",
      py!"'none' is not a valid TypeOfTelephone @ /ContactInformation/0/Phone/TypeOfTelephone"]] ∧
    linesOf W (sm contactsId [smc contactId [role, phone [telephone, number]]]) = some [[py!"Check submodel 'urn:x'",
      py!"Template: ContactInformations (https://admin-shell.io/zvei/nameplate/1/0/ContactInformations)",
      py!"'nobody' is not a valid RoleOfContactPerson @ /ContactInformation/0/RoleOfContactPerson"]] :=
  ⟨typedB_sound 20 _ _ (by decide +kernel), rfl, rfl⟩

/-- the date of manufacture as a text of two lines -/
def twoLines : AVal := sm plateId (plateEls ++ [mlp py!"0173-1#02-AAU731#001", prop py!"0173-1#02-AAR972#002" py!"xs:string" py!"today\nAll is well"])

/-- Values are shown with their line feeds. -/
theorem C93_one_line_violated : HasType (schema lim) (.cls .submodel) twoLines ∧
    linesOf W twoLines = some [[py!"Check submodel 'urn:x'",
      py!"Template: DigitalNameplate (https://admin-shell.io/zvei/nameplate/2/0/Nameplate)",
      py!"Cannot convert 'today\nAll is well' to date: valueType must be xs:date @ /DateOfManufacture"]] :=
  ⟨typedB_sound 20 _ _ (by decide +kernel), rfl⟩

/-- the elements, and those in collections among them -/
inductive Among : List AVal → AVal → Prop
  | here {els y} : y ∈ els → Among els y
  | deeper {els x y} : x ∈ els → Among (elems x .value) y → Among els y

theorem among_trans {els : List AVal} {x y : AVal} (h : Among els x) (h' : Among (elems x .value) y) : Among els y := by
  induction h with
  | here hm => exact .deeper hm h'
  | deeper hm _ ih => exact .deeper hm (ih h')

theorem matching_subset {f : TField} {els : List AVal} {y : AVal} (h : y ∈ matching f els) : y ∈ els := (List.mem_filter.mp h).1

theorem fields_oneLine : ∀ (c : TCls), ((tfieldsOf c).all fun f => !(fieldName f).contains 10 && !f.semanticId.contains 10) = true := by
  intro c; cases c <;> decide +kernel

theorem field_oneLine {c : TCls} {k : Nat} {f : TField} (h : (tfieldsOf c)[k]? = some f) : OneLine (fieldName f) ∧ OneLine f.semanticId := by
  have := List.all_eq_true.mp (fields_oneLine c) f (List.mem_of_getElem? h)
  simpa [OneLine] using this

theorem at_oneLine {c : TCls} {els : List AVal} {s : List Nat} {p : List Str} {ty : TTy} {y : AVal} (h : At c els s p ty y) :
    Among els y ∧ ∀ t ∈ p, OneLine t := by
  induction h with
  | single h1 _ _ h4 =>
    refine ⟨.here (matching_subset h4), fun t ht => ?_⟩
    rw [List.mem_singleton.mp ht]
    exact (field_oneLine h1).1
  | item h1 _ _ h4 h5 =>
    refine ⟨.here (matching_subset (List.mem_of_getElem? h4)), fun t ht => ?_⟩
    rcases List.mem_cons.mp ht with rfl | ht
    · exact (field_oneLine h1).1
    · rw [List.mem_singleton.mp ht, decimal_iff.mp h5]
      exact natStr_oneLine _
  | deeper _ _ _ ih ih' =>
    exact ⟨among_trans ih.1 ih'.1, fun t ht => (List.mem_append.mp ht).elim (ih.2 t) (ih'.2 t)⟩

theorem tenum_oneLine (e : TEnum) : OneLine e.pyName := by cases e <;> decide +kernel

theorem wrong_oneLine {b : Bool} {ty : TTy} {y : AVal} {w : Str} (h : Wrong W b ty y w) (hy : OneLine (txt y .value)) : OneLine w := by
  have hval : ∀ {ty s t}, Value ty s t → OneLine s ∧ OneLine t := by intro ty s t h; cases h <;> decide +kernel
  cases h with
  | noProperty h => exact .append (.append (by decide) (hval h).1) (by decide)
  | noValue h => exact .append (.append (by decide) (hval h).1) (by decide)
  | valueType h => exact .append (.append (.append (.append (.append (by decide) hy) (by decide)) (hval h).1) (by decide)) (hval h).2
  | notInEnum => exact .append (.append (repr_oneLine W _) (by decide)) (tenum_oneLine _)
  | _ => decide

theorem number_oneLine {f : TField} {n : Nat} {t : Str} (h : WrongNumber f n t) (hf : OneLine (fieldName f) ∧ OneLine f.semanticId) : OneLine t := by
  cases h with
  | tooMany _ _ h1 h2 =>
    rw [decimal_iff.mp h1, decimal_iff.mp h2]
    exact .append (.append (.append (.append (.append (.append (.append (.append (by decide) hf.1) (by decide)) (natStr_oneLine _)) (by decide)) hf.2) (by decide))
      (natStr_oneLine _)) (by decide)
  | tooFew _ h1 h2 =>
    rw [decimal_iff.mp h1, decimal_iff.mp h2]
    exact .append (.append (.append (.append (.append (.append (.append (.append (by decide) hf.1) (by decide)) (natStr_oneLine _)) (by decide)) hf.2) (by decide))
      (natStr_oneLine _)) (by decide)

theorem lineOf_oneLine {c : TCls} {els : List AVal} {b : Bool} {m : List Nat × Str} (h : LineOf W c els b m) (hv : ∀ y, Among els y → OneLine (txt y .value)) :
    OneLine m.2 := by
  cases h with
  | element h1 h2 =>
    obtain ⟨h3, h4⟩ := at_oneLine h1
    exact .append (.append (wrong_oneLine W h2 (hv _ h3)) (by decide)) (join_oneLine h4)
  | number _ h2 h3 => exact number_oneLine h3 (field_oneLine h2)

theorem template_oneLine : (templates.all fun p => !p.1.contains 10) = true := by decide +kernel

theorem line_oneLine {n : Nat} {l : Level} {m : Str} (h : OneLine m) : OneLine (Res.indentStr n ++ l.color ++ m ++ Res.endc) := by
  refine .append (.append (.append ?_ (by cases l <;> decide)) h) (by decide)
  induction n with
  | zero => decide
  | succ n ih => exact .append (a := py!"   ") (by decide) ih

theorem errors_oneLine {n : Nat} : ∀ {ts : List Str}, (∀ t ∈ ts, OneLine t) → ∀ line ∈ Res.toLinesL n (ts.map fun t => Res.new t .error), OneLine line
  | [], _, line, h => by cases h
  | t :: ts, ht, line, h => by
    rw [List.map_cons, Res.toLinesL] at h
    rcases List.mem_append.mp h with h | h
    · cases List.mem_singleton.mp h
      exact line_oneLine (ht t (.head _))
    · exact errors_oneLine (fun t h => ht t (.tail _ h)) line h

/-- What is printed about a submodel is one line for each result, if the id of the submodel and the values of its elements have no line feeds. -/
theorem C93_one_line_partial (v : AVal) (h : HasType (schema lim) (.cls .submodel) v) (sid : Str) (c : TCls) (hs : semanticId? v = some sid)
    (ht : (sid, c) ∈ templates) (root r : Res Str) (hr : tellOne W root v = .ok r) (hid : OneLine (txt v .id))
    (hv : ∀ y, Among (elems v .submodelElements) y → OneLine (txt y .value)) :
    ∃ sub, r = root.append sub ∧ ∀ n, ∀ line ∈ sub.toLines n, OneLine line := by
  obtain ⟨sub, ⟨ms, extra, hl, hx, rfl⟩, rfl⟩ := C93_submodel_partial W v h sid c hs ht root r hr
  refine ⟨_, rfl, fun n line hm => ?_⟩
  have hts : ∀ t ∈ ms.map (·.2) ++ extra, OneLine t := by
    intro t htm
    rcases List.mem_append.mp htm with htm | htm
    · obtain ⟨m, hm, rfl⟩ := List.mem_map.mp htm
      cases ms with
      | nil => cases hm
      | cons first rest =>
        obtain ⟨-, ⟨b, hb⟩, -, h1, -⟩ := hl
        rcases List.mem_cons.mp hm with rfl | hm
        · exact lineOf_oneLine W hb hv
        · exact lineOf_oneLine W (h1 m hm) hv
    · rcases hx with ⟨-, -, -, rfl⟩ | ⟨-, rfl⟩
      · rw [List.mem_singleton.mp htm]; decide
      · cases htm
  have hsid : OneLine sid := by
    have := List.all_eq_true.mp template_oneLine _ ht
    simpa [OneLine] using this
  have he : ∀ (a b : Str) (ss : List (Res Str)), ∃ l, ((Res.new a).append (Res.new b)).appendAll ss = .mk a l (Res.new b :: ss) := by
    intro a b ss
    have h1 := Res.appendAll_subs ((Res.new a).append (Res.new b)) ss
    have h2 := Res.appendAll_msg ((Res.new a).append (Res.new b)) ss
    cases hq : ((Res.new a).append (Res.new b)).appendAll ss with
    | mk m l s =>
      rw [hq] at h1 h2
      exact ⟨l, by rw [show m = a from h2, show s = Res.new b :: ss from h1]⟩
  obtain ⟨l, he⟩ := he (py!"Check submodel '" ++ txt v .id ++ py!"'") (py!"Template: " ++ c.pyName ++ py!" (" ++ sid ++ py!")") ((ms.map (·.2) ++ extra).map fun t => Res.new t .error)
  rw [he, Res.toLines, Res.toLinesL] at hm
  rcases List.mem_cons.mp hm with rfl | hm
  · exact line_oneLine (.append (.append (by decide) hid) (by decide))
  · rcases List.mem_append.mp hm with hm | hm
    · cases List.mem_singleton.mp hm
      exact line_oneLine (.append (.append (.append (.append (by decide) (by cases c <;> decide +kernel)) (by decide)) hsid) (by decide))
    · exact errors_oneLine hts line hm

/-- whether the values of the elements have no line feeds, down to a depth -/
def plainValues : Nat → List AVal → Bool
  | 0, els => els.isEmpty
  | n + 1, els => els.all fun y => decide (OneLine (txt y .value)) && plainValues n (elems y .value)

theorem plainValues_sound : ∀ {n : Nat} {els : List AVal}, plainValues n els = true → ∀ y, Among els y → OneLine (txt y .value)
  | 0, els, h, y, hy => by
    have : els = [] := by simpa [plainValues] using h
    subst this
    cases hy with
    | here h => cases h
    | deeper h _ => cases h
  | n + 1, els, h, y, hy => by
    have h := List.all_eq_true.mp h
    cases hy with
    | here hm => have := h _ hm; simp only [Bool.and_eq_true, decide_eq_true_eq] at this; exact this.1
    | deeper hm hy => have := h _ hm; simp only [Bool.and_eq_true, decide_eq_true_eq] at this; exact plainValues_sound this.2 y hy

/-- `flawed` of Flaws.lean has no line feeds -/
example : ∃ sub, tellOne plainWords (Res.new []) flawed = .ok ((Res.new []).append sub) ∧ ∀ n, ∀ line ∈ sub.toLines n, OneLine line := by
  have hr : ∃ r, tellOne plainWords (Res.new []) flawed = .ok r := ⟨_, rfl⟩
  obtain ⟨r, hr⟩ := hr
  obtain ⟨sub, rfl, h⟩ := C93_one_line_partial plainWords (lim := none) flawed (typedB_sound 20 _ _ (by decide +kernel)) contactsId .contactInformations
    (by decide +kernel) (by decide +kernel) (Res.new []) r hr (by decide +kernel) (plainValues_sound (n := 5) (by decide +kernel))
  exact ⟨sub, hr, h⟩

end Verif.Props
