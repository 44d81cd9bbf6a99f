import Verif.MetamodelLemmas
import Verif.Props.Document
import Verif.Props.Strings
import Verif.StripLemmas
import Verif.PathLemmas

/-!
# C101: the meta-model of the engine is that of the specification
-/

namespace Verif.Props
open Verif Verif.Parse Verif.Spec Verif.Spec.Parse Verif.Aas Verif.DataTypes Verif.Spec.Metamodel Res

/-- the string has the type, as the engine sees it; `C27_plain` etc. say which strings these are -/
abbrev AcceptedText (lim : Option Nat) (f : SfvCls) (s : Str) : Prop := construct lim f s = .ok ()

/-- UTC points in time are points in time -/
theorem utc_date_time (lim : Option Nat) (s : Str) (h : construct lim .dateTimeUtc s = .ok ()) : construct lim .dateTime s = .ok () := by
  rw [construct_iff, constructBase_iff] at h ⊢
  obtain ⟨h1, -, -, h3⟩ := h
  refine ⟨⟨h1.1, h1.2.1, by simp [patternOf]⟩, by simp, fun _ => ?_, by simp⟩
  have h4 := h3 rfl
  unfold isXsDateTimeUtc dateTimeWith at h4
  unfold isXsDateTime dateTimeWith
  have hm : Re.anchoredMatch dateTimeUtcRe s = true := by
    cases hh : Re.anchoredMatch dateTimeUtcRe s
    · rw [hh] at h4; cases h4
    · rfl
  have hm' : Re.anchoredMatch dateTimeRe s = true := by
    rw [Re.anchoredMatch_iff] at hm ⊢
    simp only [m_dateTimeUtcRe, m_dateTimeRe] at hm ⊢
    rcases hm with ⟨d, t, tz, y, m, n, e, hd, ht, hz⟩ | ⟨u, rfl, d, t, tz, y, m, n, e, hd, ht, hz⟩
    · exact Or.inl ⟨d, t, tz, y, m, n, e, hd, ht, utc_tz hz⟩
    · exact Or.inr ⟨u, rfl, d, t, tz, y, m, n, e, hd, ht, utc_tz hz⟩
  rw [hm] at h4
  rw [hm']
  exact h4

/-- the engine's type takes what the type of the specification takes -/
def Covers (ty : ATy) (k : Verif.Spec.Metamodel.Kind) : Prop :=
  kindOf ty = some k ∨ (ty = .sfv .dateTime ∧ k = .text .dateTimeUtc) ∨ (ty = .enum .keyType ∧ k = .literal .aasSubmodelElements)

theorem covers_of {ty : ATy} {a : Attribute} (h : agrees ty a = true) : Covers ty a.kind := by
  simp only [agrees, Bool.or_eq_true, Bool.and_eq_true, beq_iff_eq] at h
  rcases h with (h | ⟨⟨-, h1⟩, h2⟩) | ⟨⟨-, h1⟩, h2⟩
  · exact Or.inl h
  · exact Or.inr (Or.inl ⟨h1, h2⟩)
  · exact Or.inr (Or.inr ⟨h1, h2⟩)

theorem covers_conforms (lim : Option Nat) (T : SfvCls → Str → Prop) (hT : ∀ f s, T f s → AcceptedText lim f s) {k j} (h : Instance T k j) :
    ∀ ty, Covers ty k → Conforms (schema lim) ty j := by
  induction h with
  | @text f s h =>
    rintro ty (h' | ⟨rfl, h'⟩ | ⟨rfl, h'⟩)
    · cases kindOf_inv h'; exact .sfv (hT _ _ h)
    · cases h'; exact .sfv (utc_date_time lim s (hT _ _ h))
    · cases h'
  | plain s =>
    rintro ty (h' | ⟨rfl, h'⟩ | ⟨rfl, h'⟩)
    · cases kindOf_inv h'; exact .str s
    · cases h'
    · cases h'
  | flag b =>
    rintro ty (h' | ⟨rfl, h'⟩ | ⟨rfl, h'⟩)
    · cases kindOf_inv h'; exact .bool b
    · cases h'
    · cases h'
  | @literal e s h =>
    rintro ty (h' | ⟨rfl, h'⟩ | ⟨rfl, h'⟩)
    · obtain ⟨e', rfl, rfl⟩ := kindOf_inv h'
      exact .enum ((enums_ok e' s).mpr h)
    · cases h'
    · cases h'
      exact .enum ((enums_ok .keyType s).mpr (List.mem_append_left _ h))
  | many hne _ ih =>
    rintro ty (h' | ⟨rfl, h'⟩ | ⟨rfl, h'⟩)
    · obtain ⟨c, rfl, rfl⟩ := kindOf_inv h'
      exact .list (Or.inl hne) (fun j hj => ih j hj (.cls c) (Or.inl rfl))
    · cases h'
    · cases h'
  | one d hd is tag known required values ih =>
    rintro ty (h' | ⟨rfl, h'⟩ | ⟨rfl, h'⟩)
    · obtain ⟨c, rfl, rfl⟩ := kindOf_inv h'
      obtain ⟨c', hc'⟩ := cls_of hd
      obtain ⟨h1, h2⟩ := isA_of lim hd is hc'
      refine .obj h1 (fun h => ?_) (fun e he => ?_) (fun f key ty hf => ?_) (fun f key ty req j hf hj => ?_)
      · show (py!"modelType", Json.str c'.pyName) ∈ _
        rw [hc']
        exact tag (h2 h)
      · rcases known e he with h | ⟨a, ha, h⟩
        · exact Or.inl h
        · obtain ⟨f, ty, hf, -⟩ := field_of hd hc' ha
          rw [h] at hf
          exact Or.inr ⟨f, ty, _, hf⟩
      · obtain ⟨a, ha, rfl, hreq, -⟩ := attribute_of hd hc' hf
        exact required a ha hreq
      · obtain ⟨a, ha, rfl, -, hag⟩ := attribute_of hd hc' hf
        exact ih a ha j hj ty (covers_of hag)
    · cases h'
    · cases h'

/-- what has to hold of a value and of the values in it -/
structure Invariant (lim : Option Nat) (T : SfvCls → Str → Prop) (I : ATy → Json → Prop) : Prop where
  list : ∀ {c l}, I (.list (.cls c) false) (.arr l) → ∀ j ∈ l, I (.cls c) j
  values : ∀ {c c' kvs}, I (.cls c) (.obj kvs) → IsA (schema lim) c c' → (isAbstract c = true → (py!"modelType", Json.str c'.pyName) ∈ kvs) →
    ∀ {f key ty req j}, ⟨f, .attr key ty req⟩ ∈ fieldsOf c' → (key, j) ∈ kvs → I ty j
  event : ∀ {c kvs}, I (.cls c) (.obj kvs) → (py!"modelType", Json.str py!"EventElement") ∉ kvs
  utc : ∀ {c kvs}, I (.cls c) (.obj kvs) → ∀ s, (py!"lastUpdate", Json.str s) ∈ kvs → T .dateTimeUtc s
  element : ∀ {c c' kvs}, I (.cls c) (.obj kvs) → IsA (schema lim) c c' → (isAbstract c = true → (py!"modelType", Json.str c'.pyName) ∈ kvs) →
    ∀ {f req s}, ⟨f, .attr py!"typeValueListElement" (.enum .keyType) req⟩ ∈ fieldsOf c' → (py!"typeValueListElement", Json.str s) ∈ kvs →
      s ∈ Metamodel.aasSubmodelElements

theorem conforms_instance (lim : Option Nat) (T : SfvCls → Str → Prop) (hT : ∀ f s, AcceptedText lim f s → T f s) (I : ATy → Json → Prop)
    (hI : Invariant lim T I) {ty j} (h : Conforms (schema lim) ty j) : rootTy ty = true → I ty j → ∀ k, kindOf ty = some k → Instance T k j := by
  induction h with
  | str s => intro _ _ k h; cases h; exact .plain s
  | bool b => intro _ _ k h; cases h; exact .flag b
  | any j => intro _ _ k h; cases h
  | @enum e s h => intro _ _ k h'; cases h'; exact .literal ((enums_ok e s).mp h)
  | sfv h => intro _ _ k h'; cases h'; exact .text (hT _ _ h)
  | @list it ae l hne hl ih =>
    intro hr hu k hk
    cases it with
    | cls c =>
      cases ae with
      | true => cases hk
      | false =>
        cases hk
        exact .many (hne.resolve_right (by simp)) (fun j hj => ih j hj hr (hI.list hu j hj) _ rfl)
    | _ => cases hk
  | @obj c c' kvs isA tag known required values ih =>
    intro hr hu k hk
    cases hk
    have he : c' ≠ .eventElement := by
      rintro rfl
      exact hI.event hu (tag (Or.inl (event_abstract lim hr isA)))
    obtain ⟨d, hd, hc', hi, ht⟩ := class_of lim hr isA he
    refine .one d hd hi (fun h => ?_) (fun e he => ?_) (fun a ha hreq => ?_) (fun a ha j hj => ?_)
    · rw [← hc']
      exact tag (ht h)
    · rcases known e he with h | ⟨f, ty, req, hf⟩
      · exact Or.inl h
      · obtain ⟨a, ha, h, -⟩ := attribute_of hd hc' hf
        exact Or.inr ⟨a, ha, h⟩
    · obtain ⟨f, ty, hf, -⟩ := field_of hd hc' ha
      rw [hreq] at hf
      exact required f a.name ty hf
    · obtain ⟨f, ty, hf, hag⟩ := field_of hd hc' ha
      have hc := values f a.name ty a.required j hf hj
      simp only [agrees, Bool.or_eq_true, Bool.and_eq_true, beq_iff_eq] at hag
      rcases hag with (h | ⟨⟨hn, h1⟩, h2⟩) | ⟨⟨hn, h1⟩, h2⟩
      · exact ih f a.name ty a.required j hf hj (type_root hf) (hI.values hu isA (fun h => tag (Or.inl h)) hf hj) _ h
      · rw [h2]
        rw [h1] at hc
        cases hc with
        | sfv _ => exact .text (hI.utc hu _ (hn ▸ hj))
      · rw [h2]
        rw [h1] at hc
        rw [h1, hn] at hf
        cases hc with
        | enum _ => exact .literal (hI.element hu isA (fun h => tag (Or.inl h)) hf (hn ▸ hj))

/-- the document alone -/
theorem part_invariant (lim : Option Nat) (T : SfvCls → Str → Prop) :
    Invariant lim T (fun _ j => ∀ kvs, Part j (.obj kvs) → Unsuspicious T kvs ∧ ElementTyped kvs) where
  list h _ hj kvs hp := h kvs (.item hj hp)
  values h _ _ _ _ _ _ _ _ hj kvs hp := h kvs (.member hj hp)
  event h := (h _ (.refl _)).1.1
  utc h := (h _ (.refl _)).1.2
  element h _ _ _ _ _ _ hs := (h _ (.refl _)).2 _ hs

/-- the object at hand and those nested in it follow the rule for the type of the elements of lists -/
def ElementsTyped (v : AVal) : Prop := ∀ p x, Nested Fld.pyName v p x → Model.className x = py!"SubmodelElementList" → Model.ElementType x

theorem key_unique {A : Type} {kvs : List (Str × A)} (h : (kvs.map (·.1)).Nodup) {k x y} (h1 : (k, x) ∈ kvs) (h2 : (k, y) ∈ kvs) : x = y := by
  induction kvs with
  | nil => cases h1
  | cons e kvs ih =>
    simp only [List.map_cons, List.nodup_cons, List.mem_map, not_exists, not_and] at h
    rcases List.mem_cons.mp h1 with rfl | h1' <;> rcases List.mem_cons.mp h2 with h2 | h2
    · cases h2; rfl
    · exact absurd rfl (h.1 (_, y) h2)
    · subst h2; exact absurd rfl (h.1 (_, x) h1')
    · exact ih h.2 h1' h2

theorem lookup_of_mem {f : Fld} {v : AVal} : ∀ {attrs : List (Fld × AVal)}, (attrs.map (·.1)).Nodup → (f, v) ∈ attrs → lookup f attrs = some v
  | [], _, h => by cases h
  | (g, w) :: attrs, hn, h => by
    simp only [List.map_cons, List.nodup_cons] at hn
    rcases List.mem_cons.mp h with h | h
    · cases h; simp [lookup]
    · have hne : g ≠ f := by
        rintro rfl
        exact hn.1 (List.mem_map.mpr ⟨_, h, rfl⟩)
      simp only [lookup, hne, if_false]
      exact lookup_of_mem hn.2 h

theorem same_class (lim : Option Nat) {c c' c'' : Cls} {kvs : List (Str × Json)} (hw : (kvs.map (·.1)).Nodup) (h1 : IsA (schema lim) c c')
    (t1 : isAbstract c = true → (py!"modelType", Json.str c'.pyName) ∈ kvs) (h2 : IsA (schema lim) c c'')
    (t2 : isAbstract c = true → (py!"modelType", Json.str c''.pyName) ∈ kvs) : c' = c'' := by
  rcases h1 with ⟨a1, e1⟩ | ⟨a1, -⟩
  · rcases h2 with ⟨-, e2⟩ | ⟨a2, -⟩
    · rw [e1, e2]
    · rw [a1] at a2; cases a2
  · have := key_unique hw (t1 a1) (t2 a1)
    exact pyName_inj (by injection this)

theorem zip_field {c : Cls} {attrs : List (Fld × AVal)} (names : attrs.map (·.1) = (fieldsOf c).map (·.name)) {f : AField} (hf : f ∈ fieldsOf c) :
    ∃ v, (f, f.name, v) ∈ (fieldsOf c).zip attrs := by
  obtain ⟨i, hi, e⟩ := List.mem_iff_getElem.mp hf
  have hl : attrs.length = (fieldsOf c).length := by simpa using congrArg List.length names
  have hi' : i < attrs.length := by omega
  refine ⟨attrs[i].2, List.mem_iff_getElem.mpr ⟨i, by rw [List.length_zip]; omega, ?_⟩⟩
  have hn : attrs[i].1 = ((fieldsOf c)[i]).name := by
    have := congrArg (·[i]?) names
    simpa [hi, hi'] using this
  rw [List.getElem_zip, ← e, ← hn]

theorem element_field {c : Cls} {f req} (h : ⟨f, .attr py!"typeValueListElement" (.enum .keyType) req⟩ ∈ fieldsOf c) :
    c = .submodelElementList ∧ f = .typeValueListElement := by
  have ht : (allCls.all fun c => (fieldsOf c).all fun g => match g.slot with
    | .attr k _ _ => k != py!"typeValueListElement" || (c == .submodelElementList && g.name == .typeValueListElement)
    | .excluded => true) = true := by decide +kernel
  simp only [List.all_eq_true] at ht
  have := ht c (mem_allCls c) _ h
  simpa using this

/-- the document together with the object it describes -/
theorem object_invariant (lim : Option Nat) (T : SfvCls → Str → Prop) :
    Invariant lim T (fun ty j => WF j ∧ (∀ kvs, Part j (.obj kvs) → Unsuspicious T kvs) ∧
      ∃ v, Describes (schema lim) ty j v ∧ ElementsTyped v ∧ ∀ l, v = .list l → ∀ w ∈ l, ElementsTyped w) where
  list := by
    rintro c l ⟨hw, hp, v, hd, -, hl⟩ j hj
    cases hw with
    | arr hw =>
      cases hd with
      | list length items =>
        obtain ⟨i, hi, e⟩ := List.mem_iff_getElem.mp hj
        have hi' := length ▸ hi
        have := items i j _ (by rw [List.getElem?_eq_getElem hi, e]) (List.getElem?_eq_getElem hi')
        refine ⟨hw j hj, fun kvs h => hp kvs (.item hj h), _, this, hl _ rfl _ (List.getElem_mem hi'), ?_⟩
        intro l e
        rw [e] at this
        cases this
  values := by
    rintro c c' kvs ⟨hw, hp, v, hd, he, -⟩ isA tag f key ty req j hf hj
    cases hw with
    | obj hk hw =>
      cases hd with
      | @obj _ c'' _ attrs isA' tag' names present absent excluded =>
        obtain rfl := same_class lim hk isA tag isA' tag'
        obtain ⟨v, hv⟩ := zip_field names hf
        have hm : (f, v) ∈ attrs := (List.of_mem_zip hv).2
        refine ⟨hw _ hj, fun kvs' h => hp kvs' (.member hj h), v, present _ _ _ _ _ _ hv hj, fun p x hx => he _ x (.attr hm hx), ?_⟩
        rintro l rfl w hwl p x hx
        obtain ⟨i, hi⟩ := List.mem_iff_getElem?.mp hwl
        exact he _ x (.item hm hi hx)
  event h := (h.2.1 _ (.refl _)).1
  utc h := (h.2.1 _ (.refl _)).2
  element := by
    rintro c c' kvs ⟨hw, hp, v, hd, he, -⟩ isA tag f req s hf hs
    cases hw with
    | obj hk hw =>
      cases hd with
      | @obj _ c'' _ attrs isA' tag' names present absent excluded =>
        obtain rfl := same_class lim hk isA tag isA' tag'
        obtain ⟨rfl, rfl⟩ := element_field hf
        obtain ⟨v, hv⟩ := zip_field names hf
        have hd := present _ _ _ _ _ _ hv hs
        have hm : (Fld.typeValueListElement, v) ∈ attrs := (List.of_mem_zip hv).2
        have ht := he [] _ (.here _ _) rfl
        cases hd
        have hg : Model.get (.obj .submodelElementList attrs) .typeValueListElement = .enum .keyType s := by
          rw [get_obj, lookup_of_mem (by rw [names]; exact names_nodup .submodelElementList) hm]
          rfl
        rw [Model.ElementType, Model.txt, hg] at ht
        have hs : (Model.submodelElementTypes.all Metamodel.aasSubmodelElements.contains) = true := by decide +kernel
        simp only [List.all_eq_true, List.contains_iff_mem] at hs
        exact hs s ht

variable (lim : Option Nat)

/-- C101: every document that is an instance of a class of the specification is one for the engine: no class, attribute or literal of the
specification is unknown to it, nothing optional is asked for. `T`: the types of strings, which have to be among those the engine accepts. -/
theorem C101_complete (T : SfvCls → Str → Prop) (hT : ∀ f s, T f s → AcceptedText lim f s) (c : Cls) (j : Json) (h : Instance T (.one c.pyName) j) :
    Conforms (schema lim) (.cls c) j :=
  covers_conforms lim T hT h _ (Or.inl rfl)

/-- C101: what the engine takes for an instance is one. Partial: it accepts event elements that are of no particular kind, any key type as the
type of the elements of a list, and times of the last update in other time zones than UTC. -/
theorem C101_sound_partial (T : SfvCls → Str → Prop) (hT : ∀ f s, AcceptedText lim f s → T f s) (c : Cls) (hc : Root c.pyName) (j : Json)
    (hu : ∀ kvs, Part j (.obj kvs) → Unsuspicious T kvs ∧ ElementTyped kvs) (h : Conforms (schema lim) (.cls c) j) : Instance T (.one c.pyName) j :=
  conforms_instance lim T hT _ (part_invariant lim T) h ((rootCls_iff c).mpr hc) hu _ rfl

/-- C101, for the parser: on an instance of the class no error is reported; and if none is reported, the document is an instance, with the
exceptions of `C101_sound_partial`. -/
theorem C101_parse_partial (c : Cls) (hc : Root c.pyName) (j : Json) (hw : WF j) (n : Nat) (hn : j.size < n) (res : Res Note) (hres : res.ok = true) :
    ∃ v notes, parseF jsonOps (schema lim) n (.cls c) ⟨j, []⟩ res = .ok (v, res.appendAll (errs notes)) ∧
      (Instance (AcceptedText lim) (.one c.pyName) j → notes = []) ∧
      ((∀ kvs, Part j (.obj kvs) → Unsuspicious (AcceptedText lim) kvs ∧ ElementTyped kvs) → notes = [] → Instance (AcceptedText lim) (.one c.pyName) j) := by
  obtain ⟨v, notes, h, hnotes⟩ := C35_returns (schema lim) (sane lim) (supported lim) (.cls c) trivial j hw [] n hn res hres
  exact ⟨v, notes, h, fun hi => hnotes.mpr (C101_complete lim _ (fun _ _ h => h) c j hi),
    fun hu he => C101_sound_partial lim _ (fun _ _ h => h) c hc j hu (hnotes.mp he)⟩

theorem root_not_lang (c : Cls) (hc : Root c.pyName) : c ≠ .langStringSet := by
  rintro rfl
  have := (rootCls_iff .langStringSet).mpr hc
  revert this
  decide +kernel

/-- C101, for the engine: a document that passes is an instance of the class, with the exceptions of `C101_sound_partial`. -/
theorem C101_passed_partial (c : Cls) (hc : Root c.pyName) (j : Json) (hw : WF j) (n : Nat) (hn : j.size < n)
    (hu : ∀ kvs, Part j (.obj kvs) → Unsuspicious (AcceptedText lim) kvs) (r : Res Note) (v : AVal)
    (h : checkDocument jsonOps lim n c ⟨j, []⟩ = .ok (r, v)) (hok : r.ok = true) : Instance (AcceptedText lim) (.one c.pyName) j := by
  obtain ⟨h1, h2⟩ := C64_json lim c (root_not_lang c hc) j hw n hn
  by_cases hcf : Conforms (schema lim) (.cls c) j
  · obtain ⟨w, -, hd, h3, h4⟩ := h2 hcf
    by_cases hr : Raising lim w
    · obtain ⟨e, -, he⟩ := h3 hr
      rw [h] at he
      cases he
    · obtain ⟨r', he, hb⟩ := h4 hr
      rw [h] at he
      cases he
      have hb := hb.mp hok
      refine conforms_instance lim _ (fun _ _ h => h) _ (object_invariant lim _) hcf ((rootCls_iff c).mpr hc) ⟨hw, hu, strip v, hd, ?_, ?_⟩ _ rfl
      · intro p y hy hl
        obtain ⟨x, rfl, hx⟩ := Strip.strip_nested hy v rfl
        rw [Strip.className_strip] at hl
        rw [Model.ElementType, Strip.txt_strip]
        exact Classical.byContradiction fun hne => hb p _ ⟨x, hx, .elementType hl hne⟩
      · intro l e
        rw [e] at hd
        cases hd
  · obtain ⟨r', v', h2, h3⟩ := h1 hcf
    rw [h] at h2
    cases h2
    rw [hok] at h3
    cases h3

/-- a property -/
def mmProperty : Json := .obj [(py!"modelType", .str py!"Property"), (py!"idShort", .str py!"p"), (py!"valueType", .str py!"xs:int"), (py!"value", .str py!"5")]

theorem mmProperty_wf : WF mmProperty := by
  refine .obj (by decide) (fun e he => ?_)
  simp only [List.mem_cons, List.not_mem_nil, or_false] at he
  rcases he with rfl | rfl | rfl | rfl <;> exact .str _

theorem mmProperty_parts (kvs : List (Str × Json)) (h : Part mmProperty (.obj kvs)) : Unsuspicious (AcceptedText none) kvs := by
  cases h with
  | refl => exact ⟨by simp, by simp⟩
  | member he hp =>
    simp only [List.mem_cons, List.not_mem_nil, or_false] at he
    rcases he with rfl | rfl | rfl | rfl <;> cases hp

theorem mmProperty_root : Root Cls.submodelElement.pyName := (rootCls_iff _).mp (by decide +kernel)

theorem mmProperty_passes : (checkDocument jsonOps none (mmProperty.size + 1) .submodelElement ⟨mmProperty, []⟩).map (·.1.ok) = .ok true := by decide +kernel

example : Instance (AcceptedText none) (.one py!"SubmodelElement") mmProperty := by
  have h := mmProperty_passes
  cases hc : checkDocument jsonOps none (mmProperty.size + 1) .submodelElement ⟨mmProperty, []⟩ with
  | error e => rw [hc] at h; cases h
  | ok p =>
    rw [hc] at h
    exact C101_passed_partial none .submodelElement mmProperty_root mmProperty mmProperty_wf _ (by omega) mmProperty_parts p.1 p.2 hc (by injection h)

-- without its type it is none
example : ¬ Instance (AcceptedText none) (.one py!"SubmodelElement") (.obj [(py!"modelType", .str py!"Property"), (py!"idShort", .str py!"p")]) := by
  intro h
  cases h with
  | one d hd is tag known required values =>
    have ht : (classes.all fun d => !(instances py!"SubmodelElement").contains d.name ||
        (d.tagged && (d.name != py!"Property" || d.attributes.contains (req py!"valueType" (.literal .dataTypeDefXsd))))) = true := by decide +kernel
    simp only [List.all_eq_true, Bool.or_eq_true, Bool.not_eq_true', Bool.and_eq_true, bne_iff_ne, List.contains_iff_mem] at ht
    obtain ⟨h1, h2⟩ := (ht d hd).resolve_left (by simp [is])
    have htag := tag h1
    simp at htag
    obtain ⟨j, hj⟩ := required _ (h2.resolve_left (by simp [htag])) rfl
    simp [req] at hj

/-! ## where the engine accepts more -/

def bareEvent : Json := .obj [(py!"modelType", .str py!"EventElement")]

/-- an element of the abstract class `EventElement` passes -/
theorem C101_event_violated : (checkDocument jsonOps none (bareEvent.size + 1) .submodelElement ⟨bareEvent, []⟩).map (·.1.ok) = .ok true ∧
    ¬ Instance (AcceptedText none) (.one py!"SubmodelElement") bareEvent := by
  refine ⟨by decide +kernel, fun h => ?_⟩
  cases h with
  | one d hd is tag known required values =>
    have ht : (classes.all fun d => !(instances py!"SubmodelElement").contains d.name || (d.tagged && d.name != py!"EventElement")) = true := by decide +kernel
    simp only [List.all_eq_true, Bool.or_eq_true, Bool.not_eq_true', Bool.and_eq_true, bne_iff_ne] at ht
    obtain ⟨h1, h2⟩ := (ht d hd).resolve_left (by simp [is])
    have := tag h1
    simp only [List.mem_cons, List.not_mem_nil, or_false, Prod.mk.injEq, true_and, Json.str.injEq] at this
    exact h2 this

/-- what an instance of `cls` has as value of an attribute -/
theorem instance_attribute {T : SfvCls → Str → Prop} {c : Str} {kvs} (h : Instance T (.one c) (.obj kvs)) (cls : Str) (a : Attribute) (j : Json)
    (hn : ∀ n, (py!"modelType", Json.str n) ∈ kvs → n = cls)
    (ht : (classes.all fun d => !(instances c).contains d.name || (d.tagged && (d.name != cls || d.attributes.contains a))) = true)
    (hj : (a.name, j) ∈ kvs) : Instance T a.kind j := by
  cases h with
  | one d hd is tag known required values =>
    simp only [List.all_eq_true, Bool.or_eq_true, Bool.not_eq_true', Bool.and_eq_true, bne_iff_ne, List.contains_iff_mem] at ht
    obtain ⟨h1, h2⟩ := (ht d hd).resolve_left (by simp [is])
    exact values a (h2.resolve_left (fun h => h (hn _ (tag h1)))) j hj

def listOfSubmodels : Json := .obj [(py!"modelType", .str py!"SubmodelElementList"), (py!"typeValueListElement", .str py!"Submodel")]

-- a list whose elements are to be submodels has the right format for the engine, but breaks a rule
example : (parseF jsonOps (schema none) 9 (.cls .submodelElement) ⟨listOfSubmodels, []⟩ (Res.new ⟨.title py!"Check meta model", []⟩)).map (·.2.ok) = .ok true ∧
    (checkDocument jsonOps none 9 .submodelElement ⟨listOfSubmodels, []⟩).map (·.1.ok) = .ok false := by decide +kernel

def lateEvent : Json := .obj [(py!"modelType", .str py!"BasicEventElement"),
  (py!"observed", .obj [(py!"type", .str py!"ModelReference"), (py!"keys", .arr [.obj [(py!"type", .str py!"Submodel"), (py!"value", .str py!"x")]])]),
  (py!"direction", .str py!"input"), (py!"state", .str py!"on"), (py!"lastUpdate", .str py!"2024-02-29T12:00:00+01:00")]

/-- an event that was last updated in Central European time passes -/
theorem C101_utc_violated : (checkDocument jsonOps none (lateEvent.size + 1) .submodelElement ⟨lateEvent, []⟩).map (·.1.ok) = .ok true ∧
    ¬ Instance (AcceptedText none) (.one py!"SubmodelElement") lateEvent := by
  refine ⟨by decide +kernel, fun h => ?_⟩
  have := instance_attribute h py!"BasicEventElement" (opt py!"lastUpdate" (.text .dateTimeUtc)) (.str py!"2024-02-29T12:00:00+01:00")
    (by intro n hn; revert hn; simp) (by decide +kernel) (by simp [opt])
  cases this with
  | text h => revert h; decide +kernel

def bareProperty : Json := .obj [(py!"valueType", .str py!"xs:int")]

/-- a property that does not say that it is one passes, if it is checked as a property -/
theorem C101_tag_violated : (checkDocument jsonOps none (bareProperty.size + 1) .property ⟨bareProperty, []⟩).map (·.1.ok) = .ok true ∧
    ¬ Instance (AcceptedText none) (.one py!"Property") bareProperty := by
  refine ⟨by decide +kernel, fun h => ?_⟩
  cases h with
  | one d hd is tag known required values =>
    have ht : (classes.all fun d => !(instances py!"Property").contains d.name || d.tagged) = true := by decide +kernel
    simp only [List.all_eq_true, Bool.or_eq_true, Bool.not_eq_true'] at ht
    have := tag ((ht d hd).resolve_left (by simp [is]))
    revert this
    simp

end Verif.Props
