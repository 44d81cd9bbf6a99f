import Verif.Spec.Mentioned
import Verif.TemplateTellLemmas

/-! # Submodels that are the same for a template -/

namespace Verif.Templates.Mentioned
open Verif Verif.Parse Verif.Aas Verif.Spec.Model Verif.Spec.Templates Verif.Spec.Parse Verif.Spec Verif.Templates

variable {W : Words} {lim : Option Nat}

theorem isInst_same {x y : AVal} (hx : IsElement lim x) (hy : IsElement lim y) (d : Cls) (h : className x = d.pyName ↔ className y = d.pyName) :
    isInst d x = isInst d y := by
  obtain ⟨c, -, hx⟩ := hx
  obtain ⟨c', -, hy⟩ := hy
  rw [Bool.eq_iff_iff, isInst_iff hx, isInst_iff hy, h]

/-- what is known of two properties with the same text -/
theorem property_same {x y : AVal} (hx : IsElement lim x) (hy : IsElement lim y) (h : SameText x y) (hi : isInst .property x = true) :
    getAttr x .value = getAttr y .value ∧ getAttr x .valueType = getAttr y .valueType := by
  obtain ⟨c, -, hx⟩ := hx
  obtain ⟨c', -, hy⟩ := hy
  have hn := (isInst_iff hx .property).mp hi
  have hc := cls_of hx .property hn
  subst hc
  have hn' := h.1.mp hn
  have hc := cls_of hy .property hn'
  subst hc
  obtain ⟨h1, h2, h3⟩ := h.2 hn
  constructor
  · rcases hx.sfv? (f := .value) (key := py!"value") (s := .valueDataType) rfl with ⟨a1, a2⟩ | ⟨a1, a2⟩ <;>
      rcases hy.sfv? (f := .value) (key := py!"value") (s := .valueDataType) rfl with ⟨b1, b2⟩ | ⟨b1, b2⟩
    · rw [getAttr_of a1, getAttr_of b1]
    · exact absurd (h1.mpr b2) a2
    · exact absurd (h1.mp a2) b2
    · rw [getAttr_of a1, getAttr_of b1, h2]
  · rw [getAttr_of (hx.enum (f := .valueType) (key := py!"valueType") rfl).1, getAttr_of (hy.enum (f := .valueType) (key := py!"valueType") rfl).1, h3]

theorem string_same {x y : AVal} (hx : IsElement lim x) (hy : IsElement lim y) (h : SameText x y) (path : List PTok) (res : Res Str) :
    tellString x path res = tellString y path res := by
  have hi := isInst_same hx hy .property h.1
  rw [tellString, tellString, ← hi]
  by_cases hp : isInst .property x = true
  · obtain ⟨h1, h2⟩ := property_same hx hy h hp
    rw [h1, h2]
  · rw [Bool.not_eq_true] at hp; rw [hp]; rfl

theorem date_same {x y : AVal} (hx : IsElement lim x) (hy : IsElement lim y) (h : SameText x y) (path : List PTok) (res : Res Str) :
    tellDate x path res = tellDate y path res := by
  have hi := isInst_same hx hy .property h.1
  rw [tellDate, tellDate, ← hi]
  by_cases hp : isInst .property x = true
  · obtain ⟨h1, h2⟩ := property_same hx hy h hp
    rw [h1, h2]
  · rw [Bool.not_eq_true] at hp; rw [hp]; rfl

theorem lang_same {x y : AVal} (hx : IsElement lim x) (hy : IsElement lim y)
    (h1 : className x = py!"MultiLanguageProperty" ↔ className y = py!"MultiLanguageProperty")
    (h2 : className x = py!"MultiLanguageProperty" → (Set x .value ↔ Set y .value)) (path : List PTok) (res : Res Str) :
    tellLang x path res = tellLang y path res := by
  have hi := isInst_same hx hy .multiLanguageProperty h1
  rw [tellLang, tellLang, ← hi]
  by_cases hp : isInst .multiLanguageProperty x = true
  · obtain ⟨c, -, hx⟩ := hx
    obtain ⟨c', -, hy⟩ := hy
    have hn := (isInst_iff hx .multiLanguageProperty).mp hp
    have hc := cls_of hx .multiLanguageProperty hn
    subst hc
    have hc := cls_of hy .multiLanguageProperty (h1.mp hn)
    subst hc
    have hs := h2 hn
    rw [hp]
    rcases hx.list? (f := .value) (key := py!"value") (ty := .cls .multiLanguageTextType) rfl with ⟨a1, a2, -⟩ | ⟨a1, a2, a3, -⟩ <;>
      rcases hy.list? (f := .value) (key := py!"value") (ty := .cls .multiLanguageTextType) rfl with ⟨b1, b2, -⟩ | ⟨b1, b2, b3, -⟩
    · rw [getAttr_of a1, getAttr_of b1]
    · exact absurd (hs.mpr b2) a2
    · exact absurd (hs.mp a2) b2
    · rw [getAttr_of a1, getAttr_of b1]
      simp only [bind, Except.bind]
      match elems x .value, a3, elems y .value, b3 with
      | _ :: _, _, _ :: _, _ => rfl
  · rw [Bool.not_eq_true] at hp; rw [hp]; rfl

/-! ## fields -/

abbrev TRec := TTy → AVal → List PTok → Res Str → Except PyExc (TVal × Res Str)

/-- the elements of two lists lead to the same -/
def Pairwise (rec : TRec) (ty : TTy) (sub sub' : List AVal) : Prop :=
  sub.length = sub'.length ∧ ∀ p ∈ sub.zip sub', ∀ path res, rec ty p.1 path res = rec ty p.2 path res

theorem items_same {rec : TRec} {ty : TTy} {path : List PTok} : ∀ (i : Nat) (sub sub' : List AVal) (res : Res Str), Pairwise rec ty sub sub' →
    tellItems rec ty path i sub res = tellItems rec ty path i sub' res
  | _, [], [], _, _ => rfl
  | _, [], _ :: _, _, h => by simp [Pairwise] at h
  | _, _ :: _, [], _, h => by simp [Pairwise] at h
  | i, x :: sub, y :: sub', res, ⟨h1, h2⟩ => by
    have ih := fun r => items_same (path := path) (i + 1) sub sub' r ⟨by simpa using h1, fun p hp => h2 p (by simp [hp])⟩
    simp only [tellItems, h2 (x, y) (by simp), ih]

theorem field_same {rec : TRec} {path : List PTok} {f : TField} {sub sub' : List AVal} (h : Pairwise rec f.ty sub sub') (res : Res Str) :
    tellField rec sub path f res = tellField rec sub' path f res := by
  rw [tellField.eq_def, tellField.eq_def]
  dsimp only
  rw [← h.1]
  split
  · rfl
  · split
    · rfl
    · match sub, sub', h with
      | [], [], _ => rfl
      | [], _ :: _, h => simp [Pairwise] at h
      | _ :: _, [], h => simp [Pairwise] at h
      | x :: sub, y :: sub', h =>
        dsimp only
        split
        · exact h.2 (x, y) (by simp) _ _
        · rw [items_same 0 _ _ _ h]

theorem fields_same {rec : TRec} {els els' : List AVal} {path : List PTok} {g g' : List (Str × List AVal)}
    (hg : ∀ k, (dictGet k g).getD [] = els.filter fun x => decide (semanticId? x = some k))
    (hg' : ∀ k, (dictGet k g').getD [] = els'.filter fun x => decide (semanticId? x = some k)) :
    ∀ (fs : List TField) (seen : List Str) (res : Res Str), (∀ f ∈ fs, Pairwise rec f.ty (matching f els) (matching f els')) →
      tellFields rec g path fs seen res = tellFields rec g' path fs seen res
  | [], _, _, _ => rfl
  | f :: fs, seen, res, h => by
    have h1 := fun r => field_same (path := path) (h f (by simp)) r
    have ih := fun r => fields_same hg hg' (path := path) fs (f.semanticId :: seen) r (fun f hf => h f (by simp [hf]))
    rw [matching, matching] at h1
    simp only [tellFields, hg, hg', h1, ih]

theorem elements_same {rec : TRec} {c : TCls} {els els' : List AVal} {path : List PTok} (he : ∀ x ∈ els, IsElement lim x)
    (he' : ∀ x ∈ els', IsElement lim x) (h : ∀ f ∈ tfieldsOf c, Pairwise rec f.ty (matching f els) (matching f els')) (res : Res Str) :
    tellElements rec c els path res = tellElements rec c els' path res := by
  obtain ⟨g, h1, h2⟩ := group_spec els [] he
  obtain ⟨g', h1', h2'⟩ := group_spec els' [] he'
  have := fields_same (rec := rec) (path := path) (els := els) (els' := els') (g := g) (g' := g') (by simpa [dictGet] using h2) (by simpa [dictGet] using h2')
    (tfieldsOf c) [] res h
  rw [tellElements, tellElements, h1, h1']
  simp only [bind, Except.bind, this]

/-! ## elements -/

/-- the attribute `value` of two elements of the same class -/
theorem value_same {x y : AVal} (hx : IsElement lim x) (hy : IsElement lim y) (hc : className x = className y) (hs : Set x .value ↔ Set y .value) :
    (∃ e, getAttr x .value = .error e ∧ getAttr y .value = .error e) ∨
    (getAttr x .value = .ok .none ∧ getAttr y .value = .ok .none) ∨
    (∃ l l', getAttr x .value = .ok (.list l) ∧ getAttr y .value = .ok (.list l') ∧ l = elems x .value ∧ l' = elems y .value ∧
      (∀ z ∈ l, IsElement lim z) ∧ ∀ z ∈ l', IsElement lim z) ∨
    (∃ w w', getAttr x .value = .ok w ∧ getAttr y .value = .ok w' ∧ (w ≠ .none ∧ ∀ l, w ≠ .list l) ∧ (w' ≠ .none ∧ ∀ l, w' ≠ .list l)) ∨
    (∃ z l z' l' e, getAttr x .value = .ok (.list (z :: l)) ∧ getAttr y .value = .ok (.list (z' :: l')) ∧ semKey z = .error e ∧ semKey z' = .error e) := by
  obtain ⟨c, hm, hx⟩ := hx
  obtain ⟨c', -, hy⟩ := hy
  have : c' = c := pyName_inj (by rw [← hx.className, ← hy.className, hc])
  subst this
  have hno : ∀ {c : Cls} {v : AVal} {f : Fld}, Obj lim c v → f ∉ (fieldsOf c).map (·.name) → getAttr v f = .error .attributeError := by
    intro c v f ho hf
    obtain ⟨attrs, rfl, hfs⟩ := ho.fields
    have hn := fieldsOk_names hfs
    rw [← hn] at hf
    rw [getAttr, lookup_none_of hf]
  have hcs : slotOf c' .value = some (.attr py!"value" (.list (.cls .submodelElement) false) false) ∨ (Fld.value ∉ (fieldsOf c').map (·.name)) ∨
      (∃ s, slotOf c' .value = some (.attr py!"value" (.sfv s) false)) ∨ c' = .referenceElement ∨ c' = .multiLanguageProperty := by
    have : c' ∈ [Cls.blob, .file, .multiLanguageProperty, .property, .range, .referenceElement, .relationshipElement, .annotatedRelationshipElement, .eventElement, .basicEventElement, .capability, .entity, .operation, .submodelElementCollection, .submodelElementList] := hm
    simp only [List.mem_cons, List.not_mem_nil, or_false] at this
    rcases this with rfl | rfl | rfl | rfl | rfl | rfl | rfl | rfl | rfl | rfl | rfl | rfl | rfl | rfl | rfl
    · exact .inr (.inr (.inl ⟨_, rfl⟩))
    · exact .inr (.inr (.inl ⟨_, rfl⟩))
    · exact .inr (.inr (.inr (.inr rfl)))
    · exact .inr (.inr (.inl ⟨_, rfl⟩))
    · exact .inr (.inl (by decide))
    · exact .inr (.inr (.inr (.inl rfl)))
    iterate 7 exact .inr (.inl (by decide))
    · exact .inl rfl
    · exact .inl rfl
  rcases hcs with hk | hk | ⟨s, hk⟩ | rfl | rfl
  · rcases hx.list? hk with ⟨a1, a2, -⟩ | ⟨a1, a2, a3, a4⟩ <;> rcases hy.list? hk with ⟨b1, b2, -⟩ | ⟨b1, b2, b3, b4⟩
    · exact .inr (.inl ⟨getAttr_of a1, getAttr_of b1⟩)
    · exact absurd (hs.mpr b2) a2
    · exact absurd (hs.mp a2) b2
    · exact .inr (.inr (.inl ⟨_, _, getAttr_of a1, getAttr_of b1, rfl, rfl, fun z hz => isElement_of_typed (a4 z hz), fun z hz => isElement_of_typed (b4 z hz)⟩))
  · exact .inl ⟨_, hno hx hk, hno hy hk⟩
  · rcases hx.sfv? hk with ⟨a1, a2⟩ | ⟨a1, a2⟩ <;> rcases hy.sfv? hk with ⟨b1, b2⟩ | ⟨b1, b2⟩
    · exact .inr (.inl ⟨getAttr_of a1, getAttr_of b1⟩)
    · exact absurd (hs.mpr b2) a2
    · exact absurd (hs.mp a2) b2
    · exact .inr (.inr (.inr (.inl ⟨_, _, getAttr_of a1, getAttr_of b1, by simp, by simp⟩)))
  · rcases hx.obj? (f := .value) (key := py!"value") (d := .reference) rfl rfl with ⟨a1, a2⟩ | ⟨a1, a2, a3⟩ <;>
      rcases hy.obj? (f := .value) (key := py!"value") (d := .reference) rfl rfl with ⟨b1, b2⟩ | ⟨b1, b2, b3⟩
    · exact .inr (.inl ⟨getAttr_of a1, getAttr_of b1⟩)
    · exact absurd (hs.mpr b2) a2
    · exact absurd (hs.mp a2) b2
    · refine .inr (.inr (.inr (.inl ⟨_, _, getAttr_of a1, getAttr_of b1, ?_, ?_⟩)))
      · obtain ⟨attrs, e, -⟩ := a3.fields; rw [e]; simp
      · obtain ⟨attrs, e, -⟩ := b3.fields; rw [e]; simp
  · rcases hx.list? (f := .value) (key := py!"value") (ty := .cls .multiLanguageTextType) rfl with ⟨a1, a2, -⟩ | ⟨a1, a2, a3, a4⟩ <;>
      rcases hy.list? (f := .value) (key := py!"value") (ty := .cls .multiLanguageTextType) rfl with ⟨b1, b2, -⟩ | ⟨b1, b2, b3, b4⟩
    · exact .inr (.inl ⟨getAttr_of a1, getAttr_of b1⟩)
    · exact absurd (hs.mpr b2) a2
    · exact absurd (hs.mp a2) b2
    · refine .inr (.inr (.inr (.inr ?_)))
      have key : ∀ z, HasType (schema lim) (.cls .multiLanguageTextType) z → semKey z = .error .attributeError := by
        intro z hz
        rw [semKey, hno (obj_of_concrete (c := .multiLanguageTextType) rfl hz) (by decide)]
        rfl
      rw [getAttr_of a1, getAttr_of b1]
      match elems x .value, a3, a4, elems y .value, b3, b4 with
      | z :: l, _, a4, z' :: l', _, b4 => exact ⟨z, l, z', l', _, rfl, rfl, key z (a4 z (by simp)), key z' (b4 z' (by simp))⟩

/-- elements that are the same for a type lead to the same -/
theorem ttell_same : ∀ (n : Nat) (ty : TTy) (x y : AVal), rank ty < n → IsElement lim x → IsElement lim y → SameFor ty x y → ∀ path res,
    ttell W n ty x path res = ttell W n ty y path res
  | n + 1, ty, x, y, hr, hx, hy, h, path, res => by
    cases h with
    | str h => exact string_same hx hy h path res
    | date h => exact date_same hx hy h path res
    | enum h => simp only [ttell, tellEnum, string_same hx hy h]
    | lang h1 h2 => exact lang_same hx hy h1 h2 path res
    | @cls c _ _ h1 h2 h3 h4 =>
      rw [ttell, ttell]
      rcases value_same hx hy h1 h2 with ⟨e, a, b⟩ | ⟨a, b⟩ | ⟨l, l', a, b, rfl, rfl, hl, hl'⟩ | ⟨w, w', a, b, hw, hw'⟩ | ⟨z, l, z', l', e, a, b, hz, hz'⟩
      · rw [a, b]
      · rw [a, b]
      · rw [a, b]
        simp only [bind, Except.bind]
        refine elements_same hl hl' (fun f hf => ⟨h3 f hf, fun p hp path res => ?_⟩) res
        have := rank_fields c f hf
        obtain ⟨m1, m2⟩ := List.of_mem_zip hp
        exact ttell_same n f.ty p.1 p.2 (by omega) (hl _ (List.mem_filter.mp m1).1) (hl' _ (List.mem_filter.mp m2).1) (h4 f hf p hp) path res
      · rw [a, b]
        simp only [bind, Except.bind]
        cases w <;> first | exact absurd rfl hw.1 | exact absurd rfl (hw.2 _) | skip <;>
          cases w' <;> first | exact absurd rfl hw'.1 | exact absurd rfl (hw'.2 _) | rfl
      · rw [a, b]
        simp only [bind, Except.bind, tellElements, group, hz, hz']

theorem submodel_same {c : TCls} {x y : AVal} (hx : Obj lim .submodel x) (hy : Obj lim .submodel y) (h : SameSubmodel c x y) (res : Res Str) :
    tellSubmodel W c x res = tellSubmodel W c y res := by
  rw [tellSubmodel, tellSubmodel]
  rcases hx.list? value_slots.2.2 with ⟨a1, a2, -⟩ | ⟨a1, a2, a3, a4⟩ <;> rcases hy.list? value_slots.2.2 with ⟨b1, b2, -⟩ | ⟨b1, b2, b3, b4⟩
  · rw [getAttr_of a1, getAttr_of b1]
  · exact absurd (h.elements.mpr b2) a2
  · exact absurd (h.elements.mp a2) b2
  · rw [getAttr_of a1, getAttr_of b1]
    simp only [bind, Except.bind]
    refine elements_same (fun z hz => isElement_of_typed (a4 z hz)) (fun z hz => isElement_of_typed (b4 z hz))
      (fun f hf => ⟨(h.same f hf).1, fun p hp path res => ?_⟩) res
    have := rank_fields c f hf
    have : rank (.cls c) ≤ 3 := by cases c <;> decide
    obtain ⟨m1, m2⟩ := List.of_mem_zip hp
    exact ttell_same depth f.ty p.1 p.2 (by unfold depth; omega) (isElement_of_typed (a4 _ (List.mem_filter.mp m1).1))
      (isElement_of_typed (b4 _ (List.mem_filter.mp m2).1)) ((h.same f hf).2 p hp) path res

/-! ## submodels -/

theorem one_same {sid : Str} {c : TCls} {x y : AVal} (hx : Obj lim .submodel x) (hy : Obj lim .submodel y) (hs : semanticId? x = some sid)
    (ht : (sid, c) ∈ templates) (h : SameSubmodel c x y) (root : Res Str) : tellOne W root x = tellOne W root y := by
  rw [tellOne, tellOne, submodelKey_spec hx, submodelKey_spec hy, ← h.semanticId, hs, getAttr_of (hx.sfv (f := .id) (key := py!"id") (s := .identifierString) rfl),
    getAttr_of (hy.sfv (f := .id) (key := py!"id") (s := .identifierString) rfl), h.id]
  simp only [bind, Except.bind, dictGet_templates.mpr ht, submodel_same hx hy h]

theorem templated_cons (x : AVal) (l : List AVal) : templated (x :: l) = templated [x] ++ templated l := by
  rw [templated, templated, templated, List.filterMap_cons, List.filterMap_cons, List.filterMap_nil]
  split <;> rfl

theorem mem_templated {x : AVal} {p : AVal × TCls} (h : p ∈ templated [x]) : p.1 = x ∧ ∃ sid, semanticId? x = some sid ∧ (sid, p.2) ∈ templates := by
  simp only [templated, List.filterMap_cons, List.filterMap_nil] at h
  match hs : semanticId? x, h with
  | none, h => simp at h
  | some sid, h =>
    simp only [Option.bind_some] at h
    match hf : templates.find? fun t => decide (t.1 = sid), h with
    | none, h => simp [hf] at h
    | some t, h =>
      simp only [hf, Option.map_some, List.mem_singleton] at h
      subst h
      have h1 := List.mem_of_find?_eq_some hf
      have h2 : t.1 = sid := by simpa using List.find?_some hf
      exact ⟨rfl, sid, rfl, by rw [← h2]; exact h1⟩

/-- submodels without a template are skipped -/
theorem one_skip {x : AVal} (hx : Obj lim .submodel x) (h : templated [x] = []) (root : Res Str) : tellOne W root x = .ok root := by
  rw [tellOne, submodelKey_spec hx, getAttr_of (hx.sfv (f := .id) (key := py!"id") (s := .identifierString) rfl)]
  match hs : semanticId? x with
  | none => rfl
  | some sid =>
    simp only [bind, Except.bind]
    match hd : dictGet sid templates with
    | none => rfl
    | some c =>
      have hm := dictGet_templates.mp hd
      simp only [templated, List.filterMap_cons, List.filterMap_nil, hs, Option.bind_some] at h
      match hf : templates.find? fun t => decide (t.1 = sid), h with
      | some t, h => simp [hf] at h
      | none, _ => exact absurd (List.find?_eq_none.mp hf _ hm) (by simp)

/-- only the submodels with a template matter -/
theorem all_templated : ∀ (l : List AVal) (root : Res Str), (∀ x ∈ l, Obj lim .submodel x) →
    tellAll W root l = tellAll W root ((templated l).map (·.1))
  | [], _, _ => rfl
  | x :: l, root, h => by
    have ih := fun r => all_templated l r (fun y hy => h y (by simp [hy]))
    rw [templated_cons, List.map_append, tellAll]
    match ht : templated [x] with
    | [] =>
      rw [one_skip (h x (by simp)) ht]
      exact ih root
    | p :: ps =>
      have hp := (mem_templated (x := x) (p := p) (by rw [ht]; simp)).1
      have hl : ps = [] := by
        have := congrArg List.length ht
        simp only [templated, List.filterMap_cons, List.filterMap_nil] at this
        match ps with
        | [] => rfl
        | _ :: _ => split at this <;> simp at this
      rw [hl, List.map_cons, List.map_nil, List.cons_append, List.nil_append, tellAll, hp]
      simp only [ih]

theorem pairs_same : ∀ (l l' : List (AVal × TCls)) (root : Res Str), l.length = l'.length →
    (∀ p ∈ l.zip l', ∀ r, tellOne W r p.1.1 = tellOne W r p.2.1) → tellAll W root (l.map (·.1)) = tellAll W root (l'.map (·.1))
  | [], [], _, _, _ => rfl
  | [], _ :: _, _, h, _ => by simp at h
  | _ :: _, [], _, h, _ => by simp at h
  | a :: l, b :: l', root, hl, h => by
    have ih := fun r => pairs_same l l' r (by simpa using hl) (fun p hp => h p (by simp [hp]))
    simp only [List.map_cons, tellAll, h (a, b) (by simp), ih]

theorem templated_mem {l : List AVal} {p : AVal × TCls} (h : p ∈ templated l) : p.1 ∈ l ∧ ∃ sid, semanticId? p.1 = some sid ∧ (sid, p.2) ∈ templates := by
  induction l with
  | nil => simp [templated] at h
  | cons x l ih =>
    rw [templated_cons, List.mem_append] at h
    rcases h with h | h
    · obtain ⟨h1, h2⟩ := mem_templated h
      exact ⟨by simp [h1], by rw [h1]; exact h2⟩
    · exact ⟨by simp [(ih h).1], (ih h).2⟩

/-- the submodels of an environment -/
theorem submodels_of {env : AVal} (h : HasType (schema lim) (.cls .environment) env) (root : Res Str) :
    tellTemplates W root env = tellAll W root ((templated (elems env .submodels)).map (·.1)) ∧ ∀ x ∈ elems env .submodels, Obj lim .submodel x := by
  rw [tellTemplates]
  rcases (obj_of_concrete (c := .environment) rfl h).list? (f := .submodels) (key := py!"submodels") (ty := .cls .submodel) rfl with
    ⟨h1, h2, h3⟩ | ⟨h1, h2, h3, h4⟩
  · rw [getAttr_of h1, h3]
    exact ⟨rfl, by simp⟩
  · have ho : ∀ x ∈ elems env .submodels, Obj lim .submodel x := fun x hx => obj_of_concrete (c := .submodel) rfl (h4 x hx)
    rw [getAttr_of h1]
    exact ⟨all_templated _ root ho, ho⟩

/-! ## examples of submodels that are the same -/

theorem zip_self {α : Type} : ∀ (l : List α), ∀ p ∈ l.zip l, p.1 = p.2
  | [], p, h => by simp at h
  | a :: l, p, h => by
    rw [List.zip_cons_cons, List.mem_cons] at h
    rcases h with rfl | h
    · rfl
    · exact zip_self l p h

theorem sameText_refl (x : AVal) : SameText x x := ⟨Iff.rfl, fun _ => ⟨Iff.rfl, rfl, rfl⟩⟩

theorem sameFor_refl : ∀ (n : Nat) (ty : TTy) (x : AVal), rank ty < n → SameFor ty x x
  | n + 1, ty, x, hr => by
    match ty with
    | .str => exact .str (sameText_refl x)
    | .date => exact .date (sameText_refl x)
    | .enum e => exact .enum (sameText_refl x)
    | .lang => exact .lang Iff.rfl (fun _ => Iff.rfl)
    | .cls c =>
      refine .cls rfl Iff.rfl (fun _ _ => rfl) (fun f hf p hp => ?_)
      have := rank_fields c f hf
      rw [zip_self _ p hp]
      exact sameFor_refl n f.ty _ (by omega)

/-- lists with the same elements for each field -/
theorem sameElements_of {c : TCls} {els els' : List AVal} (h : ∀ f ∈ tfieldsOf c, matching f els = matching f els') : SameElements c els els' := by
  intro f hf
  rw [h f hf]
  refine ⟨rfl, fun p hp => ?_⟩
  rw [zip_self _ p hp]
  exact sameFor_refl (rank f.ty + 1) f.ty _ (Nat.lt_succ_self _)

end Verif.Templates.Mentioned
