import Verif.TemplateLemmas
import Verif.PathLemmas3

/-! # The template parser: fields -/

namespace Verif.Templates
open Verif Verif.Parse Verif.Aas Verif.Spec.Model Verif.Spec.Templates Verif.Spec.Parse Verif.Spec

variable {lim : Option Nat} {c : Cls} {v : AVal}

/-! ## semantic ids -/

theorem semantic_slot : ∀ c ∈ subclassesOf .submodelElement, slotOf c .semanticId = some (.attr py!"semanticId" (.cls .reference) false) := by
  decide +kernel

/-- the text of the first key of a reference -/
theorem firstKey {r : AVal} (h : Obj lim .reference r) : ∃ k ks s, getAttr r .keys = .ok (.list (k :: ks)) ∧ elems r .keys = k :: ks ∧
    getAttr k .value = .ok (.sfv s (txt k .value)) := by
  obtain ⟨h1, h2, h3⟩ := h.list (f := .keys) (key := py!"keys") (ty := .cls .key) rfl
  match hk : elems r .keys, h2 with
  | k :: ks, _ =>
    rw [hk] at h1 h3
    have hkey := obj_of_concrete (c := .key) rfl (h3 k (by simp))
    exact ⟨k, ks, _, getAttr_of h1, rfl, getAttr_of (hkey.sfv (f := .value) (key := py!"value") (s := .identifierString) rfl)⟩

theorem semKey_spec (h : Obj lim c v) (hs : slotOf c .semanticId = some (.attr py!"semanticId" (.cls .reference) false)) :
    semKey v = .ok (semanticId? v) := by
  rw [semKey]
  rcases h.obj? (d := .reference) rfl hs with ⟨h1, h2⟩ | ⟨h1, h2, h3⟩
  · rw [getAttr_of h1, semanticId?, Classical.not_not.mp h2]
    rfl
  · obtain ⟨k, ks, s, h4, h5, h6⟩ := firstKey h3
    rw [getAttr_of h1]
    simp only [bind, Except.bind, h3.exists.2.1, h4, h6, semanticId?, h5, pure, Except.pure]
    rfl

theorem submodelKey_spec (h : Obj lim .submodel v) : submodelKey v = .ok (semanticId? v) := by
  rw [submodelKey]
  rcases h.obj? (f := .semanticId) (key := py!"semanticId") (d := .reference) rfl rfl with ⟨h1, h2⟩ | ⟨h1, h2, h3⟩
  · rw [getAttr_of h1, semanticId?, Classical.not_not.mp h2]
    rfl
  · obtain ⟨k, ks, s, h4, h5, h6⟩ := firstKey h3
    rw [getAttr_of h1]
    simp only [bind, Except.bind, h3.exists.2.1, h4, h6, semanticId?, h5, pure, Except.pure]
    rfl

/-- the elements are grouped by semantic id, in order -/
theorem group_spec : ∀ (els : List AVal) (g : List (Str × List AVal)), (∀ x ∈ els, IsElement lim x) →
    ∃ g', group els g = .ok g' ∧ ∀ k, (dictGet k g').getD [] = (dictGet k g).getD [] ++ els.filter fun x => decide (semanticId? x = some k)
  | [], g, _ => ⟨g, rfl, by simp⟩
  | el :: els, g, h => by
    obtain ⟨c, hc, ho⟩ := h el (by simp)
    have hk := semKey_spec ho (semantic_slot c hc)
    match hs : semanticId? el with
    | none =>
      obtain ⟨g', h1, h2⟩ := group_spec els g (fun x hx => h x (by simp [hx]))
      refine ⟨g', ?_, fun k => ?_⟩
      · rw [group, hk, hs]; exact h1
      · rw [h2, List.filter_cons]; simp [hs]
    | some s =>
      obtain ⟨g', h1, h2⟩ := group_spec els (XmlA.dictSet s ((dictGet s g).getD [] ++ [el]) g) (fun x hx => h x (by simp [hx]))
      refine ⟨g', ?_, fun k => ?_⟩
      · rw [group, hk, hs]; exact h1
      · rw [h2, List.filter_cons, XmlA.dictGet_dictSet]
        by_cases e : k = s
        · subst e; simp [hs]
        · have : ¬ s = k := fun h => e h.symm
          simp [hs, this]

/-! ## nesting of the classes -/

def rank : TTy → Nat
  | .cls .contactInformations => 3
  | .cls .digitalNameplate => 3
  | .cls .contactInformation => 2
  | .cls _ => 1
  | _ => 0

theorem rank_fields (c : TCls) : ∀ f ∈ tfieldsOf c, rank f.ty < rank (.cls c) := by
  cases c <;> decide +kernel

theorem ids_nodup (c : TCls) : ((tfieldsOf c).map (·.semanticId)).Nodup := by
  cases c <;> decide +kernel

/-! ## fields -/

abbrev Rec := TTy → AVal → List PTok → Res Note → Except PyExc (TVal × Res Note)

/-- no object of the class `DigitalNameplate` -/
def PlateFree (v : TVal) : Prop := ∀ p c attrs, Nested id v p (.obj c attrs) → c ≠ .digitalNameplate

theorem Leaf.plateFree {v : TVal} (h : Leaf v) : PlateFree v := fun p _ _ hn => absurd hn (h.2.1 p _)

theorem plateFree_list (l : List TVal) : PlateFree (.list l) := by rintro _ _ _ ⟨⟩

theorem plateFree_none : PlateFree .none := by rintro _ _ _ ⟨⟩

/-- no such object in an attribute -/
def AttrFree (w : TVal) : Prop := PlateFree w ∧ ∀ l, w = .list l → ∀ x ∈ l, PlateFree x

/-- what is known about the value of an element -/
def Parsed (ty : TTy) (w : TVal) : Prop := (w ≠ .none ∧ ∀ l, w ≠ .list l) ∧ (rank ty < 3 → PlateFree w)

/-- the recursive calls do what they should -/
def Good (rec : Rec) (ty : TTy) (y : AVal) : Prop :=
  ∀ path res, Out (Raises ty y) (Fits true ty y) (Parsed ty) res (rec ty y path res)

theorem items_out {rec : Rec} {ty : TTy} {path : List PTok} : ∀ (i : Nat) (els : List AVal) (res : Res Note), (∀ y ∈ els, Good rec ty y) →
    Out (∃ y ∈ els, Raises ty y) (∀ y ∈ els, Fits true ty y) (fun vs => rank ty < 3 → ∀ w ∈ vs, PlateFree w) res (parseItems rec ty path i els res)
  | _, [], res, _ => .good (by simp) (by simp) (by simp)
  | i, el :: els, res, h => by
    rw [parseItems]
    refine ((h el (by simp) _ res).seq (V := fun vs => rank ty < 3 → ∀ w ∈ vs, PlateFree w) (f := List.cons) (fun _ r => items_out (i + 1) els r (fun y hy => h y (by simp [hy]))) ?_).congr
      (by simp) (by simp) (fun _ h => h)
    intro a b ha hb hr w hw
    rcases List.mem_cons.mp hw with rfl | hw
    · exact ha.2 hr
    · exact hb hr w hw

theorem within_iff (f : TField) (n : Nat) : Within f n ↔ ¬ (f.max.any (fun m => decide (m < n)) = true) ∧ ¬ n < f.min := by
  rw [Templates.Within]
  cases f.max with
  | none => simp
  | some m => simp; omega

theorem field_out {rec : Rec} {sub : List AVal} {path : List PTok} {f : TField} (h : ∀ y ∈ sub, Good rec f.ty y) (res : Res Note) :
    Out (Within f sub.length ∧ ∃ y ∈ sub, Raises f.ty y) (Within f sub.length ∧ ∀ y ∈ sub, Fits true f.ty y) (fun v => (v = .none ↔ sub = []) ∧ (rank f.ty < 3 → AttrFree v)) res
      (parseField rec sub path f res) := by
  rw [parseField.eq_def]
  dsimp only
  have hw := within_iff f sub.length
  by_cases h1 : f.max.any (fun m => decide (m < sub.length)) = true
  · rw [if_pos h1]
    have : ¬ Within f sub.length := fun hh => (hw.mp hh).1 h1
    exact .bad (fun h => this h.1) (fun h => this h.1)
  rw [if_neg h1]
  by_cases h2 : sub.length < f.min
  · rw [if_pos h2]
    have : ¬ Within f sub.length := fun hh => (hw.mp hh).2 h2
    exact .bad (fun h => this h.1) (fun h => this h.1)
  rw [if_neg h2]
  have hW : Within f sub.length := hw.mpr ⟨h1, h2⟩
  match sub with
  | [] => exact .good (by simp) ⟨hW, by simp⟩ ⟨by simp, fun _ => ⟨plateFree_none, by simp⟩⟩
  | el :: els =>
    dsimp only
    by_cases hm : f.max = some 1
    · rw [if_pos hm]
      have hl := hW.2 1 hm
      have : els = [] := by
        match els with
        | [] => rfl
        | _ :: _ => simp at hl
      subst this
      exact (h el (by simp) _ res).congr (by rw [and_iff_right hW]; simp) (by rw [and_iff_right hW]; simp)
        (fun w hw => ⟨by simp [hw.1.1], fun hr => ⟨hw.2 hr, fun l e => absurd e (hw.1.2 l)⟩⟩)
    · rw [if_neg hm]
      have := items_out (path := path ++ [.key (toCamelCase f.name)]) 0 (el :: els) res h
      refine ⟨fun hR => ?_, fun hR => ?_⟩
      · obtain ⟨e, hm, he⟩ := this.1 hR.2
        exact ⟨e, hm, by rw [he]; rfl⟩
      · obtain ⟨vs, notes, he, h1, h2⟩ := this.2 (fun hh => hR ⟨hW, hh⟩)
        refine ⟨.list vs, notes, by rw [he]; rfl, fun ho => by rw [h1 ho, and_iff_right hW], fun ho hn => ⟨by simp, fun hr => ⟨plateFree_list vs, fun l e => ?_⟩⟩⟩
        injection e with e
        exact e ▸ h2 ho hn hr

/-- an attribute is `None` iff no element has the semantic id of the field -/
def AttrsOk (els : List AVal) (fs : List TField) (attrs : List (Str × TVal)) : Prop :=
  attrs.map (·.1) = fs.map (·.name) ∧ ∀ p ∈ fs.zip attrs, (p.2.2 = .none ↔ matching p.1 els = []) ∧ (rank p.1.ty < 3 → AttrFree p.2.2)

theorem fields_out {rec : Rec} {els : List AVal} {path : List PTok} {g : List (Str × List AVal)}
    (hg : ∀ k, (dictGet k g).getD [] = els.filter fun x => decide (semanticId? x = some k)) :
    ∀ (fs : List TField) (seen : List Str) (res : Res Note), (fs.map (·.semanticId)).Nodup → (∀ f ∈ fs, f.semanticId ∉ seen) →
    (∀ f ∈ fs, ∀ y ∈ matching f els, Good rec f.ty y) →
    Out (∃ f ∈ fs, Within f (matching f els).length ∧ ∃ y ∈ matching f els, Raises f.ty y)
      (∀ f ∈ fs, Within f (matching f els).length ∧ ∀ y ∈ matching f els, Fits true f.ty y) (AttrsOk els fs) res
      (parseFields rec g path fs seen res)
  | [], _, res, _, _, _ => .good (by simp) (by simp) ⟨rfl, by simp⟩
  | f :: fs, seen, res, hn, hs, h => by
    rw [parseFields, if_neg (hs f (by simp)), hg]
    rw [List.map_cons, List.nodup_cons] at hn
    refine ((field_out (path := path) (h f (by simp)) res).seq (V := AttrsOk els (f :: fs)) (f := fun v vs => (f.name, v) :: vs)
      (fun _ r => fields_out hg fs (f.semanticId :: seen) r hn.2 ?_ (fun f hf => h f (by simp [hf]))) ?_).congr (by simp [matching])
      (by simp [matching]) (by simp)
    · intro f' hf' hm
      rcases List.mem_cons.mp hm with e | hm
      · exact hn.1 (e ▸ List.mem_map_of_mem hf')
      · exact hs f' (by simp [hf']) hm
    · rintro a b ha ⟨hb1, hb2⟩
      refine ⟨by simp [hb1], ?_⟩
      intro p hp
      rw [List.zip_cons_cons, List.mem_cons] at hp
      rcases hp with rfl | hp
      · exact ha
      · exact hb2 p hp

theorem elements_out {rec : Rec} {c : TCls} {els : List AVal} {path : List PTok} (he : ∀ x ∈ els, IsElement lim x)
    (h : ∀ f ∈ tfieldsOf c, ∀ y ∈ matching f els, Good rec f.ty y) (res : Res Note) :
    Out (∃ f ∈ tfieldsOf c, Within f (matching f els).length ∧ ∃ y ∈ matching f els, Raises f.ty y) (FitsAll true c els)
      (fun v => ∃ attrs, v = .obj c attrs ∧ AttrsOk els (tfieldsOf c) attrs) res (parseElements rec c els path res) := by
  obtain ⟨g, h1, h2⟩ := group_spec els [] he
  have hf := fields_out (rec := rec) (path := path) (g := g) (els := els) (by simpa [dictGet] using h2) (tfieldsOf c) [] res (ids_nodup c)
    (by simp) h
  rw [parseElements, h1]
  refine ⟨fun hR => ?_, fun hR => ?_⟩
  · obtain ⟨e, hm, he⟩ := hf.1 hR
    exact ⟨e, hm, by simp only [bind, Except.bind, he]⟩
  · obtain ⟨attrs, notes, he, ho, hv⟩ := hf.2 hR
    exact ⟨.obj c attrs, notes, by simp only [bind, Except.bind, he, pure, Except.pure], ho, fun a b => ⟨attrs, rfl, hv a b⟩⟩

theorem mem_zip_of_right {α β : Type} {b : β} : ∀ {l : List α} {l' : List β}, l'.length = l.length → b ∈ l' → ∃ a, (a, b) ∈ l.zip l'
  | [], [], _, h => by simp at h
  | _ :: _, [], _, h => by simp at h
  | [], _ :: _, h, _ => by simp at h
  | x :: l, y :: l', hl, h => by
    rcases List.mem_cons.mp h with rfl | h
    · exact ⟨x, by simp⟩
    · obtain ⟨a, ha⟩ := mem_zip_of_right (by simpa using hl) h
      exact ⟨a, by simp [ha]⟩

theorem attrs_free {c : TCls} {els : List AVal} {attrs : List (Str × TVal)} (h : AttrsOk els (tfieldsOf c) attrs) :
    ∀ a ∈ attrs, AttrFree a.2 := by
  intro a ha
  have hl : attrs.length = (tfieldsOf c).length := by simpa using congrArg List.length h.1
  obtain ⟨f, hf⟩ := mem_zip_of_right hl ha
  have hr := rank_fields c f (List.of_mem_zip hf).1
  have : rank (.cls c) ≤ 3 := by cases c <;> decide
  exact (h.2 _ hf).2 (by dsimp only; omega)

/-- below the root there is no `DigitalNameplate` -/
theorem nested_free {c : TCls} {els : List AVal} {attrs : List (Str × TVal)} (h : AttrsOk els (tfieldsOf c) attrs) {p : List PTok} {c' : TCls}
    {attrs' : List (Str × TVal)} (hn : Nested id (.obj c attrs : TVal) p (.obj c' attrs')) :
    (p = [] ∧ c' = c ∧ attrs' = attrs) ∨ c' ≠ .digitalNameplate := by
  cases hn with
  | here => exact .inl ⟨rfl, rfl, rfl⟩
  | attr hm hn => exact .inr ((attrs_free h _ hm).1 _ _ _ hn)
  | item hm hi hn => exact .inr ((attrs_free h _ hm).2 _ rfl _ (List.mem_of_getElem? hi) _ _ _ hn)

theorem plateFree_obj {c : TCls} {els : List AVal} {attrs : List (Str × TVal)} (h : AttrsOk els (tfieldsOf c) attrs) (hr : rank (.cls c) < 3) :
    PlateFree (.obj c attrs) := by
  intro p c' attrs' hn
  rcases nested_free h hn with ⟨-, rfl, -⟩ | h
  · rintro rfl; simp [rank] at hr
  · exact h

/-! ## elements -/

/-- the attribute `value` of elements -/
theorem value_kinds (h : IsElement lim v) :
    (∃ key, Obj lim .submodelElementCollection v ∧ slotOf .submodelElementCollection .value = some (.attr key (.list (.cls .submodelElement) false) false)) ∨
    (∃ key, Obj lim .submodelElementList v ∧ slotOf .submodelElementList .value = some (.attr key (.list (.cls .submodelElement) false) false)) ∨
    (className v ≠ py!"SubmodelElementCollection" ∧ className v ≠ py!"SubmodelElementList" ∧
      ((¬ HasAttr v .value ∧ ∃ e, Mishap e ∧ getAttr v .value = .error e) ∨
       (HasAttr v .value ∧ ¬ Set v .value ∧ getAttr v .value = .ok .none) ∨
       (Set v .value ∧ ∃ w, getAttr v .value = .ok w ∧ w ≠ .none ∧ ((∀ l, w ≠ .list l) ∨ ∃ x l, w = .list (x :: l) ∧ ∃ e, Mishap e ∧ semKey x = .error e)))) := by
  obtain ⟨c, hc, ho⟩ := h
  have hcls := ho.className
  have hno : ∀ {c : Cls} {v : AVal} {f : Fld}, Obj lim c v → f ∉ (fieldsOf c).map (·.name) → ¬ HasAttr v f ∧ getAttr v f = .error .attributeError := by
    intro c v f ho hf
    obtain ⟨attrs, rfl, hfs⟩ := ho.fields
    have hn := fieldsOk_names hfs
    rw [← hn] at hf
    exact ⟨hf, by rw [getAttr, lookup_none_of hf]⟩
  have hhas : ∀ {w}, attr v .value = .ok w → HasAttr v .value := by
    intro w hw
    unfold attr at hw
    split at hw
    · split at hw
      · rename_i e; exact List.mem_map_of_mem (lookup_mem e)
      · cases hw
    · cases hw
  have hsfv : ∀ {s : SfvCls}, slotOf c .value = some (.attr py!"value" (.sfv s) false) →
      (HasAttr v .value ∧ ¬ Set v .value ∧ getAttr v .value = .ok .none) ∨
       (Set v .value ∧ ∃ w, getAttr v .value = .ok w ∧ w ≠ .none ∧ ((∀ l, w ≠ .list l) ∨ ∃ x l, w = .list (x :: l) ∧ ∃ e, Mishap e ∧ semKey x = .error e)) := by
    intro s hs
    rcases ho.sfv? hs with ⟨h1, h2⟩ | ⟨h1, h2⟩
    · exact .inl ⟨hhas h1, h2, getAttr_of h1⟩
    · exact .inr ⟨h2, _, getAttr_of h1, by simp, .inl (by simp)⟩
  have hne : ∀ d : Cls, c ≠ d → className v ≠ d.pyName := fun d hd e => hd (pyName_inj (hcls.symm.trans e))
  have hcs : c = .submodelElementCollection ∨ c = .submodelElementList ∨ (c ≠ .submodelElementCollection ∧ c ≠ .submodelElementList ∧
      (Fld.value ∉ (fieldsOf c).map (·.name) ∨ (∃ s, slotOf c .value = some (.attr py!"value" (.sfv s) false)) ∨ c = .referenceElement ∨
        c = .multiLanguageProperty)) := by
    have : c ∈ [Cls.blob, .file, .multiLanguageProperty, .property, .range, .referenceElement, .relationshipElement, .annotatedRelationshipElement, .eventElement, .basicEventElement, .capability, .entity, .operation, .submodelElementCollection, .submodelElementList] := hc
    simp only [List.mem_cons, List.not_mem_nil, or_false] at this
    rcases this with rfl | rfl | rfl | rfl | rfl | rfl | rfl | rfl | rfl | rfl | rfl | rfl | rfl | rfl | rfl
    · exact .inr (.inr ⟨by decide, by decide, .inr (.inl ⟨_, rfl⟩)⟩)
    · exact .inr (.inr ⟨by decide, by decide, .inr (.inl ⟨_, rfl⟩)⟩)
    · exact .inr (.inr ⟨by decide, by decide, .inr (.inr (.inr rfl))⟩)
    · exact .inr (.inr ⟨by decide, by decide, .inr (.inl ⟨_, rfl⟩)⟩)
    · exact .inr (.inr ⟨by decide, by decide, .inl (by decide)⟩)
    · exact .inr (.inr ⟨by decide, by decide, .inr (.inr (.inl rfl))⟩)
    iterate 7 exact .inr (.inr ⟨by decide, by decide, .inl (by decide)⟩)
    · exact .inl rfl
    · exact .inr (.inl rfl)
  rcases hcs with rfl | rfl | ⟨h1, h2, hk⟩
  · exact .inl ⟨_, ho, rfl⟩
  · exact .inr (.inl ⟨_, ho, rfl⟩)
  · refine .inr (.inr ⟨hne .submodelElementCollection h1, hne .submodelElementList h2, ?_⟩)
    rcases hk with hk | ⟨s, hs⟩ | rfl | rfl
    · have := hno ho hk
      exact .inl ⟨this.1, _, .inl rfl, this.2⟩
    · exact .inr (hsfv hs)
    · refine .inr ?_
      rcases ho.obj? (f := .value) (key := py!"value") (d := .reference) rfl rfl with ⟨h1, h2⟩ | ⟨h1, h2, h3⟩
      · exact .inl ⟨hhas h1, h2, getAttr_of h1⟩
      · refine .inr ⟨h2, _, getAttr_of h1, h3.exists.1, .inl ?_⟩
        obtain ⟨attrs, e, -⟩ := h3.fields
        rw [e]; simp
    · refine .inr ?_
      rcases ho.list? (f := .value) (key := py!"value") (ty := .cls .multiLanguageTextType) rfl with ⟨h1, h2, -⟩ | ⟨h1, h2, h3, h4⟩
      · exact .inl ⟨hhas h1, h2, getAttr_of h1⟩
      · refine .inr ⟨h2, _, getAttr_of h1, by simp, .inr ?_⟩
        match elems v .value, h3, h4 with
        | x :: l, _, h4 =>
          refine ⟨x, l, rfl, ?_⟩
          have := obj_of_concrete (c := .multiLanguageTextType) rfl (h4 x (by simp))
          refine ⟨.attributeError, .inl rfl, ?_⟩
          rw [semKey, (hno this (by decide)).2]
          rfl

/-- every element -/
theorem tparse_out : ∀ (n : Nat) (ty : TTy) (el : AVal), rank ty < n → IsElement lim el → Good (tparse n) ty el
  | n + 1, ty, el, hr, he => by
    intro path res
    obtain ⟨c', hc', ho⟩ := id he
    match ty with
    | .lang => exact (lang_out ho path res).congr .rfl .rfl (fun w hw => ⟨⟨hw.1, hw.2.2⟩, fun _ => hw.plateFree⟩)
    | .str => exact (string_out ho path res).congr .rfl .rfl (fun w hw => ⟨⟨hw.1, hw.2.2⟩, fun _ => hw.plateFree⟩)
    | .date => exact (date_out ho path res).congr .rfl .rfl (fun w hw => ⟨⟨hw.1, hw.2.2⟩, fun _ => hw.plateFree⟩)
    | .enum e => exact (enum_out ho e path res).congr .rfl .rfl (fun w hw => ⟨⟨hw.1, hw.2.2⟩, fun _ => hw.plateFree⟩)
    | .cls c =>
      have hcoll : ∀ {d : Cls} {key : Str}, Obj lim d el → slotOf d .value = some (.attr key (.list (.cls .submodelElement) false) false) →
          (d = .submodelElementCollection ∨ d = .submodelElementList) →
          Out (Raises (.cls c) el) (Fits true (.cls c) el) (Parsed (.cls c)) res (tparse (n + 1) (.cls c) el path res) := by
        intro d key ho hs hd
        have hname : className el = py!"SubmodelElementCollection" ∨ className el = py!"SubmodelElementList" := by
          rw [ho.className]
          rcases hd with rfl | rfl
          · exact .inl rfl
          · exact .inr rfl
        rw [tparse]
        rcases ho.list? hs with ⟨h1, h2, h3⟩ | ⟨h1, h2, h3, h4⟩
        · rw [getAttr_of h1]
          refine .bad ?_ ?_
          · intro hh
            cases hh with
            | noCollection h1 h2 h3 => exact hname.elim h1 h2
            | deeper h1 _ _ hm _ => rw [h3] at hm; simp [matching] at hm
          · rintro ⟨⟩
            rename_i hC _ _
            exact h2 (hC.2 rfl)
        · rw [getAttr_of h1]
          have hC : Collection true el := ⟨hname.imp id (⟨rfl, ·⟩), fun _ => h2⟩
          refine (elements_out (rec := tparse n) (c := c) (path := path) (fun x hx => isElement_of_typed (h4 x hx)) ?_ res).congr ?_ ?_ ?_
          · intro f hf y hy
            have := rank_fields c f hf
            exact tparse_out n f.ty y (by omega) (isElement_of_typed (h4 y (List.mem_filter.mp hy).1))
          · constructor
            · rintro ⟨f, hf, hW, y, hy, hR⟩
              exact .deeper hC hf hW hy hR
            · intro hh
              cases hh with
              | noCollection h1 h2 h3 => exact (hname.elim h1 h2).elim
              | deeper h1 hf hW hm hR => exact ⟨_, hf, hW, _, hm, hR⟩
          · constructor
            · intro h
              exact .cls hC (fun f hf => (h f hf).1) (fun f hf => (h f hf).2)
            · rintro ⟨⟩
              rename_i _ h1 h2
              exact fun f hf => ⟨h1 f hf, h2 f hf⟩
          · rintro w ⟨attrs, rfl, hA⟩
            exact ⟨⟨by simp, by simp⟩, plateFree_obj hA⟩
      rcases value_kinds he with ⟨key, ho, hs⟩ | ⟨key, ho, hs⟩ | ⟨h1, h2, hk⟩
      · exact hcoll ho hs (.inl rfl)
      · exact hcoll ho hs (.inr rfl)
      · have hF : ¬ Fits true (.cls c) el := by
          rintro ⟨⟩
          rename_i hC _ _
          exact hC.1.elim h1 (fun h => h2 h.2)
        rw [tparse]
        rcases hk with ⟨h3, e, hm, he⟩ | ⟨h3, h4, he⟩ | ⟨h3, w, he, hw, hl⟩
        · rw [he]
          exact .raise (.noCollection h1 h2 (.inr h3)) hm
        · rw [he]
          refine .bad ?_ hF
          intro hh
          cases hh with
          | noCollection _ _ h => exact h.elim h4 (fun h => h h3)
          | deeper h _ _ _ _ => exact h.1.elim h1 (fun h => h2 h.2)
        · rw [he]
          have hR : Raises (.cls c) el := .noCollection h1 h2 (.inl h3)
          refine ⟨fun _ => ?_, fun h => absurd hR h⟩
          simp only [bind, Except.bind]
          split
          · exact absurd rfl hw
          · rename_i l
            rcases hl with hl | ⟨x, l', e, e', hm, hx⟩
            · exact absurd rfl (hl l)
            · injection e with e
              subst e
              rw [parseElements, group, hx]
              exact ⟨_, hm, rfl⟩
          · exact ⟨_, .inr (.inl rfl), rfl⟩

end Verif.Templates
