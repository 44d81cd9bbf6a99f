import Verif.Model
import Verif.ParseJson2
import Verif.ParseLemmas3
import Verif.Props.Strings

/-! # The schema of the meta-model: assumptions of the parser theorems, typed access to attributes, `post_parse` -/

namespace Verif.Aas
open Verif Verif.Parse Verif.Spec.Parse

/-! ## the schema -/

theorem no_modelType : ∀ c, (allKeys (fieldsOf c)).contains py!"modelType" = false := by
  intro c; cases c <;> decide +kernel

theorem keys_nodup : ∀ c, (allKeys (fieldsOf c)).Nodup := by
  intro c; cases c <;> decide +kernel

theorem names_nodup : ∀ c, ((fieldsOf c).map (·.name)).Nodup := by
  intro c; cases c <;> decide +kernel

theorem subclass_names_nodup : ∀ c, ((subclassesOf c).map Cls.pyName).Nodup := by
  intro c; cases c <;> decide +kernel

def supportedB : ATy → Bool
  | .none | .number | .bytes => false
  | .list it _ => supportedB it
  | _ => true

theorem supportedB_iff : ∀ t, supportedB t = true → Supported t
  | .str, _ => trivial
  | .bool, _ => trivial
  | .any, _ => trivial
  | .enum _, _ => trivial
  | .sfv _, _ => trivial
  | .cls _, _ => trivial
  | .none, h => by simp [supportedB] at h
  | .number, h => by simp [supportedB] at h
  | .bytes, h => by simp [supportedB] at h
  | .list it _, h => by
    simp only [supportedB] at h
    exact supportedB_iff it h

theorem all_supported : ∀ c, (fieldsOf c).all (fun f => match f.slot with
    | .attr _ ty _ => supportedB ty
    | .excluded => true) = true := by
  intro c; cases c <;> decide +kernel

theorem supported (lim : Option Nat) : (schema lim).Supported where
  types c f key ty req h := by
    have := all_supported c
    rw [List.all_eq_true] at this
    exact supportedB_iff _ (this _ h)
  strings c s e h := by
    rcases Props.C27_rejects lim c s with h' | h'
    · change construct lim c s = _ at h; rw [h'] at h; cases h
    · change construct lim c s = _ at h; rw [h'] at h; cases h; rfl

theorem distinctKeys (lim : Option Nat) : DistinctKeys (schema lim) := keys_nodup

/-! ## attributes -/

/-- a field of a class is found among the attributes of an object -/
theorem lookup_typed {sc : Schema Cls EnumCls SfvCls Fld} {fs : List AField} {attrs : List (Fld × AVal)} (h : FieldsOk sc fs attrs)
    (hn : (fs.map (·.name)).Nodup) {f : Fld} {slot} (hm : ⟨f, slot⟩ ∈ fs) :
    ∃ w, lookup f attrs = some w ∧ FieldOk sc ⟨f, slot⟩ (f, w) := by
  induction h with
  | nil => simp at hm
  | @cons g a fs as hok _ ih =>
    obtain ⟨a1, a2⟩ := a
    simp only [List.map_cons, List.nodup_cons] at hn
    have h1 : a1 = g.name := hok.1
    rcases List.mem_cons.mp hm with rfl | hm
    · simp only at h1
      subst h1
      exact ⟨a2, by simp [lookup], hok⟩
    · obtain ⟨w, hw, hok'⟩ := ih hn.2 hm
      refine ⟨w, ?_, hok'⟩
      rw [lookup, if_neg, hw]
      rw [h1]
      rintro rfl
      exact hn.1 (List.mem_map.mpr ⟨_, hm, rfl⟩)

theorem fieldsOk_mem {sc : Schema Cls EnumCls SfvCls Fld} {fs : List AField} {attrs : List (Fld × AVal)} (h : FieldsOk sc fs attrs)
    {a : Fld × AVal} (ha : a ∈ attrs) : ∃ g ∈ fs, FieldOk sc g a := by
  induction h with
  | nil => simp at ha
  | cons hok _ ih =>
    rcases List.mem_cons.mp ha with rfl | ha
    · exact ⟨_, List.mem_cons_self, hok⟩
    · obtain ⟨g, hg, h⟩ := ih ha
      exact ⟨g, List.mem_cons_of_mem _ hg, h⟩

/-- typed objects of a given class -/
structure Obj (lim : Option Nat) (c : Cls) (v : AVal) : Prop where
  fields : ∃ attrs, v = .obj c attrs ∧ FieldsOk (schema lim) (fieldsOf c) attrs

theorem obj_of_typed {lim : Option Nat} {c : Cls} {v : AVal} (h : HasType (schema lim) (.cls c) v) :
    ∃ c', IsA (schema lim) c c' ∧ Obj lim c' v := by
  obtain ⟨c', attrs, rfl, hi, hf⟩ := hasType_cls h
  exact ⟨c', hi, ⟨attrs, rfl, hf⟩⟩

theorem obj_of_concrete {lim : Option Nat} {c : Cls} {v : AVal} (hc : isAbstract c = false) (h : HasType (schema lim) (.cls c) v) :
    Obj lim c v := by
  obtain ⟨c', hi, ho⟩ := obj_of_typed h
  rcases hi with ⟨_, rfl⟩ | ⟨h, _⟩
  · exact ho
  · change isAbstract c = true at h; rw [hc] at h; cases h

theorem obj_of_abstract {lim : Option Nat} {c : Cls} {v : AVal} (hc : isAbstract c = true) (h : HasType (schema lim) (.cls c) v) :
    ∃ c' ∈ subclassesOf c, Obj lim c' v := by
  obtain ⟨c', hi, ho⟩ := obj_of_typed h
  rcases hi with ⟨h, _⟩ | ⟨_, h⟩
  · change isAbstract c = false at h; rw [hc] at h; cases h
  · exact ⟨c', h, ho⟩

/-! ## `post_parse` -/

theorem strip_path {a b t} : strip (.path a b t : AVal) = .none := by simp [strip]

/-- what `_set_path` does to a typed object -/
def Kept (lim : Option Nat) (c : Cls) (v : AVal) (x : Except PyExc AVal) : Prop :=
  ∃ w, x = .ok w ∧ Obj lim c w ∧ strip w = strip v

theorem nameTok_ok {lim : Option Nat} {c : Cls} {v : AVal} (h : Obj lim c v)
    (hm : ⟨.idShort, .attr py!"idShort" (.sfv .nameTypeString) false⟩ ∈ fieldsOf c) : ∃ t, nameTok v = .ok t := by
  obtain ⟨attrs, rfl, hf⟩ := h.fields
  obtain ⟨w, hw, -, hok⟩ := lookup_typed hf (names_nodup c) hm
  rw [nameTok, hw]
  simp only at hok
  rcases hok with ⟨rfl, _⟩ | hok
  · exact ⟨_, rfl⟩
  · cases hok; exact ⟨_, rfl⟩

/-- facts about the subclasses of `SubmodelElement` -/
theorem element_facts : ∀ c ∈ subclassesOf .submodelElement, hasSetPath c = true ∧
    ⟨.idShort, .attr py!"idShort" (.sfv .nameTypeString) false⟩ ∈ fieldsOf c ∧
    ⟨.idShortPath, .excluded⟩ ∈ fieldsOf c ∧
    (∀ f ∈ fieldsOf c, f.name = .idShortPath → f.slot = .excluded) ∧
    (c = .submodelElementCollection ∨ c = .submodelElementList → ∀ f ∈ fieldsOf c, f.name = .value →
      f.slot = .attr py!"value" (.list (.cls .submodelElement) false) false) := by
  decide +kernel

theorem abstract_submodelElement : isAbstract .submodelElement = true := rfl

mutual
theorem setPath_ok (lim : Option Nat) (ri : Option Str) (rid : Str) (c : Cls) (hc : c ∈ subclassesOf .submodelElement) :
    ∀ (v : AVal) (p : List Tok), Obj lim c v → Kept lim c v (setPath ri rid p v)
  | .obj c' attrs, p, h => by
    obtain ⟨attrs', e, hf⟩ := h.fields
    injection e with e1 e2
    subst e1 e2
    obtain ⟨h1, h2, h3, h4, h5⟩ := element_facts c' hc
    obtain ⟨attrs', e, hf', hs⟩ := setPathA_ok lim ri rid c' p attrs _ hf h4 h5
    rw [setPath, if_pos h1, e]
    exact ⟨_, rfl, ⟨_, rfl, hf'⟩, by simp [strip, hs]⟩
  | .none, _, h => by obtain ⟨_, e, _⟩ := h.fields; cases e
  | .invalid, _, h => by obtain ⟨_, e, _⟩ := h.fields; cases e
  | .foreign, _, h => by obtain ⟨_, e, _⟩ := h.fields; cases e
  | .str _, _, h => by obtain ⟨_, e, _⟩ := h.fields; cases e
  | .bool _, _, h => by obtain ⟨_, e, _⟩ := h.fields; cases e
  | .enum _ _, _, h => by obtain ⟨_, e, _⟩ := h.fields; cases e
  | .sfv _ _, _, h => by obtain ⟨_, e, _⟩ := h.fields; cases e
  | .list _, _, h => by obtain ⟨_, e, _⟩ := h.fields; cases e
  | .path _ _ _, _, h => by obtain ⟨_, e, _⟩ := h.fields; cases e
termination_by v => sizeOf v
theorem setPathA_ok (lim : Option Nat) (ri : Option Str) (rid : Str) (c : Cls) (p : List Tok) :
    ∀ (attrs : List (Fld × AVal)) (fs : List AField), FieldsOk (schema lim) fs attrs →
      (∀ f ∈ fs, f.name = .idShortPath → f.slot = .excluded) →
      (c = .submodelElementCollection ∨ c = .submodelElementList → ∀ f ∈ fs, f.name = .value →
        f.slot = .attr py!"value" (.list (.cls .submodelElement) false) false) →
      ∃ attrs', setPathA ri rid c p attrs = .ok attrs' ∧ FieldsOk (schema lim) fs attrs' ∧ strip.stripA attrs' = strip.stripA attrs
  | [], fs, hf, _, _ => by cases hf; exact ⟨[], by rw [setPathA], .nil, rfl⟩
  | (g, v) :: rest, fs, hf, h1, h2 => by
    cases hf with
    | @cons f _ fs' _ hok hf =>
      obtain ⟨attrs', e, hf', hs⟩ := setPathA_ok lim ri rid c p rest fs' hf (fun f hf => h1 f (List.mem_cons_of_mem _ hf))
        (fun hc f hf => h2 hc f (List.mem_cons_of_mem _ hf))
      have hname : g = f.name := hok.1
      by_cases hg : g = .idShortPath
      · subst hg
        rw [setPathA, e]
        refine ⟨_, rfl, .cons ⟨hname, ?_⟩ hf', ?_⟩
        · rw [h1 f List.mem_cons_self hname.symm]
          exact .inr ⟨_, _, _, rfl⟩
        · have hx := hok.2
          rw [h1 f List.mem_cons_self hname.symm] at hx
          simp only at hx
          rcases hx with rfl | ⟨a, b, t, rfl⟩
          · simp [strip.stripA, strip, hs]
          · simp [strip.stripA, strip, hs]
      · have other : setPathA ri rid c p ((g, v) :: rest) = (setPathA ri rid c p rest).map ((g, v) :: ·) →
            ∃ attrs', setPathA ri rid c p ((g, v) :: rest) = .ok attrs' ∧ FieldsOk (schema lim) (f :: fs') attrs' ∧
              strip.stripA attrs' = strip.stripA ((g, v) :: rest) := by
          intro h
          rw [h, e]
          exact ⟨_, rfl, .cons hok hf', by simp [strip.stripA, hs]⟩
        by_cases hv : g = .value ∧ ∃ l, v = .list l
        · obtain ⟨rfl, l, rfl⟩ := hv
          by_cases hc : c = .submodelElementCollection ∨ c = .submodelElementList
          · have hslot := h2 hc f List.mem_cons_self hname.symm
            have hx := hok.2
            rw [hslot] at hx
            simp only at hx
            rcases hx with ⟨hx, _⟩ | hx
            · cases hx
            cases hx with
            | list hne hall =>
              have hne : l ≠ [] := by simpa using hne
              obtain ⟨l1, e1, a1, s1, n1⟩ := setPathL_ok lim ri rid p l hall
              obtain ⟨l2, e2, a2, s2, n2⟩ := setPathI_ok lim ri rid p l 0 hall
              rcases hc with rfl | rfl
              · rw [setPathA, if_pos rfl, e1]
                simp only [bind, Except.bind, e, Except.map]
                refine ⟨_, rfl, .cons ⟨hname, ?_⟩ hf', by simp [strip.stripA, strip, s1, hs]⟩
                rw [hslot]
                exact .inr (.list (.inl (n1 hne)) a1)
              · rw [setPathA, if_neg (by decide), if_pos rfl, e2]
                simp only [bind, Except.bind, e, Except.map]
                refine ⟨_, rfl, .cons ⟨hname, ?_⟩ hf', by simp [strip.stripA, strip, s2, hs]⟩
                rw [hslot]
                exact .inr (.list (.inl (n2 hne)) a2)
          · have hc' := not_or.mp hc
            exact other (by rw [setPathA, if_neg hc'.1, if_neg hc'.2])
        · refine other ?_
          rw [setPathA.eq_def]
          split
          · contradiction
          · rename_i heq; simp only [List.cons.injEq, Prod.mk.injEq] at heq; exact absurd heq.1.1 hg
          · rename_i heq; simp only [List.cons.injEq, Prod.mk.injEq] at heq; exact absurd ⟨heq.1.1, _, heq.1.2⟩ hv
          · rename_i heq
            simp only [List.cons.injEq] at heq
            rw [← heq.1, ← heq.2]
termination_by attrs => sizeOf attrs
theorem setPathL_ok (lim : Option Nat) (ri : Option Str) (rid : Str) (p : List Tok) :
    ∀ l : List AVal, (∀ v ∈ l, HasType (schema lim) (.cls .submodelElement) v) →
      ∃ l', setPathL ri rid p l = .ok l' ∧ (∀ v ∈ l', HasType (schema lim) (.cls .submodelElement) v) ∧
        strip.stripL l' = strip.stripL l ∧ (l ≠ [] → l' ≠ [])
  | [], _ => ⟨[], by rw [setPathL], by simp, rfl, by simp⟩
  | v :: vs, h => by
    obtain ⟨c, hc, ho⟩ := obj_of_abstract abstract_submodelElement (h v List.mem_cons_self)
    obtain ⟨t, ht⟩ := nameTok_ok ho (element_facts c hc).2.1
    obtain ⟨w, e, ho', hs⟩ := setPath_ok lim ri rid c hc v (p ++ [t]) ho
    obtain ⟨vs', e', h', hs', _⟩ := setPathL_ok lim ri rid p vs (fun v hv => h v (List.mem_cons_of_mem _ hv))
    refine ⟨w :: vs', ?_, ?_, by simp [strip.stripL, hs, hs'], by simp⟩
    · rw [setPathL, ht]; simp only [bind, Except.bind, e, e', Except.map]
    · intro x hx
      rcases List.mem_cons.mp hx with rfl | hx
      · obtain ⟨attrs, rfl, hf⟩ := ho'.fields
        exact hasType_obj.mpr ⟨.inr ⟨rfl, hc⟩, hf⟩
      · exact h' x hx
termination_by l => sizeOf l
theorem setPathI_ok (lim : Option Nat) (ri : Option Str) (rid : Str) (p : List Tok) :
    ∀ (l : List AVal) (i : Nat), (∀ v ∈ l, HasType (schema lim) (.cls .submodelElement) v) →
      ∃ l', setPathI ri rid p i l = .ok l' ∧ (∀ v ∈ l', HasType (schema lim) (.cls .submodelElement) v) ∧
        strip.stripL l' = strip.stripL l ∧ (l ≠ [] → l' ≠ [])
  | [], _, _ => ⟨[], by rw [setPathI], by simp, rfl, by simp⟩
  | v :: vs, i, h => by
    obtain ⟨c, hc, ho⟩ := obj_of_abstract abstract_submodelElement (h v List.mem_cons_self)
    obtain ⟨w, e, ho', hs⟩ := setPath_ok lim ri rid c hc v (p ++ [.idx i]) ho
    obtain ⟨vs', e', h', hs', _⟩ := setPathI_ok lim ri rid p vs (i + 1) (fun v hv => h v (List.mem_cons_of_mem _ hv))
    refine ⟨w :: vs', ?_, ?_, by simp [strip.stripL, hs, hs'], by simp⟩
    · rw [setPathI]; simp only [bind, Except.bind, e, e', Except.map]
    · intro x hx
      rcases List.mem_cons.mp hx with rfl | hx
      · obtain ⟨attrs, rfl, hf⟩ := ho'.fields
        exact hasType_obj.mpr ⟨.inr ⟨rfl, hc⟩, hf⟩
      · exact h' x hx
termination_by l => sizeOf l
end

/-- replacing an attribute -/
theorem setAttr_ok {sc : Schema Cls EnumCls SfvCls Fld} {fs : List AField} {attrs : List (Fld × AVal)} (h : FieldsOk sc fs attrs)
    {f : Fld} {v w : AVal} (hl : lookup f attrs = some v) (hs : strip w = strip v)
    (hok : ∀ g ∈ fs, g.name = f → FieldOk sc g (f, v) → FieldOk sc g (f, w)) :
    FieldsOk sc fs (setAttr f w attrs) ∧ strip.stripA (setAttr f w attrs) = strip.stripA attrs := by
  induction h with
  | nil => exact ⟨.nil, rfl⟩
  | @cons g a fs as hg hrest ih =>
    obtain ⟨a1, a2⟩ := a
    rw [lookup] at hl
    rw [setAttr]
    by_cases he : a1 = f
    · subst he
      rw [if_pos rfl] at hl ⊢
      injection hl with hl
      subst hl
      exact ⟨.cons (hok g List.mem_cons_self hg.1.symm hg) hrest, by simp [strip.stripA, hs]⟩
    · rw [if_neg he] at hl ⊢
      obtain ⟨h1, h2⟩ := ih hl (fun g hg => hok g (List.mem_cons_of_mem _ hg))
      exact ⟨.cons hg h1, by simp [strip.stripA, h2]⟩

theorem submodel_facts :
    ⟨.submodelElements, .attr py!"submodelElements" (.list (.cls .submodelElement) false) false⟩ ∈ fieldsOf .submodel ∧
    ⟨.idShort, .attr py!"idShort" (.sfv .nameTypeString) false⟩ ∈ fieldsOf .submodel ∧
    ⟨.id, .attr py!"id" (.sfv .identifierString) true⟩ ∈ fieldsOf .submodel ∧
    (∀ g ∈ fieldsOf .submodel, g.name = .submodelElements →
      g.slot = .attr py!"submodelElements" (.list (.cls .submodelElement) false) false) := by
  decide +kernel

theorem postParseSubmodel_ok (lim : Option Nat) (v : AVal) (h : Obj lim .submodel v) :
    Kept lim .submodel v (postParseSubmodel v) := by
  obtain ⟨attrs, rfl, hf⟩ := h.fields
  obtain ⟨m1, m2, m3, m4⟩ := submodel_facts
  obtain ⟨els, hels, -, okE⟩ := lookup_typed hf (names_nodup _) m1
  obtain ⟨i, hi, -, okI⟩ := lookup_typed hf (names_nodup _) m2
  obtain ⟨d, hd, -, okD⟩ := lookup_typed hf (names_nodup _) m3
  simp only at okE okI okD
  have hd' : ∃ rid, d = .sfv .identifierString rid := by
    rcases okD with ⟨_, h⟩ | h
    · cases h
    · cases h; exact ⟨_, rfl⟩
  obtain ⟨rid, rfl⟩ := hd'
  rw [postParseSubmodel, hels, hi, hd]
  rcases okE with ⟨rfl, _⟩ | okE
  · exact ⟨_, rfl, h, rfl⟩
  · cases okE with
    | @list _ _ l hne hall =>
      simp only
      generalize rootIdShort i = ri
      obtain ⟨l', e, a', s', n'⟩ := setPathL_ok lim ri rid [] l hall
      rw [e]
      have hne : l ≠ [] := by simpa using hne
      obtain ⟨h1, h2⟩ := setAttr_ok hf (f := .submodelElements) (w := .list l') hels (by simp [strip, s']) (by
        intro g hg hn _
        refine ⟨hn.symm, ?_⟩
        rw [m4 g hg hn]
        exact .inr (.list (.inl (n' hne)) a'))
      exact ⟨_, rfl, ⟨_, rfl, h1⟩, by simp [strip, h2]⟩

theorem sane (lim : Option Nat) : Sane (schema lim) where
  keys c f ty req h := by
    have h1 : py!"modelType" ∈ allKeys (fieldsOf c) := mem_allKeys.mpr ⟨f, ty, req, h⟩
    have h2 := no_modelType c
    rw [List.contains_eq_mem, decide_eq_false_iff_not] at h2
    exact h2 h1
  names := subclass_names_nodup
  post c f v hp hv := by
    cases c with
    | submodel =>
      injection hp with hp
      subst hp
      obtain ⟨w, h1, ho, hs⟩ := postParseSubmodel_ok lim v (obj_of_concrete rfl hv)
      obtain ⟨attrs, rfl, hf⟩ := ho.fields
      exact ⟨_, h1, hasType_obj.mpr ⟨.inl ⟨rfl, rfl⟩, hf⟩, hs⟩
    | _ => cases hp

end Verif.Aas
