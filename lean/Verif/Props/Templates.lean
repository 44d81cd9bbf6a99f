import Verif.TemplateLemmas3
import Verif.Samples

/-!
# C52: submodel templates

`Follows true` differs from `Follows false`, the property as stated, in two points: the code takes a `SubmodelElementList` for a
collection, and it never accepts an empty collection (`C52_list_violated`, `C52_empty_violated`). Submodels without elements, elements of
other classes where a collection belongs, and dates in other formats than YYYY-MM-DD raise (`C52_crash_violated`).
-/

namespace Verif.Props
open Verif Parse Aas Templates Spec.Model Spec.Templates Spec.Parse Spec.Paths Aas.Samples

variable {lim : Option Nat}

namespace TemplateSamples
def semantic (s : Str) : Fld × AVal := (.semanticId, globalRef s)
def mlp (sid : Str) : AVal := mk .multiLanguageProperty [semantic sid, (.value, .list [mk .multiLanguageTextType
  [(.language, .str py!"en"), (.text, .str py!"x")]])]
def prop (sid : Str) (type value : Str) : AVal :=
  mk .property [semantic sid, (.valueType, .enum .dataTypeDefXsd type), (.value, .sfv .valueDataType value)]
def smc (sid : Str) (els : List AVal) : AVal := mk .submodelElementCollection [semantic sid, (.value, .list els)]
def sml (sid : Str) (els : List AVal) : AVal :=
  mk .submodelElementList [semantic sid, (.typeValueListElement, .enum .keyType py!"Property"), (.value, .list els)]
def contactId : Str := py!"https://admin-shell.io/zvei/nameplate/1/0/ContactInformations/ContactInformation"
def contactsId : Str := py!"https://admin-shell.io/zvei/nameplate/1/0/ContactInformations"
def plateId : Str := py!"https://admin-shell.io/zvei/nameplate/2/0/Nameplate"
def sm (sid : Str) (els : List AVal) : AVal :=
  mk .submodel [(.id, .sfv .identifierString py!"urn:x"), semantic sid, (.submodelElements, .list els)]
/-- the contact information, with a phone -/
def contact : AVal := smc contactId [prop py!"0173-1#02-AAQ326#002" py!"xs:string" py!"http://x", smc (contactId ++ py!"/Phone") [mlp py!"0173-1#02-AAO136#002"]]
/-- a nameplate without the family -/
def plateEls : List AVal := [prop py!"0173-1#02-AAY811#001" py!"xs:string" py!"u", mlp py!"0173-1#02-AAO677#002", mlp py!"0173-1#02-AAW338#001",
  contact, prop py!"0173-1#02-AAP906#001" py!"xs:string" py!"2024"]
def plate : AVal := sm plateId (plateEls ++ [mlp py!"0173-1#02-AAU731#001", prop py!"0173-1#02-AAR972#002" py!"xs:date" py!"2024-02-29"])
def env (sms : List AVal) : AVal := mk .environment [(.submodels, .list sms)]

/-- outcome of the check: raised, or the verdict -/
def verdict (v : AVal) : Option Bool :=
  match checkSubmodel (Res.new ⟨.title [], []⟩) v with
  | .ok r => some r.ok
  | .error _ => none
end TemplateSamples
open TemplateSamples

/-- The check of a submodel of a supported template raises exactly on the submodels described by `RaisesSubmodel`; otherwise it appends
one result, and this is ok iff the submodel follows the template: all cardinalities, recursively all kinds of values, and the constraint of
the nameplate. -/
theorem C52_submodel_partial (v : AVal) (h : HasType (schema lim) (.cls .submodel) v) (sid : Str) (c : TCls) (hs : semanticId? v = some sid)
    (ht : (sid, c) ∈ templates) (root : Res Note) :
    (RaisesSubmodel c v ↔ ∃ e, checkSubmodel root v = .error e) ∧
    ∀ r, checkSubmodel root v = .ok r → ∃ sub, r = root.append sub ∧ (sub.ok = true ↔ Follows true c v) := by
  have hs := checkSubmodel_spec (obj_of_concrete (c := .submodel) rfl h) hs ht root
  by_cases hR : RaisesSubmodel c v
  · obtain ⟨e, -, he⟩ := hs.1 hR
    exact ⟨⟨fun _ => ⟨e, he⟩, fun _ => hR⟩, fun r hr => by rw [he] at hr; cases hr⟩
  · obtain ⟨sub, he, hf⟩ := hs.2 hR
    refine ⟨⟨fun h => absurd h hR, fun ⟨e, h⟩ => by rw [he] at h; cases h⟩, fun r hr => ?_⟩
    rw [he] at hr
    injection hr with hr
    exact ⟨sub, hr.symm, hf⟩

example : HasType (schema lim) (.cls .submodel) plate := typedB_sound 20 _ _ (by decide +kernel)
example : semanticId? plate = some plateId ∧ (plateId, TCls.digitalNameplate) ∈ templates := by decide +kernel
example : verdict plate = some true := by decide +kernel
/-- family missing; contact information twice; none; phone without number -/
example : verdict (sm plateId plateEls) = some false ∧ verdict (sm contactsId [contact, contact]) = some true ∧
    verdict (sm plateId (contact :: plateEls ++ [mlp py!"0173-1#02-AAU731#001"])) = some false ∧ verdict (sm contactsId [mlp py!"y"]) = some false ∧
    verdict (sm contactsId [smc contactId [smc (contactId ++ py!"/Phone") [mlp py!"z"]]]) = some false := by decide +kernel

/-- Without lists of elements and empty collections in the submodel, this is the property as stated. -/
theorem C52_strict_partial (v : AVal) (h : HasType (schema lim) (.cls .submodel) v)
    (ho : ∀ is ts y, is ≠ [] → Under v is ts y →
      className y ≠ py!"SubmodelElementList" ∧ (className y = py!"SubmodelElementCollection" → Set y .value))
    (sid : Str) (c : TCls) (hs : semanticId? v = some sid) (ht : (sid, c) ∈ templates) (root r : Res Note) (hr : checkSubmodel root v = .ok r) :
    ∃ sub, r = root.append sub ∧ (sub.ok = true ↔ Follows false c v) := by
  obtain ⟨sub, h1, h2⟩ := (C52_submodel_partial v h sid c hs ht root).2 r hr
  have hn := (obj_of_concrete (c := .submodel) rfl h).className
  exact ⟨sub, h1, h2.trans ⟨fun h => follows_orthodox hn h ho, fun h => follows_orthodox hn h ho⟩⟩

/-- The exceptions of the check of templates are AttributeError, TypeError and ValueError. -/
theorem C52_kind (env : AVal) (h : HasType (schema lim) (.cls .environment) env) (root : Res Note) (e : PyExc)
    (he : parseSubmodelTemplates root env = .error e) : Mishap e := by
  have hs := templates_spec (obj_of_concrete (c := .environment) rfl h) root
  by_cases hR : ∃ p ∈ templated (elems env .submodels), RaisesSubmodel p.2 p.1
  · obtain ⟨e', hk, he'⟩ := hs.1 hR
    rw [he] at he'
    cases he'
    exact hk
  · obtain ⟨subs, he', -⟩ := hs.2 (fun p hp hh => hR ⟨p, hp, hh⟩)
    rw [he] at he'
    cases he'

/-- Over all submodels: one result for each submodel of a supported template, in their order; nothing for the others. -/
theorem C52_environment_partial (env : AVal) (h : HasType (schema lim) (.cls .environment) env) (root : Res Note) :
    ((∃ p ∈ templated (elems env .submodels), RaisesSubmodel p.2 p.1) ↔ ∃ e, parseSubmodelTemplates root env = .error e) ∧
    ∀ r, parseSubmodelTemplates root env = .ok r → ∃ subs, r = root.appendAll subs ∧ subs.length = (templated (elems env .submodels)).length ∧
      (∀ p ∈ (templated (elems env .submodels)).zip subs, (p.2.ok = true ↔ Follows true p.1.2 p.1.1)) ∧
      (r.ok = true ↔ root.ok = true ∧ ∀ p ∈ templated (elems env .submodels), Follows true p.2 p.1) := by
  have hs := templates_spec (obj_of_concrete (c := .environment) rfl h) root
  by_cases hR : ∃ p ∈ templated (elems env .submodels), RaisesSubmodel p.2 p.1
  · obtain ⟨e, -, he⟩ := hs.1 hR
    exact ⟨⟨fun _ => ⟨e, he⟩, fun _ => hR⟩, fun r hr => by rw [he] at hr; cases hr⟩
  · obtain ⟨subs, he, hl, hf⟩ := hs.2 (fun p hp hh => hR ⟨p, hp, hh⟩)
    refine ⟨⟨fun h => absurd h hR, fun ⟨e, h⟩ => by rw [he] at h; cases h⟩, fun r hr => ?_⟩
    rw [he] at hr
    injection hr with hr
    refine ⟨subs, hr.symm, hl, hf, ?_⟩
    rw [← hr, Res.appendAll_ok]
    refine and_congr_right fun _ => ⟨fun hh p hp => ?_, fun hh s hs => ?_⟩
    · obtain ⟨i, hi⟩ := List.getElem?_of_mem hp
      have hlt : i < subs.length := by rw [hl]; exact (List.getElem?_eq_some_iff.mp hi).1
      have hz : (p, subs[i]) ∈ (templated (elems env .submodels)).zip subs :=
        List.mem_of_getElem? (i := i) (by rw [List.getElem?_zip_eq_some]; exact ⟨hi, by simp⟩)
      exact (hf _ hz).mp (hh _ (List.getElem_mem hlt))
    · obtain ⟨p, hp⟩ := mem_zip_of_right hl hs
      exact (hf _ hp).mpr (hh p (List.of_mem_zip hp).1)

example : HasType (schema lim) (.cls .environment) (env [plate, sm py!"urn:other" [mlp py!"q"], sm contactsId [contact]]) :=
  typedB_sound 20 _ _ (by decide +kernel)
example : (templated (elems (env [plate, sm py!"urn:other" [mlp py!"q"], sm contactsId [contact]]) .submodels)).map (·.2) =
    [.digitalNameplate, .contactInformations] := by decide +kernel

/-- A list of elements passes for a collection. -/
theorem C52_list_violated : ∃ v, HasType (schema lim) (.cls .submodel) v ∧ semanticId? v = some contactsId ∧ verdict v = some true ∧
    ¬ Follows false .contactInformations v := by
  refine ⟨sm contactsId [sml contactId [prop py!"0173-1#02-AAQ326#002" py!"xs:string" py!"u"]], typedB_sound 20 _ _ (by decide +kernel),
    by decide +kernel, by decide +kernel, ?_⟩
  rintro ⟨h, -⟩
  have := (h _ (List.mem_singleton.mpr rfl)).2 (sml contactId [prop py!"0173-1#02-AAQ326#002" py!"xs:string" py!"u"])
    (List.mem_filter.mpr ⟨List.mem_singleton.mpr rfl, by decide +kernel⟩)
  cases this with
  | cls hC => exact absurd hC.1 (by decide +kernel)

/-- An empty collection is rejected although all its fields are optional. -/
theorem C52_empty_violated : ∃ v, HasType (schema lim) (.cls .submodel) v ∧ semanticId? v = some contactsId ∧ verdict v = some false ∧
    Follows false .contactInformations v := by
  refine ⟨sm contactsId [mk .submodelElementCollection [semantic contactId]], typedB_sound 20 _ _ (by decide +kernel), by decide +kernel,
    by decide +kernel, ?_, by simp⟩
  have hm : ∀ f ∈ tfieldsOf .contactInformations,
      matching f (elems (sm contactsId [mk .submodelElementCollection [semantic contactId]]) .submodelElements) =
        [mk .submodelElementCollection [semantic contactId]] ∧ f.min = 1 ∧ f.max = none ∧ f.ty = .cls .contactInformation := by
    intro f hf
    rw [List.mem_singleton.mp hf]
    exact ⟨rfl, rfl, rfl, rfl⟩
  have h0 : ∀ f, matching f (elems (mk .submodelElementCollection [semantic contactId]) .value) = [] := fun f => rfl
  intro f hf
  obtain ⟨h1, h2, h3, h4⟩ := hm f hf
  rw [h1]
  refine ⟨⟨by simp [h2], by simp [h3]⟩, fun y hy => ?_⟩
  rw [List.mem_singleton.mp hy, h4]
  refine .cls ⟨.inl rfl, by simp⟩ (fun f hf => ?_) (fun f hf y hy => ?_)
  · rw [h0 f]
    have : ∀ f ∈ tfieldsOf .contactInformation, f.min = 0 := by decide +kernel
    exact ⟨by simp [this f hf], by simp⟩
  · rw [h0 f] at hy; simp at hy

/-- The check raises: a submodel without elements, a property in place of a collection, a date with a time zone. -/
theorem C52_crash_violated :
    (HasType (schema lim) (.cls .submodel) (mk .submodel [(.id, .sfv .identifierString py!"urn:x"), semantic contactsId]) ∧
      verdict (mk .submodel [(.id, .sfv .identifierString py!"urn:x"), semantic contactsId]) = none) ∧
    (HasType (schema lim) (.cls .submodel) (sm contactsId [prop contactId py!"xs:string" py!"u"]) ∧
      verdict (sm contactsId [prop contactId py!"xs:string" py!"u"]) = none) ∧
    (HasType (schema lim) (.cls .submodel) (sm plateId (plateEls ++ [prop py!"0173-1#02-AAR972#002" py!"xs:date" py!"2024-02-29Z"])) ∧
      verdict (sm plateId (plateEls ++ [prop py!"0173-1#02-AAR972#002" py!"xs:date" py!"2024-02-29Z"])) = none) :=
  ⟨⟨typedB_sound 20 _ _ (by decide +kernel), by decide +kernel⟩, ⟨typedB_sound 20 _ _ (by decide +kernel), by decide +kernel⟩,
    ⟨typedB_sound 20 _ _ (by decide +kernel), by decide +kernel⟩⟩

end Verif.Props
