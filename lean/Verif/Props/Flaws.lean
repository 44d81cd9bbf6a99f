import Verif.FlawLemmas
import Verif.Props.Templates

/-!
# C85: the reports on submodels with a template

Two parts of the property fail: of values outside of an enumeration only one is reported, and only if nothing else was found before
(`C85_enum_violated`); wrong numbers of elements are reported without the place of the collection (`C85_place_violated`).
-/

namespace Verif.Props
open Verif Parse Aas Templates Spec.Model Spec.Templates Spec.Parse Spec.Paths Aas.Samples TemplateSamples

variable {lim : Option Nat}

/-- Whenever the check of a submodel of a supported template ends, it adds one result with a line for every mistake of the elements - which
is described by `Flaw`: its kind and its path of fields and positions - and no other lines. Missing are values outside of an enumeration
after another mistake. The constraint on the nameplate is reported exactly if there are no mistakes. -/
theorem C85_submodel_partial (v : AVal) (h : HasType (schema lim) (.cls .submodel) v) (sid : Str) (c : TCls) (hs : semanticId? v = some sid)
    (ht : (sid, c) ∈ templates) (root r : Res Note) (hr : checkSubmodel root v = .ok r) : ∃ sub, SubmodelReport c v sub ∧ r = root.append sub := by
  obtain ⟨notes, extra, h1, h2, h3⟩ := submodel_report (obj_of_concrete (c := .submodel) rfl h) hs ht root r hr
  exact ⟨_, ⟨notes, extra, h1, h2, rfl⟩, h3⟩

/-- Over all submodels: the reports on the submodels of supported templates, in their order. -/
theorem C85_environment_partial (env : AVal) (h : HasType (schema lim) (.cls .environment) env) (root r : Res Note)
    (hr : parseSubmodelTemplates root env = .ok r) : ∃ subs, r = root.appendAll subs ∧
      subs.length = (templated (elems env .submodels)).length ∧
      ∀ p ∈ (templated (elems env .submodels)).zip subs, SubmodelReport p.1.2 p.1.1 p.2 := by
  rw [parseSubmodelTemplates] at hr
  rcases (obj_of_concrete (c := .environment) rfl h).list? (f := .submodels) (key := py!"submodels") (ty := .cls .submodel) rfl with
    ⟨h1, h2, h3⟩ | ⟨h1, h2, h3, h4⟩
  · rw [getAttr_of h1] at hr
    cases hr
    rw [h3]
    exact ⟨[], rfl, rfl, by simp [templated]⟩
  · rw [getAttr_of h1] at hr
    exact submodels_report _ root r (fun x hx => obj_of_concrete (c := .submodel) rfl (h4 x hx)) hr

namespace FlawSamples
/-- the lines of the report -/
def lines (v : AVal) : Option (List Note) :=
  match checkSubmodel (Res.new ⟨.title [], []⟩) v with
  | .ok r => some (r.subs.flatMap fun s => (s.subs.drop 1).map (·.msg))
  | .error _ => none
def role : AVal := prop py!"0173-1#02-AAO204#003" py!"xs:string" py!"nobody"
def phone (els : List AVal) : AVal := smc (contactId ++ py!"/Phone") els
def telephone : AVal := mlp py!"0173-1#02-AAO136#002"
def number : AVal := prop py!"0173-1#02-AAO137#003" py!"xs:string" py!"none"
end FlawSamples
open FlawSamples

/-- the mistakes of two contacts, with their places -/
def flawed : AVal := sm contactsId [
  smc contactId [prop py!"0173-1#02-AAO134#002" py!"xs:string" py!"DE", phone [telephone]],
  smc contactId [phone [prop py!"0173-1#02-AAO136#002" py!"xs:string" py!"1"], prop (contactId ++ py!"/Language") py!"xs:string" py!"en",
    prop (contactId ++ py!"/Language") py!"xs:date" py!"2024-01-01"]]

example : HasType (schema lim) (.cls .submodel) flawed := typedB_sound 20 _ _ (by decide +kernel)
example : semanticId? flawed = some contactsId ∧ (contactsId, TCls.contactInformations) ∈ templates := by decide +kernel
example : lines flawed = some [
    ⟨.other py!"not a MultiLanguageProperty", [.key py!"ContactInformation", .idx 0, .key py!"NationalCode"]⟩,
    ⟨.other py!"valueType must be xs:string", [.key py!"ContactInformation", .idx 1, .key py!"Language", .idx 1]⟩,
    ⟨.other py!"not a MultiLanguageProperty", [.key py!"ContactInformation", .idx 1, .key py!"Phone", .key py!"TelephoneNumber"]⟩] := by
  decide +kernel
example : lines (sm plateId plateEls) = some [⟨.constraint familyText, []⟩] := by decide +kernel
example : lines plate = some [] := by decide +kernel

/-- A wrong role is reported alone; the wrong kind of the phone, or the wrong role itself, is kept back after another mistake. -/
theorem C85_enum_violated :
    (HasType (schema lim) (.cls .submodel) (sm contactsId [smc contactId [role, phone [telephone, number]]]) ∧
      lines (sm contactsId [smc contactId [phone [telephone, number]]]) =
        some [⟨.notInEnum, [.key py!"ContactInformation", .idx 0, .key py!"Phone", .key py!"TypeOfTelephone"]⟩] ∧
      lines (sm contactsId [smc contactId [role, phone [telephone, number]]]) =
        some [⟨.notInEnum, [.key py!"ContactInformation", .idx 0, .key py!"RoleOfContactPerson"]⟩]) ∧
    (HasType (schema lim) (.cls .submodel) (sm contactsId [smc contactId [phone [number]]]) ∧
      lines (sm contactsId [smc contactId [phone [number]]]) = some [⟨.other py!"too few elements: TelephoneNumber", []⟩]) :=
  ⟨⟨typedB_sound 20 _ _ (by decide +kernel), by decide +kernel, by decide +kernel⟩, ⟨typedB_sound 20 _ _ (by decide +kernel), by decide +kernel⟩⟩

/-- Two submodels whose first and whose second contact has a phone without number: the reports are equal. -/
theorem C85_place_violated :
    HasType (schema lim) (.cls .submodel) (sm contactsId [smc contactId [phone [number]], smc contactId [phone [telephone]]]) ∧
    HasType (schema lim) (.cls .submodel) (sm contactsId [smc contactId [phone [telephone]], smc contactId [phone [number]]]) ∧
    lines (sm contactsId [smc contactId [phone [number]], smc contactId [phone [telephone]]]) =
      lines (sm contactsId [smc contactId [phone [telephone]], smc contactId [phone [number]]]) ∧
    (lines (sm contactsId [smc contactId [phone [number]], smc contactId [phone [telephone]]])).isSome = true :=
  ⟨typedB_sound 20 _ _ (by decide +kernel), typedB_sound 20 _ _ (by decide +kernel), by decide +kernel, by decide +kernel⟩

end Verif.Props
