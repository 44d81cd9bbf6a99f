import Verif.MentionedLemmas
import Verif.Props.TemplateTelling

/-!
# C107: what a template does not mention does not matter
-/

namespace Verif.Props
open Verif Parse Aas Engine Templates Templates.Mentioned Spec.Model Spec.Templates Spec.Parse Spec Aas.Samples TemplateSamples

variable (W : Words) {lim : Option Nat}

/-- the contact with a name -/
def MentionedSamples.called : AVal := mk .submodelElementCollection [(.idShort, .sfv .nameTypeString py!"c"), semantic contactId,
  (.value, .list [prop py!"0173-1#02-AAQ326#002" py!"xs:string" py!"http://x", smc (contactId ++ py!"/Phone") [mlp py!"0173-1#02-AAO136#002"]])]
open MentionedSamples

/-- Submodels that are the same for their template get the same report, line by line, or the same exception is raised: other elements, the order among
elements of different semantic ids, names, descriptions, qualifiers and texts in several languages do not matter. -/
theorem C107_submodel (x y : AVal) (hx : HasType (schema lim) (.cls .submodel) x) (hy : HasType (schema lim) (.cls .submodel) y) (sid : Str) (c : TCls)
    (hs : semanticId? x = some sid) (ht : (sid, c) ∈ templates) (h : SameSubmodel c x y) (root : Res Str) :
    tellOne W root x = tellOne W root y :=
  one_same (obj_of_concrete (c := .submodel) rfl hx) (obj_of_concrete (c := .submodel) rfl hy) hs ht h root

/-- a contact with an element more, and with a name -/
example (root : Res Str) : tellOne W root (sm contactsId [contact]) = tellOne W root (sm contactsId [mlp py!"urn:other", called]) := by
  refine C107_submodel (lim := none) W (sm contactsId [contact]) (sm contactsId [mlp py!"urn:other", called]) (typedB_sound 20 _ _ (by decide +kernel)) 
    (typedB_sound 20 _ _ (by decide +kernel)) contactsId .contactInformations (by decide +kernel) (by decide +kernel) ⟨by decide +kernel, by decide +kernel, ⟨fun _ => (show (.list [mlp py!"urn:other", called] : AVal) ≠ .none from nofun),
      fun _ => (show (.list [contact] : AVal) ≠ .none from nofun)⟩, fun f hf => ?_⟩ root
  have hf : f ∈ [(⟨py!"contact_information", contactId, 1, none, .cls .contactInformation⟩ : TField)] := hf
  rw [List.mem_singleton] at hf
  subst hf
  refine ⟨by decide +kernel, fun p hp => ?_⟩
  have hp : p ∈ [(contact, called)] := hp
  rw [List.mem_singleton] at hp
  subst hp
  have he : elems contact .value = elems called .value := rfl
  have h := sameElements_of (c := .contactInformation) (els := elems contact .value) (els' := elems called .value) fun f _ => by rw [he]
  exact .cls (by decide +kernel) (⟨fun _ h => (nomatch h), fun _ h => (nomatch h)⟩) (fun f hf => (h f hf).1) fun f hf => (h f hf).2

/-- Environments whose submodels of supported templates are the same for their templates, in order, get the same lines about templates: other
submodels, shells and concept descriptions do not matter. -/
theorem C107_environment (env env' : AVal) (h : HasType (schema lim) (.cls .environment) env) (h' : HasType (schema lim) (.cls .environment) env')
    (hl : (templated (elems env .submodels)).length = (templated (elems env' .submodels)).length)
    (hsame : ∀ p ∈ (templated (elems env .submodels)).zip (templated (elems env' .submodels)), SameSubmodel p.1.2 p.1.1 p.2.1) (root : Res Str) :
    tellTemplates W root env = tellTemplates W root env' := by
  obtain ⟨h1, ho⟩ := submodels_of (W := W) h root
  obtain ⟨h1', ho'⟩ := submodels_of (W := W) h' root
  rw [h1, h1']
  refine pairs_same _ _ root hl fun p hp r => ?_
  obtain ⟨m, m'⟩ := List.of_mem_zip hp
  obtain ⟨hm, sid, hs, ht⟩ := templated_mem m
  exact one_same (ho _ hm) (ho' _ (templated_mem m').1) hs ht (hsame p hp) r

/-- a submodel without a template in front -/
example (root : Res Str) : tellTemplates W root (env [sm contactsId [contact]]) = tellTemplates W root (env [sm py!"urn:other" [mlp py!"q"], sm contactsId [contact]]) := by
  refine C107_environment (lim := none) W _ _ (typedB_sound 20 _ _ (by decide +kernel)) (typedB_sound 20 _ _ (by decide +kernel)) (by decide +kernel)
    (fun p hp => ?_) root
  have hp : p ∈ [((sm contactsId [contact], TCls.contactInformations), (sm contactsId [contact], TCls.contactInformations))] := hp
  rw [List.mem_singleton] at hp
  subst hp
  exact ⟨rfl, rfl, Iff.rfl, sameElements_of fun _ _ => rfl⟩

/-- So the whole reports of two documents without mistakes against the meta-model are the same. -/
theorem C107_report (j j' : Json) (T : Str) (r r' : Res Line) (env env' : AVal) (hj : jsonTell W lim j T = .ok (r, env)) (hj' : jsonTell W lim j' T = .ok (r', env'))
    (hr : r.mapMsg Line.said = r'.mapMsg Line.said) (h : HasType (schema lim) (.cls .environment) env) (h' : HasType (schema lim) (.cls .environment) env')
    (hl : (templated (elems env .submodels)).length = (templated (elems env' .submodels)).length)
    (hsame : ∀ p ∈ (templated (elems env .submodels)).zip (templated (elems env' .submodels)), SameSubmodel p.1.2 p.1.1 p.2.1) :
    (textEngine W lim).json j T = (textEngine W lim).json j' T := by
  change (sayObj W (jsonTells W) lim (j.size + 1) ⟨j, []⟩ T).map (·.1) = (sayObj W (jsonTells W) lim (j'.size + 1) ⟨j', []⟩ T).map (·.1)
  rw [jsonTell] at hj hj'
  rw [sayObj, sayObj, hj, hj']
  simp only [bind, Except.bind, hr, C107_environment W env env' h h' hl hsame]
  split
  · generalize tellTemplates W (r'.mapMsg Line.said) env' = z
    cases z <;> rfl
  · rfl

/-- a document with one submodel -/
def MentionedSamples.doc (i : Str) : Json := .obj [(py!"submodels", .arr [.obj [(py!"modelType", .str py!"Submodel"), (py!"id", .str i)]])]

example : (textEngine W none).json (doc py!"urn:a") py!"Environment" = (textEngine W none).json (doc py!"urn:b") py!"Environment" := by
  have h1 : jsonTell W none (doc py!"urn:a") py!"Environment" = .ok (_, _) := rfl
  have h2 : jsonTell W none (doc py!"urn:b") py!"Environment" = .ok (_, _) := rfl
  exact C107_report W _ _ _ _ _ _ _ h1 h2 rfl (typedB_sound 20 _ _ (by decide +kernel)) (typedB_sound 20 _ _ (by decide +kernel)) (by decide +kernel)
    (fun p hp => (nomatch (show p ∈ [] from hp)))

/-- The same for XML documents. -/
theorem C107_report_xml (x x' : Xml) (T : Str) (r r' : Res Line) (env env' : AVal) (hj : xmlTell W lim x T = .ok (r, env)) (hj' : xmlTell W lim x' T = .ok (r', env'))
    (hr : r.mapMsg Line.said = r'.mapMsg Line.said) (h : HasType (schema lim) (.cls .environment) env) (h' : HasType (schema lim) (.cls .environment) env')
    (hl : (templated (elems env .submodels)).length = (templated (elems env' .submodels)).length)
    (hsame : ∀ p ∈ (templated (elems env .submodels)).zip (templated (elems env' .submodels)), SameSubmodel p.1.2 p.1.1 p.2.1) :
    (textEngine W lim).xml x T = (textEngine W lim).xml x' T := by
  change (sayObj W (xmlTells W) lim (x.size + 1) ⟨x, []⟩ T).map (·.1) = (sayObj W (xmlTells W) lim (x'.size + 1) ⟨x', []⟩ T).map (·.1)
  rw [xmlTell] at hj hj'
  rw [sayObj, sayObj, hj, hj']
  simp only [bind, Except.bind, hr, C107_environment W env env' h h' hl hsame]
  split
  · generalize tellTemplates W (r'.mapMsg Line.said) env' = z
    cases z <;> rfl
  · rfl

/-- the same document in XML -/
def MentionedSamples.xdoc (i : Str) : Xml :=
  .elem (XmlA.ns ++ py!"environment") none [.elem (XmlA.ns ++ py!"submodels") none [.elem (XmlA.ns ++ py!"submodel") none [.elem (XmlA.ns ++ py!"id") (some i) []]]]

example : (textEngine W none).xml (xdoc py!"urn:a") py!"Environment" = (textEngine W none).xml (xdoc py!"urn:b") py!"Environment" := by
  have h1 : xmlTell W none (xdoc py!"urn:a") py!"Environment" = .ok (_, _) := rfl
  have h2 : xmlTell W none (xdoc py!"urn:b") py!"Environment" = .ok (_, _) := rfl
  exact C107_report_xml W _ _ _ _ _ _ _ h1 h2 rfl (typedB_sound 20 _ _ (by decide +kernel)) (typedB_sound 20 _ _ (by decide +kernel)) (by decide +kernel)
    (fun p hp => (nomatch (show p ∈ [] from hp)))

/-- An element with another semantic id than those of the fields, or without one, can be added anywhere. -/
theorem C107_added (x y z : AVal) (hx : HasType (schema lim) (.cls .submodel) x) (hy : HasType (schema lim) (.cls .submodel) y) (sid : Str) (c : TCls)
    (hs : semanticId? x = some sid) (ht : (sid, c) ∈ templates) (hy1 : semanticId? y = some sid) (hi : txt x .id = txt y .id) (a b : List AVal)
    (ex : elems x .submodelElements = a ++ b) (ey : elems y .submodelElements = a ++ z :: b) (hab : a ++ b ≠ [])
    (hz : ∀ f ∈ tfieldsOf c, semanticId? z ≠ some f.semanticId) (root : Res Str) : tellOne W root x = tellOne W root y := by
  have hset : ∀ {v : AVal}, elems v .submodelElements ≠ [] → Set v .submodelElements := by
    intro v hv hn
    exact hv (by rw [elems, hn]; rfl)
  refine C107_submodel W x y hx hy sid c hs ht ⟨hs.trans hy1.symm, hi, ?_, sameElements_of fun f hf => ?_⟩ root
  · exact ⟨fun _ => hset (by rw [ey]; simp), fun _ => hset (by rw [ex]; exact hab)⟩
  · rw [ex, ey, matching, matching, List.filter_append, List.filter_append, List.filter_cons]
    simp [hz f hf]

example (root : Res Str) : tellOne W root plate = tellOne W root (sm plateId (plateEls ++ mlp py!"urn:other" ::
    [mlp py!"0173-1#02-AAU731#001", prop py!"0173-1#02-AAR972#002" py!"xs:date" py!"2024-02-29"])) :=
  C107_added (lim := none) W plate (sm plateId (plateEls ++ mlp py!"urn:other" ::
    [mlp py!"0173-1#02-AAU731#001", prop py!"0173-1#02-AAR972#002" py!"xs:date" py!"2024-02-29"])) (mlp py!"urn:other") (typedB_sound 20 _ _ (by decide +kernel)) (typedB_sound 20 _ _ (by decide +kernel)) plateId .digitalNameplate
    (by decide +kernel) (by decide +kernel) (by decide +kernel) rfl plateEls
    [mlp py!"0173-1#02-AAU731#001", prop py!"0173-1#02-AAR972#002" py!"xs:date" py!"2024-02-29"] rfl rfl nofun (by decide +kernel) root

/-- Neighbours with different semantic ids can be exchanged. -/
theorem C107_exchanged (x y : AVal) (hx : HasType (schema lim) (.cls .submodel) x) (hy : HasType (schema lim) (.cls .submodel) y) (sid : Str) (c : TCls)
    (hs : semanticId? x = some sid) (ht : (sid, c) ∈ templates) (hy1 : semanticId? y = some sid) (hi : txt x .id = txt y .id) (a b : List AVal) (z w : AVal)
    (ex : elems x .submodelElements = a ++ z :: w :: b) (ey : elems y .submodelElements = a ++ w :: z :: b) (hzw : semanticId? z ≠ semanticId? w)
    (root : Res Str) : tellOne W root x = tellOne W root y := by
  have hset : ∀ {v : AVal}, elems v .submodelElements ≠ [] → Set v .submodelElements := by
    intro v hv hn
    exact hv (by rw [elems, hn]; rfl)
  refine C107_submodel W x y hx hy sid c hs ht ⟨hs.trans hy1.symm, hi, ?_, sameElements_of fun f _ => ?_⟩ root
  · exact ⟨fun _ => hset (by rw [ey]; simp), fun _ => hset (by rw [ex]; simp)⟩
  · rw [ex, ey, matching, matching, List.filter_append, List.filter_append, List.filter_cons, List.filter_cons, List.filter_cons, List.filter_cons]
    by_cases h1 : semanticId? z = some f.semanticId
    · have h2 : semanticId? w ≠ some f.semanticId := fun h => hzw (h1.trans h.symm)
      simp [h1, h2]
    · simp [h1]

example (root : Res Str) : tellOne W root plate = tellOne W root (sm plateId (plateEls ++
    [prop py!"0173-1#02-AAR972#002" py!"xs:date" py!"2024-02-29", mlp py!"0173-1#02-AAU731#001"])) :=
  C107_exchanged (lim := none) W plate (sm plateId (plateEls ++
    [prop py!"0173-1#02-AAR972#002" py!"xs:date" py!"2024-02-29", mlp py!"0173-1#02-AAU731#001"])) (typedB_sound 20 _ _ (by decide +kernel)) (typedB_sound 20 _ _ (by decide +kernel)) plateId .digitalNameplate
    (by decide +kernel) (by decide +kernel) (by decide +kernel) rfl plateEls [] (mlp py!"0173-1#02-AAU731#001")
    (prop py!"0173-1#02-AAR972#002" py!"xs:date" py!"2024-02-29") rfl rfl (by decide +kernel) root

/-- The verdict does not depend on the order of the elements at all, nor does it depend on the order whether an exception is raised. -/
theorem C107_verdict (x y : AVal) (hx : HasType (schema lim) (.cls .submodel) x) (hy : HasType (schema lim) (.cls .submodel) y) (sid : Str) (c : TCls)
    (hs : semanticId? x = some sid) (ht : (sid, c) ∈ templates) (hy1 : semanticId? y = some sid)
    (hp : (elems x .submodelElements).Perm (elems y .submodelElements)) (root : Res Note) :
    ((∃ e, checkSubmodel root x = .error e) ↔ ∃ e, checkSubmodel root y = .error e) ∧
    ∀ r r', checkSubmodel root x = .ok r → checkSubmodel root y = .ok r' → r.ok = r'.ok := by
  have hset : ∀ {v : AVal}, HasType (schema lim) (.cls .submodel) v → (Set v .submodelElements ↔ elems v .submodelElements ≠ []) := by
    intro v hv
    rcases (obj_of_concrete (c := .submodel) rfl hv).list? value_slots.2.2 with ⟨-, h2, h3⟩ | ⟨-, h2, h3, -⟩
    · exact ⟨fun h => absurd h h2, fun h => absurd h3 h⟩
    · exact ⟨fun _ => h3, fun _ => h2⟩
  have key : ∀ {x y : AVal}, HasType (schema lim) (.cls .submodel) x → HasType (schema lim) (.cls .submodel) y →
      (elems x .submodelElements).Perm (elems y .submodelElements) → (RaisesSubmodel c x → RaisesSubmodel c y) ∧ (Follows true c x → Follows true c y) := by
    intro x y hx hy hp
    have hm : ∀ f, (matching f (elems x .submodelElements)).Perm (matching f (elems y .submodelElements)) := fun f => hp.filter _
    refine ⟨fun h => ?_, fun h => ⟨fun f hf => ?_, fun hc => ?_⟩⟩
    · cases h with
      | empty h =>
        refine .empty fun hy' => h ((hset hx).mpr fun e => (hset hy).mp hy' ?_)
        rw [e] at hp
        exact hp.nil_eq.symm
      | @deeper f z hf hw hz hr => exact .deeper hf (by rw [← (hm f).length_eq]; exact hw) ((hm f).mem_iff.mp hz) hr
    · obtain ⟨h1, h2⟩ := h.1 f hf
      exact ⟨by rw [← (hm f).length_eq]; exact h1, fun z hz => h2 z ((hm f).mem_iff.mpr hz)⟩
    · obtain ⟨z, hz, h1⟩ := h.2 hc
      exact ⟨z, hp.mem_iff.mp hz, h1⟩
  obtain ⟨a1, a2⟩ := C52_submodel_partial x hx sid c hs ht root
  obtain ⟨b1, b2⟩ := C52_submodel_partial y hy sid c hy1 ht root
  refine ⟨by rw [← a1, ← b1]; exact ⟨(key hx hy hp).1, (key hy hx hp.symm).1⟩, fun r r' hr hr' => ?_⟩
  obtain ⟨s, rfl, h1⟩ := a2 r hr
  obtain ⟨s', rfl, h2⟩ := b2 r' hr'
  have : s.ok = s'.ok := by rw [Bool.eq_iff_iff, h1, h2]; exact ⟨(key hx hy hp).2, (key hy hx hp.symm).2⟩
  rw [Bool.eq_iff_iff, Res.append_ok, Res.append_ok, this]

/-- the nameplate without the family in reverse order -/
example (root : Res Note) : ∀ r r', checkSubmodel root (sm plateId plateEls) = .ok r → checkSubmodel root (sm plateId plateEls.reverse) = .ok r' → r.ok = r'.ok :=
  (C107_verdict (lim := none) (sm plateId plateEls) (sm plateId plateEls.reverse) (typedB_sound 20 _ _ (by decide +kernel)) (typedB_sound 20 _ _ (by decide +kernel)) plateId .digitalNameplate
    (by decide +kernel) (by decide +kernel) (by decide +kernel) (List.reverse_perm plateEls).symm root).2

end Verif.Props
