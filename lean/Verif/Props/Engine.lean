import Verif.EngineLemmas
import Verif.Props.Reflect
import Verif.Props.Xml

/-!
# C50, C51: checking data against the meta-model

`File.checkJsonData` and so on are the functions of `file.py`, with the real checks (`Engine.engine`) in place of the parameter.
`text` is the wording of the messages.
-/

namespace Verif.Props
open Verif Verif.Parse Verif.Aas Verif.Engine Verif.Spec.Parse Verif.Spec.Model Verif.Spec.Templates Verif.Spec.Engine Verif.File Verif.Spec.Reflect

variable (text : Note → Str) (lim : Option Nat)

/-- no rule is broken -/
def Obeys (v : AVal) : Prop := ∀ p t, ¬ Breaks lim v p t .error

/-- the documents on which the check for model type `c` raises: a check of the meta-model raises, or there is no error and the check of
templates raises -/
def Trap (c : Cls) (v : AVal) : Prop := Raising lim v ∨ (Obeys lim v ∧ LateRaise c v)

theorem map_error {α β : Type} {x : Except PyExc α} {f : α → β} (h : ∃ e, Mishap e ∧ x = .error e) : ∃ e, Mishap e ∧ x.map f = .error e := by
  obtain ⟨e, hk, rfl⟩ := h
  exact ⟨e, hk, rfl⟩

/-! ## model types -/

/-- Lookup of a model type: exactly the classes reachable from `Environment`, by name or by name with the end of the module name;
`ValueError` for everything else. -/
theorem C51_lookup (T : Str) : (∀ a, symbol T = .ok a ↔ Reachable world (.cls .environment) a ∧ Selects T a) ∧
    (∀ e, symbol T = .error e ↔ e = .valueError ∧ ∀ a, Reachable world (.cls .environment) a → ¬ Selects T a) := by
  refine ⟨fun a => by rw [symbol_iff, mem_symbolTypes], fun e => ?_⟩
  rcases symbol_spec T with ⟨a, h1, h2, h3⟩ | ⟨h1, h2⟩
  · rw [h3]
    exact ⟨fun h => (by cases h), fun h => absurd h2 (h.2 a (mem_symbolTypes.mp h1))⟩
  · rw [h2]
    exact ⟨fun h => ⟨by injection h with h; exact h.symm, fun a ha => h1 a (mem_symbolTypes.mpr ha)⟩, fun h => by rw [h.1]⟩

/-- names without dots: the class of that name -/
theorem C51_names (T : Str) (hT : pc! '.' ∉ T) (a : AAnn) :
    symbol T = .ok a ↔ Reachable world (.cls .environment) a ∧ nameOf a = some T := by
  rw [(C51_lookup T).1]
  refine and_congr_right fun ha => ⟨?_, fun h => ⟨T, py!"aas_test_engines.test_cases.v3_0.model", h, rfl⟩⟩
  rintro ⟨n, pre, h1, h2⟩
  have hp := List.all_eq_true.mp names_plain a (mem_symbolTypes.mpr ha)
  rw [h1] at hp
  simp only [Bool.not_eq_true'] at hp
  have hp : dot ∉ n := by
    intro hc
    rw [← List.contains_iff_mem, hp] at hc
    cases hc
  have e1 : afterLast (modName n) = n := by
    rw [show modName n = py!"aas_test_engines.test_cases.v3_0.model" ++ dot :: n from by simp [modName, dot], afterLast_dot, afterLast_plain hp]
  have e2 : afterLast (modName n) = T := by
    rw [h2, show pc! '.' = dot from rfl, afterLast_dot, afterLast_plain hT]
  rw [h1, ← e1, e2]

/-- The lookup is the one of `reflect.py` on the symbol table of C60. -/
theorem C51_table (n : Nat) (hn : 85 < n) (T : Str) : ∃ t, Reflect.reflect world n (.cls .environment) = .ok t ∧
    ((∃ a s, symbol T = .ok a ∧ Reflect.lookup T t = .ok (some s) ∧ Spec.Reflect.Describes world a s) ∨
      (symbol T = .error .valueError ∧ Reflect.lookup T t = .error .valueError)) := by
  obtain ⟨t, h1, h2, h3, h4, -⟩ := C60_model n hn
  refine ⟨t, h1, ?_⟩
  have hk : ∀ k, k ∈ t.map Prod.fst ↔ ∃ a ∈ symbolTypes, keyOf a = k := by
    intro k
    constructor
    · intro hk
      obtain ⟨⟨k', o⟩, hp, rfl⟩ := List.mem_map.mp hk
      obtain ⟨b, s, g1, g2, -⟩ := h3 k' o hp
      exact ⟨b, mem_symbolTypes.mpr g1, g2.symm⟩
    · rintro ⟨a, ha, rfl⟩
      obtain ⟨s, g1, -⟩ := h4 a (mem_symbolTypes.mp ha)
      exact List.mem_map.mpr ⟨_, g1, rfl⟩
  rcases lookup_table h2 hk T with ⟨a, o, g1, g2, g3⟩ | ⟨g1, g2⟩
  · left
    obtain ⟨b, s, e1, e2, rfl, e4, -⟩ := h3 _ _ g2
    have := keyOf_inj (mem_symbolTypes.mp (symbol_iff.mp g1).1) e1 e2
    subst this
    exact ⟨a, s, g1, g3, e4⟩
  · exact .inr ⟨g1, g2⟩

example : symbol py!"Submodel" = .ok (.cls .submodel) := by decide +kernel
example : symbol py!"model.Submodel" = .ok (.cls .submodel) := by decide +kernel
example : symbol py!"KeyType" = .error .valueError := by decide +kernel
example : symbol py!"odel" = .error .valueError := by decide +kernel

/-! ## JSON -/

/-- JSON data and a class: all documents. Whatever does not conform is reported; otherwise the check raises iff `Trap`, and reports an
error iff a rule is broken or a submodel does not follow its template. -/
theorem C51_json_partial (T : Str) (c : Cls) (hT : symbol T = .ok (.cls c)) (j : Json) (hw : WF j) :
    (¬ Conforms (schema lim) (.cls c) j → ∃ r, checkJsonData (engine text lim) j T = .ok r ∧ r.ok = false) ∧
    (Conforms (schema lim) (.cls c) j → ∃ v, HasType (schema lim) (.cls c) v ∧ Describes (schema lim) (.cls c) j (strip v) ∧
      (Trap lim c v → ∃ e, Mishap e ∧ checkJsonData (engine text lim) j T = .error e) ∧
      (¬ Trap lim c v → ∃ r, checkJsonData (engine text lim) j T = .ok r ∧ (r.ok = true ↔ Obeys lim v ∧ FollowsAll c v))) := by
  have hc := good_symbols (symbol_iff.mp hT).1
  obtain ⟨h1, h2⟩ := C64_json lim c hc j hw (j.size + 1) (Nat.lt_succ_self _)
  constructor
  · intro h
    obtain ⟨r, v, g1, g2⟩ := toObj_wrong jsonOps hT (h1 h)
    exact ⟨render text r, by rw [checkJsonData, engine]; dsimp only; rw [jsonToObj, g1]; rfl, by rw [render_level]; exact g2⟩
  · intro h
    obtain ⟨v, hv, hd, h3, h4⟩ := h2 h
    obtain ⟨g1, g2⟩ := toObj_spec jsonOps hT hv h3 h4
    refine ⟨v, hv, hd, fun ht => map_error (g1 ht), fun ht => ?_⟩
    obtain ⟨r, e, ho⟩ := g2 ht
    exact ⟨render text r, by rw [checkJsonData, engine]; dsimp only; rw [jsonToObj, e]; rfl, by rw [render_level]; exact ho⟩

/-- For every other class than environments and shells the check raises on every valid document. -/
theorem C51_other_types_violated (T : Str) (c : Cls) (hT : symbol T = .ok (.cls c)) (h1 : c ≠ .environment) (h2 : c ≠ .assetAdministrationShell)
    (j : Json) (hw : WF j) (r : Res Str) (hr : checkJsonData (engine text lim) j T = .ok r) : r.ok = false := by
  obtain ⟨g1, g2⟩ := C51_json_partial text lim T c hT j hw
  by_cases hc : Conforms (schema lim) (.cls c) j
  · obtain ⟨v, -, -, g3, g4⟩ := g2 hc
    by_cases ht : Trap lim c v
    · obtain ⟨e, -, he⟩ := g3 ht
      rw [he] at hr; cases hr
    · obtain ⟨r', he, hok⟩ := g4 ht
      rw [hr] at he
      injection he with he
      subst he
      rw [← Bool.not_eq_true, hok]
      rintro ⟨ho, -⟩
      refine ht (.inr ⟨ho, ?_⟩)
      cases c <;> first | trivial | exact absurd rfl h1 | exact absurd rfl h2
  · obtain ⟨r', he, hf⟩ := g1 hc
    rw [hr] at he
    injection he with he
    rw [he, hf]

/-- The classes of texts can be selected, too; the check raises on every valid text and reports the others. -/
theorem C51_texts_violated (T : Str) (s : SfvCls) (hT : symbol T = .ok (.sfv s)) (j : Json) (hw : WF j) :
    (Conforms (schema lim) (.sfv s) j → checkJsonData (engine text lim) j T = .error .attributeError) ∧
    (¬ Conforms (schema lim) (.sfv s) j → ∃ r, checkJsonData (engine text lim) j T = .ok r ∧ r.ok = false) := by
  have hres : (Res.new (⟨.title py!"Check meta model", []⟩ : Note)).ok = true := rfl
  have hn : j.size < j.size + 1 := Nat.lt_succ_self _
  obtain ⟨v, notes, h, hnotes⟩ := C35_returns (schema lim) (sane lim) (supported lim) (.sfv s) trivial j hw [] (j.size + 1) hn
    (Res.new ⟨.title py!"Check meta model", []⟩) hres
  have hok := C35_conforms (schema lim) (sane lim) (.sfv s) j hw [] (j.size + 1) hn _ _ _ hres h
  obtain ⟨h1, h2⟩ := C36_check (schema lim) jsonOps (fun a => a.value.size) json_lawful (sane lim) json_nonempty Fld.pyName (checks lim) (.sfv s)
    ⟨j, []⟩ (j.size + 1) hn v _ h
  rw [checkJsonData, engine]
  dsimp only
  rw [jsonToObj, toObj, hT]
  simp only [bind, Except.bind, ofAnn]
  constructor
  · intro hc
    obtain ⟨ht, -, he⟩ := h2 (hok.mpr hc)
    cases ht with
    | sfv hcon =>
      rename_i raw
      have hcc : ∀ r, checkConstraints Fld.pyName (checks lim) (.sfv s raw : AVal) [] r = .ok r := fun r => by simp [checkConstraints]
      rw [he, hcc]
      have : (((Res.new (⟨.title py!"Check", []⟩ : Note)).append ((Res.new ⟨.title py!"Check meta model", []⟩).appendAll (errs notes))).append
          (Res.new ⟨.title py!"Check constraints", []⟩)).ok = true := by
        rw [Res.append_ok, Res.append_ok]
        exact ⟨⟨rfl, hok.mpr hc⟩, rfl⟩
      simp only [Except.map, this]
      rfl
  · intro hc
    have hf : ((Res.new (⟨.title py!"Check meta model", []⟩ : Note)).appendAll (errs notes)).ok = false := by
      rw [← Bool.not_eq_true]; exact fun hh => hc (hok.mp hh)
    obtain ⟨e, hf'⟩ := h1 hf
    rw [e]
    simp only [hf']
    exact ⟨_, rfl, by rw [render_level]; exact hf'⟩

/-- Files: the model type is passed on with JSON, after the text is read. -/
theorem C51_json_file {X : Type} (g : Engine Json X) (f : Content Json X) (T : Str) :
    (∀ e, f.json = .error (.malformed e) → ∃ r, checkJsonFile g f T = .ok r ∧ r.ok = false) ∧
    (∀ e, f.json = .error (.raised e) → checkJsonFile g f T = .error e) ∧ (∀ d, f.json = .ok d → checkJsonFile g f T = checkJsonData g d T) := by
  refine ⟨fun e he => ⟨_, by rw [checkJsonFile, he], rfl⟩, fun e he => ?_, fun d hd => ?_⟩
  · rw [checkJsonFile, he]
  · rw [checkJsonFile, hd]

/-- … but not with XML: whatever the model type, the file is checked as an environment. -/
theorem C51_xml_file_violated {J X : Type} (g : Engine J X) (f : Content J X) (T : Str) (d : X) (hd : f.xml = .ok d) :
    checkXmlFile g f T = checkXmlData g d py!"Environment" := by
  rw [checkXmlFile, hd]; rfl

/-! ## XML -/

/-- XML data and a class: documents in the format are decided as in JSON, everything that is not in the format (up to the deviations of C66)
is reported. -/
theorem C51_xml_partial (T : Str) (c : Cls) (hT : symbol T = .ok (.cls c)) (x : Xml) :
    (∀ w, XDescribes (schema lim) false .item (.cls c) x w → ∃ v, HasType (schema lim) (.cls c) v ∧ strip v = w ∧
      (Trap lim c v → ∃ e, Mishap e ∧ checkXmlData (engine text lim) x T = .error e) ∧
      (¬ Trap lim c v → ∃ r, checkXmlData (engine text lim) x T = .ok r ∧ (r.ok = true ↔ Obeys lim v ∧ FollowsAll c v))) ∧
    (Named x → (∀ w, ¬ XDescribes (schema lim) true .item (.cls c) x w) → ∃ r, checkXmlData (engine text lim) x T = .ok r ∧ r.ok = false) := by
  have hc := good_symbols (symbol_iff.mp hT).1
  obtain ⟨h1, h2⟩ := C64_xml lim c hc x (x.size + 1) (Nat.lt_succ_self _)
  constructor
  · intro w hw
    obtain ⟨v, hv, hd, h3, h4⟩ := h1 w hw
    obtain ⟨g1, g2⟩ := toObj_spec xmlOps hT hv h3 h4
    refine ⟨v, hv, hd, fun ht => map_error (g1 ht), fun ht => ?_⟩
    obtain ⟨r, e, ho⟩ := g2 ht
    exact ⟨render text r, by rw [checkXmlData, engine]; dsimp only; rw [xmlToObj, e]; rfl, by rw [render_level]; exact ho⟩
  · intro hnm hno
    obtain ⟨r, v, g1, g2⟩ := toObj_wrong xmlOps hT (h2 hnm hno)
    exact ⟨render text r, by rw [checkXmlData, engine]; dsimp only; rw [xmlToObj, g1]; rfl, by rw [render_level]; exact g2⟩

/-! ## C50 -/

/-- JSON data against the default model type: the check raises only on documents that conform to the meta-model, and exactly if a check of
a rule raises or, with all rules obeyed, the check of a template raises. On all other documents a result is returned, and it is ok iff the
document conforms, obeys the rules and follows the templates. -/
theorem C50_json_partial (j : Json) (hw : WF j) :
    (¬ Conforms (schema lim) (.cls .environment) j → ∃ r, checkJsonData (engine text lim) j environment = .ok r ∧ r.ok = false) ∧
    (Conforms (schema lim) (.cls .environment) j →
      ∃ v, HasType (schema lim) (.cls .environment) v ∧ Describes (schema lim) (.cls .environment) j (strip v) ∧
      ((∃ e, checkJsonData (engine text lim) j environment = .error e) ↔
        Raising lim v ∨ (Obeys lim v ∧ ∃ p ∈ templated (elems v .submodels), RaisesSubmodel p.2 p.1)) ∧
      ∀ r, checkJsonData (engine text lim) j environment = .ok r →
        (r.ok = true ↔ Obeys lim v ∧ ∀ p ∈ templated (elems v .submodels), Follows true p.2 p.1)) := by
  obtain ⟨h1, h2⟩ := C51_json_partial text lim environment .environment (by decide +kernel) j hw
  refine ⟨h1, fun hc => ?_⟩
  obtain ⟨v, hv, hd, h3, h4⟩ := h2 hc
  refine ⟨v, hv, hd, ⟨fun ⟨e, he⟩ => ?_, fun ht => let ⟨e, _, he⟩ := h3 ht; ⟨e, he⟩⟩, fun r hr => ?_⟩
  · by_cases ht : Trap lim .environment v
    · exact ht
    · obtain ⟨r, hr, -⟩ := h4 ht
      rw [he] at hr; cases hr
  · have ht : ¬ Trap lim .environment v := fun ht => by
      obtain ⟨e, -, he⟩ := h3 ht
      rw [he] at hr; cases hr
    obtain ⟨r', hr', hok⟩ := h4 ht
    rw [hr] at hr'
    injection hr' with hr'
    subst hr'
    exact hok.trans (and_congr_right fun _ => ⟨fun h => h rfl, fun h _ => h⟩)

namespace EngineSamples
def semantic (s : Str) : Str × Json := (py!"semanticId", .obj [(py!"type", .str py!"ExternalReference"),
  (py!"keys", .arr [.obj [(py!"type", .str py!"GlobalReference"), (py!"value", .str s)]])])
/-- a submodel with the semantic id of a template but no elements -/
def emptyContacts : Json := .obj [(py!"submodels", .arr [.obj [(py!"modelType", .str py!"Submodel"), (py!"id", .str py!"urn:x"),
  semantic py!"https://admin-shell.io/zvei/nameplate/1/0/ContactInformations"]])]
/-- a shell derived from something that is not in the model -/
def derived : Json := .obj [(py!"assetAdministrationShells", .arr [.obj [(py!"modelType", .str py!"AssetAdministrationShell"), (py!"id", .str py!"urn:x"),
  (py!"assetInformation", .obj [(py!"assetKind", .str py!"Type"), (py!"globalAssetId", .str py!"urn:a")]),
  (py!"derivedFrom", .obj [(py!"type", .str py!"ExternalReference"),
    (py!"keys", .arr [.obj [(py!"type", .str py!"GlobalReference"), (py!"value", .str py!"urn:y")]])])]])]
def submodel : Json := .obj [(py!"modelType", .str py!"Submodel"), (py!"id", .str py!"urn:x")]
def shellXml : Xml := el py!"assetAdministrationShell" none [tx py!"id" py!"urn:x",
  el py!"assetInformation" none [tx py!"assetKind" py!"Type", tx py!"globalAssetId" py!"urn:a"]]
def verdictOf (x : Except PyExc (Res Str)) : Except PyExc Bool := x.map (·.ok)
end EngineSamples
open EngineSamples

example : verdictOf (checkJsonData (engine (fun _ => []) none) (sampleJson py!"CONSTANT") environment) = .ok true := by decide +kernel
example : verdictOf (checkJsonData (engine (fun _ => []) none) (sampleJson py!"wrong") environment) = .ok false := by decide +kernel

/-- An exception on a document without any error, and one on a document with a wrong reference. -/
theorem C50_violated : verdictOf (checkJsonData (engine (fun _ => []) none) emptyContacts environment) = .error .typeError ∧
    verdictOf (checkJsonData (engine (fun _ => []) none) derived environment) = .error .attributeError := by decide +kernel

/-- a valid submodel, and a valid shell as XML data and as XML file -/
theorem C51_violated : verdictOf (checkJsonData (engine (fun _ => []) none) submodel py!"Submodel") = .error .attributeError ∧
    verdictOf (checkXmlData (engine (fun _ => []) none) shellXml py!"AssetAdministrationShell") = .ok true ∧
    verdictOf (checkXmlFile (engine (fun _ => []) none) ⟨.error (.malformed []), .ok shellXml⟩ py!"AssetAdministrationShell") = .ok false := by decide +kernel

end Verif.Props
