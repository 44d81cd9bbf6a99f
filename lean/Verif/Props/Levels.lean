import Verif.Limits
import Verif.Props.EndToEnd

/-!
# C84: nested documents and the limit on recursion

`parse` calls itself for each level of the document, and Python stops at a limit on nested calls with a `RecursionError`. The model takes the limit as
the number of nested calls of `parse` (`fuel`): a document is checked under the limit `n` by `toObj _ lim n`, and the rest of the properties is about
limits that are large enough.
-/

namespace Verif.Props
open Verif Verif.Parse Verif.Aas Verif.Engine Verif.Spec.Parse Verif.Spec.Model Verif.Spec.Templates Verif.Spec.Engine Verif.Spec.Levels

theorem toObj_lim {A : Type} (ops : Ops A) (lim : Option Nat) (n m : Nat) (h : n ≤ m) (a : A) (T : Str) :
    Lim (toObj ops lim n a T) (toObj ops lim m a T) := by
  unfold toObj
  cases symbol T with
  | error e => exact .inr rfl
  | ok ann =>
    simp only [bind, Except.bind]
    unfold parseAndCheck
    rcases parseF_lim ops (schema lim) n m h (ofAnn ann) a (Res.new ⟨.title py!"Check meta model", []⟩) with h | h
    · rw [h]; exact .inl rfl
    · rw [h]; exact .inr rfl

/-! ## the levels of documents are a measure -/

theorem ofItems_mem : ∀ {l : List Json} {j : Json}, j ∈ l → ofJson j ≤ ofItems l
  | a :: l, j, h => by
    rcases List.mem_cons.mp h with rfl | h
    · simp only [ofItems]; omega
    · have := ofItems_mem h; simp only [ofItems]; omega

theorem ofMembers_mem : ∀ {l : List (Str × Json)} {e : Str × Json}, e ∈ l → ofJson e.2 ≤ ofMembers l
  | (k, a) :: l, e, h => by
    rcases List.mem_cons.mp h with rfl | h
    · simp only [ofMembers]; omega
    · have := ofMembers_mem h; simp only [ofMembers]; omega

theorem ofJson_pos (j : Json) : 0 < ofJson j := by cases j <;> simp [ofJson]

theorem ofChildren_mem : ∀ {l : List Xml} {x : Xml}, x ∈ l → ofXml x ≤ ofChildren l
  | a :: l, j, h => by
    rcases List.mem_cons.mp h with rfl | h
    · simp only [ofChildren]; omega
    · have := ofChildren_mem h; simp only [ofChildren]; omega

theorem ofXml_pos (x : Xml) : 0 < ofXml x := by cases x; simp [ofXml]

theorem ofXml_child {x c : Xml} (h : c ∈ x.children) : ofXml c < ofXml x := by
  cases x with
  | elem t s cs => have := ofChildren_mem (l := cs) h; simp only [ofXml]; omega

theorem json_levels : jsonOps.Lawful (fun a => ofJson a.value - 1) where
  object a obj h e he := by
    obtain ⟨kvs, hv, rfl⟩ := asObject_json h
    have := ofMembers_mem ((JsonA.mem_members _ _ _).mp he).2.2
    have := ofJson_pos e.2.value
    simp only [hv, ofJson] at *
    omega
  list a ae as h b hb := by
    obtain ⟨js, hv, -, rfl⟩ := asList_json h
    obtain ⟨i, hi, -⟩ := JsonA.mem_items hb
    have := ofItems_mem (List.mem_of_getElem? hi)
    have := ofJson_pos b.value
    simp only [hv, ofJson] at *
    omega

theorem data_levels {x d : Xml} (h : XmlA.data x = .ok d) : ofXml d ≤ ofXml x := by
  rcases XmlA.data_ok h with ⟨-, h⟩ | ⟨-, rfl⟩
  · exact Nat.le_of_lt (ofXml_child (by simp [h]))
  · exact Nat.le_refl _

theorem xml_levels : xmlOps.Lawful (fun a => ofXml a.value - 1) where
  object a obj h e he := by
    obtain ⟨d, hd, hm⟩ := XmlA.asObject_ok h
    have h1 := data_levels hd
    have h0 := ofXml_pos e.2.value
    rcases XmlA.mem_members hm e he with h' | ⟨c, hc, -, -, h2⟩
    · simp at h'
    · have h3 := ofXml_child hc
      rcases h2 with h2 | h2
      · rw [← h2] at h3; omega
      · have h4 := ofXml_child (x := c) (c := e.2.value) (by simp [h2])
        omega
  list a ae as h b hb := by
    obtain ⟨-, rfl⟩ := XmlA.asList_ok h
    obtain ⟨i, hi, -⟩ := XmlA.mem_items hb
    have := ofXml_child (List.mem_of_getElem? hi)
    have := ofXml_pos b.value
    omega

variable (lim : Option Nat)

/-! ## the properties -/

/-- The limit has no other effect than a `RecursionError` (a `RuntimeError`): any document in both formats, any model type. -/
theorem C84_limit (T : Str) (n : Nat) :
    (∀ j : Json, toObj jsonOps lim n ⟨j, []⟩ T = .error .runtimeError ∨ toObj jsonOps lim n ⟨j, []⟩ T = jsonToObj lim j T) ∧
    (∀ x : Xml, toObj xmlOps lim n ⟨x, []⟩ T = .error .runtimeError ∨ toObj xmlOps lim n ⟨x, []⟩ T = xmlToObj lim x T) := by
  constructor
  · intro j
    rcases Nat.le_total n (j.size + 1) with h | h
    · exact toObj_lim jsonOps lim _ _ h _ T
    · rcases toObj_lim jsonOps lim _ _ h ⟨j, []⟩ T with h' | h'
      · exfalso
        rcases toObj_only jsonOps json_quiet.kinds ⟨fun _ _ _ _ _ _ => trivial, fun _ _ _ _ _ _ _ => trivial⟩ (fun a => a.value.size) json_lawful
          json_nonempty (Nat.lt_succ_self _) trivial T _ h' with h | h | h | h <;> cases h
      · exact .inr h'.symm
  · intro x
    rcases Nat.le_total n (x.size + 1) with h | h
    · exact toObj_lim xmlOps lim _ _ h _ T
    · rcases toObj_lim xmlOps lim _ _ h ⟨x, []⟩ T with h' | h'
      · exfalso
        rcases toObj_only xmlOps xml_kinds ⟨fun _ _ _ _ _ _ => trivial, fun _ _ _ _ _ _ _ => trivial⟩ (fun a => a.value.size) xml_lawful
          xml_nonempty (Nat.lt_succ_self _) trivial T _ h' with h | h | h | h <;> cases h
      · exact .inr h'.symm

/-- Documents with no more levels than the limit are checked as without limit, whatever they contain. -/
theorem C84_enough (T : Str) (n : Nat) :
    (∀ j : Json, ofJson j ≤ n → toObj jsonOps lim n ⟨j, []⟩ T = jsonToObj lim j T) ∧
    (∀ x : Xml, ofXml x ≤ n → toObj xmlOps lim n ⟨x, []⟩ T = xmlToObj lim x T) := by
  constructor
  · intro j hj
    rcases (C84_limit lim T n).1 j with h | h
    · exfalso
      have := ofJson_pos j
      rcases toObj_only jsonOps json_quiet.kinds ⟨fun _ _ _ _ _ _ => trivial, fun _ _ _ _ _ _ _ => trivial⟩ (fun a => ofJson a.value - 1) json_levels
        json_nonempty (by simp only; omega) trivial T _ h with h | h | h | h <;> cases h
    · exact h
  · intro x hx
    rcases (C84_limit lim T n).2 x with h | h
    · exfalso
      have := ofXml_pos x
      rcases toObj_only xmlOps xml_kinds ⟨fun _ _ _ _ _ _ => trivial, fun _ _ _ _ _ _ _ => trivial⟩ (fun a => ofXml a.value - 1) xml_levels
        xml_nonempty (by simp only; omega) trivial T _ h with h | h | h | h <;> cases h
    · exact h

theorem toObj_runtime {A : Type} (ops : Ops A) {n : Nat} {a : A} {T : Str} {c : Cls} (hT : symbol T = .ok (.cls c))
    (h : parseF ops (schema lim) n (.cls c) a (Res.new ⟨.title py!"Check meta model", []⟩) = .error .runtimeError) :
    toObj ops lim n a T = .error .runtimeError := by
  rw [toObj_cls ops hT, checkDocument, parseAndCheck, h]

/-- JSON documents of the format: the limit is reached iff the content has more levels. -/
theorem C84_json (T : Str) (c : Cls) (hT : symbol T = .ok (.cls c)) (j : Json) (hw : WF j) (hc : Conforms (schema lim) (.cls c) j) (v : AVal)
    (hd : Spec.Parse.Describes (schema lim) (.cls c) j v) (n : Nat) :
    toObj jsonOps lim n ⟨j, []⟩ T = if ofVal v ≤ n then jsonToObj lim j T else .error .runtimeError := by
  obtain ⟨w, hr⟩ := Conforms.read (sane lim) hc hw []
  have hv : strip w = v := C65_unique (schema lim) (sane lim) (.cls c) j hw _ _ (Read.describes (sane lim) hr hw) hd
  have hl := Read.limit (sane lim) json_nonempty hr n (Res.new ⟨.title py!"Check meta model", []⟩) rfl
  rw [← ofVal_strip, hv] at hl
  by_cases h : ofVal v ≤ n
  · rw [if_pos h]
    rcases Nat.le_total n (j.size + 1) with h' | h'
    · rcases parseF_lim jsonOps (schema lim) _ _ h' (.cls c) ⟨j, []⟩ (Res.new ⟨.title py!"Check meta model", []⟩) with h2 | h2
      · rw [hl, limited, if_pos h] at h2; cases h2
      · rw [toObj_cls jsonOps hT, checkDocument, parseAndCheck, h2, jsonToObj, toObj_cls jsonOps hT, checkDocument, parseAndCheck]
    · rcases (C84_limit lim T n).1 j with h2 | h2
      · rcases toObj_lim jsonOps lim _ _ h' ⟨j, []⟩ T with h3 | h3
        · rw [h2, jsonToObj, h3]
        · rw [← h3, jsonToObj]
      · exact h2
  · rw [if_neg h]
    rw [limited, if_neg h] at hl
    exact toObj_runtime lim jsonOps hT hl

/-- XML documents that are accepted: the limit is reached iff the content has more levels. -/
theorem C84_xml (T : Str) (c : Cls) (hT : symbol T = .ok (.cls c)) (x : Xml) (v : AVal) (hd : XAccepts (schema lim) (.cls c) x v) (n : Nat) :
    toObj xmlOps lim n ⟨x, []⟩ T = if ofVal v ≤ n then xmlToObj lim x T else .error .runtimeError := by
  obtain ⟨w, hr, hv⟩ := XAccepts.read (sane lim) (xmlNames lim) hd []
  have hl := Read.limit (sane lim) xml_nonempty hr n (Res.new ⟨.title py!"Check meta model", []⟩) rfl
  rw [← ofVal_strip, hv] at hl
  by_cases h : ofVal v ≤ n
  · rw [if_pos h]
    rcases Nat.le_total n (x.size + 1) with h' | h'
    · rcases parseF_lim xmlOps (schema lim) _ _ h' (.cls c) ⟨x, []⟩ (Res.new ⟨.title py!"Check meta model", []⟩) with h2 | h2
      · rw [hl, limited, if_pos h] at h2; cases h2
      · rw [toObj_cls xmlOps hT, checkDocument, parseAndCheck, h2, xmlToObj, toObj_cls xmlOps hT, checkDocument, parseAndCheck]
    · rcases (C84_limit lim T n).2 x with h2 | h2
      · rcases toObj_lim xmlOps lim _ _ h' ⟨x, []⟩ T with h3 | h3
        · rw [h2, xmlToObj, h3]
        · rw [← h3, xmlToObj]
      · exact h2
  · rw [if_neg h]
    rw [limited, if_neg h] at hl
    exact toObj_runtime lim xmlOps hT hl

/-! ## documents of any depth -/

/-- the attributes of a submodel element without content, called `a` -/
def nestAttrs : List (Fld × AVal) :=
  [(.embeddedDataSpecifications, .none), (.qualifiers, .none), (.semanticId, .none), (.supplementalSemanticIds, .none), (.extensions, .none),
   (.category, .none), (.idShort, .sfv .nameTypeString py!"a"), (.displayName, .none), (.description, .none), (.idShortPath, .none)]

/-- collections within collections, `k` times, with a capability inside -/
def nestVal : Nat → AVal
  | 0 => .obj .capability nestAttrs
  | k + 1 => .obj .submodelElementCollection (nestAttrs ++ [(.value, .list [nestVal k])])

/-- a submodel with such an element -/
def nestSubmodel (k : Nat) : AVal :=
  .obj .submodel
    [(.embeddedDataSpecifications, .none), (.qualifiers, .none), (.semanticId, .none), (.supplementalSemanticIds, .none), (.kind, .none),
     (.extensions, .none), (.category, .none), (.idShort, .none), (.displayName, .none), (.description, .none), (.administration, .none),
     (.id, .sfv .identifierString py!"urn:x"), (.submodelElements, .list [nestVal k])]

/-- an environment with this submodel -/
def nestEnv (k : Nat) : AVal :=
  .obj .environment [(.assetAdministrationShells, .none), (.submodels, .list [nestSubmodel k]), (.conceptDescriptions, .none)]

/-- the same in JSON -/
def nestJson : Nat → Json
  | 0 => .obj [(py!"modelType", .str py!"Capability"), (py!"idShort", .str py!"a")]
  | k + 1 => .obj [(py!"modelType", .str py!"SubmodelElementCollection"), (py!"idShort", .str py!"a"), (py!"value", .arr [nestJson k])]

def nestDoc (k : Nat) : Json :=
  .obj [(py!"submodels", .arr [.obj [(py!"modelType", .str py!"Submodel"), (py!"id", .str py!"urn:x"), (py!"submodelElements", .arr [nestJson k])]])]

theorem none_ok {f : Fld} {key ty} : FieldOk (schema lim) ⟨f, .attr key ty false⟩ (f, .none) := ⟨rfl, .inl ⟨rfl, rfl⟩⟩

theorem nestAttrs_typed {fs as} (h : FieldsOk (schema lim) fs as) : FieldsOk (schema lim) ((fieldsOf .capability) ++ fs) (nestAttrs ++ as) := by
  refine .cons (none_ok lim) <| .cons (none_ok lim) <| .cons (none_ok lim) <| .cons (none_ok lim) <| .cons (none_ok lim) <| .cons (none_ok lim) <|
    .cons ⟨rfl, .inr (.sfv ?_)⟩ <| .cons (none_ok lim) <| .cons (none_ok lim) <| .cons ⟨rfl, .inl rfl⟩ h
  rfl

theorem nestVal_typed : ∀ k, HasType (schema lim) (.cls .submodelElement) (nestVal k)
  | 0 => by
    unfold nestVal
    have := nestAttrs_typed lim .nil
    simp only [List.append_nil] at this
    exact hasType_obj.mpr ⟨.inr ⟨rfl, (by decide +kernel : Cls.capability ∈ subclassesOf .submodelElement)⟩, this⟩
  | k + 1 => by
    unfold nestVal
    refine hasType_obj.mpr ⟨.inr ⟨rfl, (by decide +kernel : Cls.submodelElementCollection ∈ subclassesOf .submodelElement)⟩, ?_⟩
    exact nestAttrs_typed lim (.cons ⟨rfl, .inr (.list (.inl (by simp)) (by simpa using nestVal_typed k))⟩ .nil)

theorem nestEnv_typed (k : Nat) : HasType (schema lim) (.cls .environment) (nestEnv k) := by
  unfold nestEnv
  refine hasType_obj.mpr ⟨.inl ⟨rfl, rfl⟩, .cons (none_ok lim) <| .cons ⟨rfl, .inr (.list (.inl (by simp)) ?_)⟩ <| .cons (none_ok lim) .nil⟩
  simp only [List.mem_singleton]
  rintro v rfl
  refine hasType_obj.mpr ⟨.inl ⟨rfl, rfl⟩, .cons (none_ok lim) <| .cons (none_ok lim) <| .cons (none_ok lim) <| .cons (none_ok lim) <|
    .cons (none_ok lim) <| .cons (none_ok lim) <| .cons (none_ok lim) <| .cons (none_ok lim) <| .cons (none_ok lim) <| .cons (none_ok lim) <|
    .cons (none_ok lim) <| .cons ⟨rfl, .inr (.sfv ?_)⟩ <| .cons ⟨rfl, .inr (.list (.inl (by simp)) ?_)⟩ .nil⟩
  · rfl
  · simpa using nestVal_typed lim k

theorem nestVal_levels : ∀ k, ofVal (nestVal k) = 2 * k + 2
  | 0 => rfl
  | k + 1 => by
    have := nestVal_levels k
    simp only [nestVal, nestAttrs, List.cons_append, List.nil_append, ofVal, ofAttrs, ofVals, this]
    omega

theorem nestEnv_levels (k : Nat) : ofVal (nestEnv k) = 2 * k + 6 := by
  have := nestVal_levels k
  simp only [nestEnv, nestSubmodel, ofVal, ofAttrs, ofVals, this]
  omega

/-- the classes with a `modelType` in `nestJson` -/
def nestTagged : Cls → Bool
  | .environment => false
  | c => needsModelTypeOf c || (subclassesOf .submodelElement).contains c || (subclassesOf .dataElement).contains c
      || (subclassesOf .dataSpecificationContent).contains c

theorem nest_json : ∀ k, toJson (schema lim) nestTagged (nestVal k) = nestJson k
  | 0 => by rfl
  | k + 1 => by
    have := nest_json k
    rw [nestJson, ← this]
    cases k <;> rfl

theorem nestVal_checks : ∀ k p res, checkConstraints Fld.pyName (checks lim) (nestVal k) p res = .ok res
  | 0, _, _ => by rfl
  | k + 1, p, res => by
    have h : runChecks (nestVal (k + 1)) p (checks lim .submodelElementCollection) res = .ok res := by cases k <;> rfl
    have hk := nestVal_checks k
    unfold nestVal at h ⊢
    rw [checkConstraints, h]
    simp only [nestAttrs, List.cons_append, List.nil_append, checkAttrs, checkItems, checkConstraints, hk]

theorem nestEnv_checks (k : Nat) (res : Res Note) : checkConstraints Fld.pyName (checks lim) (nestEnv k) [] res = .ok res := by
  have hk := nestVal_checks lim k
  have hs : ∀ p, runChecks (nestSubmodel k) p (checks lim .submodel) res = .ok res := fun p => by cases k <;> rfl
  unfold nestSubmodel at hs
  unfold nestEnv nestSubmodel
  rw [checkConstraints, show checks lim .environment = [] from rfl]
  simp only [runChecks, checkAttrs, checkItems, checkConstraints, hs, hk]

theorem nest_obeys (k : Nat) : Obeys lim (nestEnv k) ∧ ¬ Trap lim .environment (nestEnv k) ∧ FollowsAll .environment (nestEnv k) := by
  have hc := nestEnv_checks lim k (Res.new ⟨.skipped, []⟩)
  obtain ⟨h1, h2⟩ := C64_constraints lim .environment (by decide) _ (nestEnv_typed lim k) ⟨.skipped, []⟩
  have hr : ¬ Raising lim (nestEnv k) := fun h => by
    obtain ⟨e, -, he⟩ := h1 h
    rw [hc] at he
    cases he
  obtain ⟨r, he, hok, -⟩ := h2 hr
  rw [hc] at he
  cases he
  have ht : templated (elems (nestEnv k) .submodels) = [] := rfl
  refine ⟨hok.mp rfl, ?_, ?_⟩
  · rintro (h | ⟨-, p, hp, -⟩)
    · exact hr h
    · rw [ht] at hp; cases hp
  · intro _ p hp
    rw [ht] at hp; cases hp

theorem nestTags : TagsNeeded (schema lim) nestTagged := by
  constructor
  · intro c
    change needsModelTypeOf c = true → nestTagged c = true
    cases c <;> decide +kernel
  · intro c c'
    change isAbstract c = true → c' ∈ subclassesOf c → nestTagged c' = true
    revert c'
    cases c <;> first | (intro _ h; exact absurd h (by decide)) | (intro c' _; revert c'; decide +kernel)

theorem nestDoc_eq (k : Nat) : toJson (schema lim) nestTagged (nestEnv k) = nestDoc k := by
  rw [nestDoc, ← nest_json lim k]
  cases k <;> rfl

theorem nestJson_wf : ∀ k, WF (nestJson k)
  | 0 => wf_sound _ (by decide +kernel)
  | k + 1 => by
    have := nestJson_wf k
    unfold nestJson
    refine .obj (by simp only [List.map_cons, List.map_nil]; decide +kernel) ?_
    simp only [List.mem_cons, List.not_mem_nil, or_false]
    rintro e (rfl | rfl | rfl)
    · exact .str _
    · exact .str _
    · exact .arr (by simpa using this)

theorem nestDoc_wf (k : Nat) : WF (nestDoc k) := by
  have := nestJson_wf k
  unfold nestDoc
  refine .obj (by simp only [List.map_cons, List.map_nil]; decide +kernel) ?_
  simp only [List.mem_singleton]
  rintro e rfl
  refine .arr ?_
  simp only [List.mem_singleton]
  rintro e rfl
  refine .obj (by simp only [List.map_cons, List.map_nil]; decide +kernel) ?_
  simp only [List.mem_cons, List.not_mem_nil, or_false]
  rintro e (rfl | rfl | rfl)
  · exact .str _
  · exact .str _
  · exact .arr (by simpa using this)

theorem nest_strip : ∀ k, strip (nestVal k) = nestVal k
  | 0 => rfl
  | k + 1 => by
    have := nest_strip k
    simp only [nestVal, nestAttrs, List.cons_append, List.nil_append, strip, strip.stripA, strip.stripL, this]

theorem nestEnv_strip (k : Nat) : strip (nestEnv k) = nestEnv k := by
  simp only [nestEnv, nestSubmodel, strip, strip.stripA, strip.stripL, nest_strip]

/-- Whatever the limit, there is a valid document that is accepted without limit and cannot be checked with it: JSON and XML. -/
theorem C84_deep (n : Nat) :
    (∃ j, WF j ∧ ValidJson lim .environment j ∧ ¬ TripsJson lim .environment j ∧
      toObj jsonOps lim n ⟨j, []⟩ py!"Environment" = .error .runtimeError) ∧
    (∃ x w, XDescribes (schema lim) false .item (.cls .environment) x w ∧ ValidXml lim .environment x ∧ ¬ TripsXml lim .environment x ∧
      toObj xmlOps lim n ⟨x, []⟩ py!"Environment" = .error .runtimeError) := by
  have hT : symbol py!"Environment" = .ok (.cls .environment) := by decide +kernel
  obtain ⟨ho, htr, hf⟩ := nest_obeys lim n
  have hlev : ¬ ofVal (nestEnv n) ≤ n := by rw [nestEnv_levels n]; omega
  constructor
  · obtain ⟨w, hp, hs⟩ := C40_json_content (schema lim) (sane lim) (distinctKeys lim) nestTagged (nestTags lim) (.cls .environment) _ (nestEnv_typed lim n)
      _ (Nat.lt_succ_self _) (Res.new ⟨.skipped, []⟩) rfl
    rw [nestDoc_eq] at hp
    rw [nestEnv_strip] at hs
    have hd := C65_content (schema lim) (sane lim) _ _ (nestDoc_wf n) [] _ (Nat.lt_succ_self _) _ _ _ hp rfl
    have hc := (C35_conforms (schema lim) (sane lim) _ _ (nestDoc_wf n) [] _ (Nat.lt_succ_self _) _ _ _ rfl hp).mp rfl
    rw [hs] at hd
    refine ⟨nestDoc n, nestDoc_wf n, ⟨hc, _, hd, ho, hf⟩, ?_, ?_⟩
    · rintro ⟨-, w', hd', ht⟩
      rw [C65_unique (schema lim) (sane lim) _ _ (nestDoc_wf n) _ _ hd' hd] at ht
      exact htr ht
    · rw [C84_json lim _ _ hT _ (nestDoc_wf n) hc _ hd, if_neg hlev]
  · have hx := HasType.xml (xmlNames lim) (distinctKeys lim) (nestEnv_typed lim n) .item _ (fun _ _ _ => rfl) (fun h => by cases h)
    rw [nestEnv_strip] at hx
    have ha := (C83_format (schema lim) (sane lim) (xmlNames lim) _ _ _).1 hx
    refine ⟨_, _, hx, ⟨_, ha, ho, hf⟩, ?_, ?_⟩
    · rintro ⟨w', ha', ht⟩
      rw [C83_unique (schema lim) (sane lim) (xmlNames lim) _ _ _ _ ha' ha] at ht
      exact htr ht
    · rw [C84_xml lim _ _ hT _ _ ha, if_neg hlev]

/-! ## the constraint stage -/

theorem within_lim {q : Prop} {x y : Except PyExc (Res Note)} (h : Within q x y) : Lim x y := by
  by_cases hq : q
  · exact .inr (h.1 hq)
  · rcases h.2 hq with h | ⟨e, rfl, rfl⟩
    · exact .inl h
    · exact .inr rfl

theorem stages {A : Type} (ops : Ops A) (size : A → Nat) (hl : ops.Lawful size) (he : ∀ a as, ops.asList a false = .ok as → as ≠ []) (a : A) (T : Str)
    (n m : Nat) : Lim (toObjN ops lim n m a T) (toObj ops lim n a T) ∧ (n < m → toObjN ops lim n m a T = toObj ops lim n a T) := by
  unfold toObjN toObj
  cases symbol T with
  | error e => exact ⟨.inr rfl, fun _ => rfl⟩
  | ok ann =>
    simp only [bind, Except.bind]
    unfold parseAndCheckN parseAndCheck
    cases hp : parseF ops (schema lim) n (ofAnn ann) a (Res.new ⟨.title py!"Check meta model", []⟩) with
    | error e => exact ⟨.inr rfl, fun _ => rfl⟩
    | ok q =>
      obtain ⟨v, r⟩ := q
      dsimp only
      by_cases hok : ((Res.new ⟨.title py!"Check", []⟩).append r).ok = true
      · rw [if_pos hok, if_pos hok]
        have hw := checkConstraintsN_spec Fld.pyName (checks lim) v m [] (Res.new ⟨.title py!"Check constraints", []⟩)
        constructor
        · rcases within_lim hw with h | h
          · rw [h]; exact .inl rfl
          · rw [h]; exact .inr rfl
        · intro hnm
          have hread : Read ops (schema lim) (ofAnn ann) a v := by
            have hbig := parseF_good ops (schema lim) size hl (fun _ => True) ⟨fun _ _ _ _ _ _ => trivial, fun _ _ _ _ _ _ _ => trivial⟩
              (max n (size a + 1)) (ofAnn ann) a (by omega) trivial (Res.new ⟨.title py!"Check meta model", []⟩)
            rcases parseF_lim ops (schema lim) n (max n (size a + 1)) (by omega) (ofAnn ann) a (Res.new ⟨.title py!"Check meta model", []⟩) with h | h
            · rw [hp] at h; cases h
            · rw [← h, hp] at hbig
              obtain ⟨notes, h1, -, -, h3⟩ := hbig
              have hr : r.ok = true := ((Res.append_ok _ r).mp hok).2
              rw [h1] at hr
              exact h3 ((appendAll_errs_ok _ _).mp hr).2 rfl
          have h1 := (Read.within (sane lim) he hread rfl hp).1
          have h2 := objLevels_le v
          rw [hw.1 (by omega)]
          rfl
      · rw [if_neg hok, if_neg hok]
        exact ⟨.inr rfl, fun _ => rfl⟩

/-- The constraint stage: also a limit on the nested calls of `check_constraints` has no other effect than a `RecursionError`, and if it is higher than
that for `parse` it is never reached; so what could be parsed can be checked. All documents in both formats, any model type. -/
theorem C84_constraints (T : Str) (n m : Nat) :
    (∀ j : Json, (toObjN jsonOps lim n m ⟨j, []⟩ T = .error .runtimeError ∨ toObjN jsonOps lim n m ⟨j, []⟩ T = toObj jsonOps lim n ⟨j, []⟩ T) ∧
      (n < m → toObjN jsonOps lim n m ⟨j, []⟩ T = toObj jsonOps lim n ⟨j, []⟩ T)) ∧
    (∀ x : Xml, (toObjN xmlOps lim n m ⟨x, []⟩ T = .error .runtimeError ∨ toObjN xmlOps lim n m ⟨x, []⟩ T = toObj xmlOps lim n ⟨x, []⟩ T) ∧
      (n < m → toObjN xmlOps lim n m ⟨x, []⟩ T = toObj xmlOps lim n ⟨x, []⟩ T)) :=
  ⟨fun j => stages lim jsonOps _ json_lawful json_nonempty ⟨j, []⟩ T n m, fun x => stages lim xmlOps _ xml_lawful xml_nonempty ⟨x, []⟩ T n m⟩

/-- The bound is exact: there is a document that can be parsed with one call, and whose constraints can only be checked with two. -/
theorem C84_constraints_exact : (toObjN jsonOps lim 1 1 ⟨.obj [], []⟩ py!"Environment").map (fun x => x.1.ok) = .error .runtimeError ∧
    (toObjN jsonOps lim 1 2 ⟨.obj [], []⟩ py!"Environment").map (fun x => x.1.ok) = .ok true := ⟨rfl, rfl⟩

/-! ## examples -/

/-- three collections within each other need twelve nested calls -/
example : ofVal (nestEnv 3) = 12 ∧ ofJson (nestDoc 3) = 12 := by decide +kernel

/-- with eleven the check stops, with twelve it is as without limit -/
example : (toObj jsonOps none 11 ⟨nestDoc 3, []⟩ py!"Environment").map (fun x => x.1.ok) = .error .runtimeError ∧
    (toObj jsonOps none 12 ⟨nestDoc 3, []⟩ py!"Environment").map (fun x => x.1.ok) = .ok true ∧
    (jsonToObj none (nestDoc 3) py!"Environment").map (fun x => x.1.ok) = .ok true := by decide +kernel

/-- the constraint stage of this document needs seven calls: lists do not count -/
example : (toObjN jsonOps none 12 5 ⟨nestDoc 3, []⟩ py!"Environment").map (fun x => x.1.ok) = .error .runtimeError ∧
    (toObjN jsonOps none 12 6 ⟨nestDoc 3, []⟩ py!"Environment").map (fun x => x.1.ok) = .error .runtimeError ∧
    (toObjN jsonOps none 12 7 ⟨nestDoc 3, []⟩ py!"Environment").map (fun x => x.1.ok) = .ok true := by decide +kernel

/-- what is not read does not count: the levels of the document are only an upper bound for documents with mistakes -/
example : ofJson (.obj [(py!"x", .arr [.arr [.null]])]) = 4 ∧
    (toObj jsonOps none 1 ⟨.obj [(py!"x", .arr [.arr [.null]])], []⟩ py!"Environment").map (fun x => x.1.ok) = .ok false := by decide +kernel

end Verif.Props
