import Verif.MetamodelXml
import Verif.Props.Formats

/-!
# C102: XML documents of the specification are accepted
-/

namespace Verif.Props
open Verif Verif.Parse Verif.Spec Verif.Spec.Parse Verif.Aas Verif.Spec.Model Verif.Spec.Engine Verif.Spec.Metamodel Res

variable (lim : Option Nat)

/-- C102: every XML element that is an instance of a class of the specification is accepted: the engine knows all names of elements and where
objects of abstract classes are wrapped. -/
theorem C102_complete (T : SfvCls → Str → Prop) (hT : ∀ f s, T f s → AcceptedText lim f s) (c : Cls) (x : Xml) (h : XInstance T (.element c.pyName) x) :
    ∃ w, XAccepts (schema lim) (.cls c) x w :=
  (xfine_of lim T hT h).2 c rfl

/-- C102, for the engine: on XML documents of the specification nothing is reported but broken rules. -/
theorem C102_document (c : Cls) (hc : Root c.pyName) (x : Xml) (n : Nat) (hn : x.size < n) (h : XInstance (AcceptedText lim) (.element c.pyName) x) :
    ∃ v, HasType (schema lim) (.cls c) v ∧
      (Raising lim v → ∃ e, Mishap e ∧ checkDocument xmlOps lim n c ⟨x, []⟩ = .error e) ∧
      (¬ Raising lim v → ∃ r, checkDocument xmlOps lim n c ⟨x, []⟩ = .ok (r, v) ∧ (r.ok = true ↔ ∀ p t, ¬ Breaks lim v p t .error)) := by
  obtain ⟨w, hw⟩ := C102_complete lim _ (fun _ _ h => h) c x h
  obtain ⟨v, h1, -, h3, h4⟩ := (C83_document lim c (root_not_lang c hc) x n hn).1 w hw
  exact ⟨v, h1, h3, h4⟩

/-- C102, the other way: what is accepted has the content of an instance of the class, here written in JSON. Partial: with the exceptions of
`C101_sound_partial`; and `C66_format_violated` shows elements that are accepted without being in the format. -/
theorem C102_content_partial (c : Cls) (hc : Root c.pyName) (x : Xml) (w : AVal) (h : XAccepts (schema lim) (.cls c) x w) :
    ∃ j, Spec.Parse.Describes (schema lim) (.cls c) j w ∧
      ((∀ kvs, Part j (.obj kvs) → Unsuspicious (AcceptedText lim) kvs ∧ ElementTyped kvs) → Instance (AcceptedText lim) (.one c.pyName) j) := by
  have hres : (Res.new (⟨.title [], []⟩ : Note)).ok = true := rfl
  obtain ⟨v, -, rfl, hr⟩ := xml_reads (schema lim) (sane lim) (xmlNames lim) h (Nat.lt_succ_self _) hres
  have hv := Read.typed (sane lim) xml_nonempty hr
  obtain ⟨v', hr', hst⟩ := HasType.read_json (sane lim) (distinctKeys lim) (nestTags lim) hv []
  have hw : WF (toJson (schema lim) nestTagged v) := wf_toJson (distinctKeys lim) noModelType v
  exact ⟨_, hst ▸ Read.describes (sane lim) hr' hw,
    fun hu => C101_sound_partial lim _ (fun _ _ h => h) c hc _ hu (Read.conforms (sane lim) hr' hw)⟩

/-! ## examples -/

/-- an element with a text -/
def mmText (name s : Str) : Xml := .elem (xmlns ++ name) (some s) []

theorem mmText_value {T : SfvCls → Str → Prop} {a : Attribute} {name s : Str} (h : (match a.kind with
    | .text f => T f s
    | .plain => True
    | .literal e => s ∈ literals e
    | .flag => s = py!"true" ∨ s = py!"1"
    | _ => False)) : XInstance T (.value a.kind) (mmText name s) := by
  cases hk : a.kind with
  | text f => rw [hk] at h; exact .text rfl h
  | plain => exact .plain rfl
  | literal e => rw [hk] at h; exact .literal rfl h
  | flag =>
    rw [hk] at h
    rcases h with rfl | rfl
    · exact .flag rfl (Or.inl rfl)
    · exact .flag rfl (Or.inr (Or.inr (Or.inl rfl)))
  | one c => rw [hk] at h; exact h.elim
  | many c => rw [hk] at h; exact h.elim

/-- the level, with the booleans written as numbers -/
def mmLevel : Xml := .elem (xmlns ++ py!"levelType") none
  [mmText py!"min" py!"1", mmText py!"nom" py!"true", mmText py!"typ" py!"true", mmText py!"max" py!"1"]

theorem mmLevel_instance (T : SfvCls → Str → Prop) : XInstance T (.element py!"LevelType") mmLevel := by
  refine .element { name := py!"LevelType", attributes := [req py!"min" .flag, req py!"nom" .flag, req py!"typ" .flag, req py!"max" .flag] }
    (by simp [classes]) (by decide) (by decide +kernel) (.object ?_ (by decide +kernel) ?_ ?_ ?_)
  · intro s h; cases h
  · intro y hy
    simp only [mmLevel, Xml.children, List.mem_cons, List.not_mem_nil, or_false] at hy
    rcases hy with rfl | rfl | rfl | rfl
    · exact ⟨_, List.mem_cons_self, rfl⟩
    · exact ⟨req py!"nom" .flag, by simp, rfl⟩
    · exact ⟨req py!"typ" .flag, by simp, rfl⟩
    · exact ⟨req py!"max" .flag, by simp, rfl⟩
  · intro a ha _
    simp only [List.mem_cons, List.not_mem_nil, or_false] at ha
    rcases ha with rfl | rfl | rfl | rfl
    · exact ⟨mmText py!"min" py!"1", by simp [mmLevel, Xml.children], rfl⟩
    · exact ⟨mmText py!"nom" py!"true", by simp [mmLevel, Xml.children], rfl⟩
    · exact ⟨mmText py!"typ" py!"true", by simp [mmLevel, Xml.children], rfl⟩
    · exact ⟨mmText py!"max" py!"1", by simp [mmLevel, Xml.children], rfl⟩
  · intro a ha y hy _
    have hk : a.kind = .flag := by
      simp only [List.mem_cons, List.not_mem_nil, or_false] at ha
      rcases ha with rfl | rfl | rfl | rfl <;> rfl
    simp only [mmLevel, Xml.children, List.mem_cons, List.not_mem_nil, or_false] at hy
    rcases hy with rfl | rfl | rfl | rfl <;> refine mmText_value ?_ <;> rw [hk]
    · exact Or.inr rfl
    · exact Or.inl rfl
    · exact Or.inl rfl
    · exact Or.inr rfl

example : ∃ w, XAccepts (schema none) (.cls .levelType) mmLevel w :=
  C102_complete none (AcceptedText none) (fun _ _ h => h) .levelType mmLevel (mmLevel_instance _)

theorem mm_object {T : SfvCls → Str → Prop} {d : Class} {tag : Str} (kids : List (Attribute × Xml))
    (h : ∀ p ∈ kids, p.1 ∈ d.attributes ∧ p.2.tag = xmlns ++ p.1.name ∧ XInstance T (.value p.1.kind) p.2)
    (hn : (kids.map fun p => p.1.name).Nodup) (hu : ∀ p ∈ kids, ∀ a ∈ d.attributes, p.1.name = a.name → p.1.kind = a.kind)
    (hr : ∀ a ∈ d.attributes, a.required = true → ∃ p ∈ kids, p.1.name = a.name) :
    XInstance T (.object d) (.elem tag none (kids.map Prod.snd)) := by
  refine .object (fun s e => by cases e) ?_ ?_ ?_ ?_
  · have e : ((kids.map Prod.snd).map Xml.tag) = (kids.map fun p => p.1.name).map (xmlns ++ ·) := by
      rw [List.map_map, List.map_map]
      exact List.map_congr_left fun p hp => (h p hp).2.1
    show ((kids.map Prod.snd).map Xml.tag).Nodup
    rw [e]
    exact List.Pairwise.map _ (fun a b hab e => hab (List.append_cancel_left e)) hn
  · intro y hy
    obtain ⟨p, hp, rfl⟩ := List.mem_map.mp hy
    exact ⟨p.1, (h p hp).1, (h p hp).2.1⟩
  · intro a ha hreq
    obtain ⟨p, hp, e⟩ := hr a ha hreq
    exact ⟨p.2, List.mem_map.mpr ⟨p, hp, rfl⟩, by rw [← e]; exact (h p hp).2.1⟩
  · intro a ha y hy ht
    obtain ⟨p, hp, rfl⟩ := List.mem_map.mp hy
    rw [(h p hp).2.1] at ht
    rw [← hu p hp a ha (List.append_cancel_left ht)]
    exact (h p hp).2.2

/-- an operation with a wrapped variable and a name in a language -/
def mmOperation : Xml := .elem (xmlns ++ py!"operation") none
  [.elem (xmlns ++ py!"displayName") none
    [.elem (xmlns ++ py!"langStringNameType") none [mmText py!"language" py!"de", mmText py!"text" py!"Start"]],
   .elem (xmlns ++ py!"inputVariables") none
    [.elem (xmlns ++ py!"operationVariable") none
      [.elem (xmlns ++ py!"value") none [.elem (xmlns ++ py!"property") none [mmText py!"valueType" py!"xs:int"]]]]]

theorem mmOperation_instance (T : SfvCls → Str → Prop) : XInstance T (.element py!"SubmodelElement") mmOperation := by
  have hname : XInstance T (.element py!"MultiLanguageNameType")
      (.elem (xmlns ++ py!"langStringNameType") none [mmText py!"language" py!"de", mmText py!"text" py!"Start"]) :=
    .element ⟨py!"MultiLanguageNameType", langString, false⟩ (by simp [classes]) (by decide) (by decide +kernel)
      (mm_object [(req py!"language" .plain, mmText py!"language" py!"de"), (req py!"text" .plain, mmText py!"text" py!"Start")]
        (by
          intro p hp
          simp only [List.mem_cons, List.not_mem_nil, or_false] at hp
          rcases hp with rfl | rfl
          · exact ⟨by simp [langString], rfl, .plain rfl⟩
          · exact ⟨by simp [langString], rfl, .plain rfl⟩)
        (by decide +kernel) (by decide +kernel) (by decide +kernel))
  have hprop : XInstance T (.element py!"SubmodelElement") (.elem (xmlns ++ py!"property") none [mmText py!"valueType" py!"xs:int"]) :=
    .element ⟨py!"Property", submodelElement ++ [req py!"valueType" (.literal .dataTypeDefXsd), opt py!"value" (.text .valueDataType),
        opt py!"valueId" Metamodel.reference], true⟩ (by simp [classes]) (by decide) (by decide +kernel)
      (mm_object [(req py!"valueType" (.literal .dataTypeDefXsd), mmText py!"valueType" py!"xs:int")]
        (by
          intro p hp
          simp only [List.mem_cons, List.not_mem_nil, or_false] at hp
          subst hp
          exact ⟨by simp, rfl, .literal rfl (by decide +kernel)⟩)
        (by decide +kernel) (by decide +kernel) (by decide +kernel))
  have hvar : XInstance T (.element py!"OperationVariable") (.elem (xmlns ++ py!"operationVariable") none
      [.elem (xmlns ++ py!"value") none [.elem (xmlns ++ py!"property") none [mmText py!"valueType" py!"xs:int"]]]) :=
    .element ⟨py!"OperationVariable", [req py!"value" (.one py!"SubmodelElement")], false⟩ (by simp [classes]) (by decide) (by decide +kernel)
      (mm_object [(req py!"value" (.one py!"SubmodelElement"),
          .elem (xmlns ++ py!"value") none [.elem (xmlns ++ py!"property") none [mmText py!"valueType" py!"xs:int"]])]
        (by
          intro p hp
          simp only [List.mem_cons, List.not_mem_nil, or_false] at hp
          subst hp
          exact ⟨by simp, rfl, .choice (by decide) (fun s e => by cases e) rfl hprop⟩)
        (by decide +kernel) (by decide +kernel) (by decide +kernel))
  refine .element ⟨py!"Operation", submodelElement ++ [opt py!"inputVariables" (.many py!"OperationVariable"),
      opt py!"outputVariables" (.many py!"OperationVariable"), opt py!"inoutputVariables" (.many py!"OperationVariable")], true⟩
      (by simp [classes]) (by decide) (by decide +kernel)
    (mm_object [(opt py!"displayName" (.many py!"MultiLanguageNameType"), _), (opt py!"inputVariables" (.many py!"OperationVariable"), _)]
      ?_ (by decide +kernel) (by decide +kernel) (by decide +kernel))
  intro p hp
  simp only [List.mem_cons, List.not_mem_nil, or_false] at hp
  rcases hp with rfl | rfl
  · refine ⟨by simp [submodelElement, referable], rfl, .many (fun s e => by cases e) (by simp [Xml.children]) fun y hy => ?_⟩
    rw [List.mem_singleton.mp hy]
    exact hname
  · refine ⟨by simp, rfl, .many (fun s e => by cases e) (by simp [Xml.children]) fun y hy => ?_⟩
    rw [List.mem_singleton.mp hy]
    exact hvar

example : ∃ w, XAccepts (schema none) (.cls .submodelElement) mmOperation w :=
  C102_complete none (AcceptedText none) (fun _ _ h => h) .submodelElement mmOperation (mmOperation_instance _)

theorem mm_root : Root Cls.levelType.pyName := ⟨Or.inr ⟨_, List.mem_of_getElem? (i := classes.findIdx (·.name = py!"LevelType")) rfl, rfl⟩, by decide, by decide⟩

example : ∃ v, HasType (schema none) (.cls .levelType) v ∧
      (Raising none v → ∃ e, Mishap e ∧ checkDocument xmlOps none 6 .levelType ⟨mmLevel, []⟩ = .error e) ∧
      (¬ Raising none v → ∃ r, checkDocument xmlOps none 6 .levelType ⟨mmLevel, []⟩ = .ok (r, v) ∧ (r.ok = true ↔ ∀ p t, ¬ Breaks none v p t .error)) :=
  C102_document none .levelType mm_root mmLevel 6 (by decide) (mmLevel_instance _)

example : ∃ w j, Spec.Parse.Describes (schema none) (.cls .levelType) j w ∧
      ((∀ kvs, Part j (.obj kvs) → Unsuspicious (AcceptedText none) kvs ∧ ElementTyped kvs) → Instance (AcceptedText none) (.one Cls.levelType.pyName) j) :=
  let ⟨w, hw⟩ := C102_complete none (AcceptedText none) (fun _ _ h => h) .levelType mmLevel (mmLevel_instance _)
  ⟨w, C102_content_partial none .levelType mm_root mmLevel w hw⟩

/-- the boolean `1`, which is `true` in XML, is read as `False` -/
theorem C102_boolean_violated : XInstance (AcceptedText none) (.element py!"LevelType") mmLevel ∧
    (checkDocument xmlOps none (mmLevel.size + 1) .levelType ⟨mmLevel, []⟩).map (fun r => (r.1.ok, r.2)) =
      .ok (true, .obj .levelType [(.min, .bool false), (.nom, .bool true), (.typ, .bool true), (.max, .bool false)]) :=
  ⟨mmLevel_instance _, rfl⟩

end Verif.Props
