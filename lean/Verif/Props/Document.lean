import Verif.DocumentLemmas
import Verif.Props.Constraints
import Verif.Samples

/-!
# C64, C65: whole documents

The parser (C35 to C38), the meta-model and its constraints (C42 to C48, C61 to C63) together. `Conforms`, `Describes`, `Nested`, `Broken`
and `Crashes` are specifications, `parseAndCheck` is the code.
-/

namespace Verif.Props
open Verif Verif.Parse Verif.Spec.Parse Verif.Spec.Model Verif.Aas Verif.DataTypes Verif.Spec Res
open Verif.Aas.Samples (mk key ref modelRef badRef globalRef obj_of_check)

variable (lim : Option Nat)

theorem num128_eq : Num128 lim = IndexText lim := funext fun s => propext (num128_iff lim s)

/-- an object of the document lets a check raise -/
def Raising (v : AVal) : Prop := ∃ p x, Nested Fld.pyName v p x ∧ Crashes lim x

/-- the object at the path breaks a rule -/
def Breaks (v : AVal) (p : List PTok) (text : Str) (level : Level) : Prop :=
  ∃ x, Nested Fld.pyName v p x ∧ Broken lim (IndexText lim) x text level

theorem Broken.level {lim N v t l} (h : Broken lim N v t l) : l = .error ∨ l = .warning := by
  cases h <;> simp

/-- the classes that occur in documents: all but `LangStringSet`, which is only used as a base class -/
theorem C64_classes (c : Cls) : goodTy (.cls c) = true ↔ c ≠ .langStringSet := by cases c <;> decide +kernel

/-- On typed objects the constraint check raises iff a check raises on an object of the document, and then AttributeError, TypeError or
ValueError; otherwise it reports exactly the rules
that are broken, with the path of the object. -/
theorem C64_constraints (c : Cls) (hc : c ≠ .langStringSet) (v : AVal) (hv : HasType (schema lim) (.cls c) v) (m : Note) :
    (Raising lim v → ∃ e, Mishap e ∧ checkConstraints Fld.pyName (checks lim) v [] (Res.new m) = .error e) ∧
    (¬ Raising lim v → ∃ r, checkConstraints Fld.pyName (checks lim) v [] (Res.new m) = .ok r ∧
      (r.ok = true ↔ ∀ p t, ¬ Breaks lim v p t .error) ∧
      ∀ s, s ∈ r.subs ↔ ∃ p text level, Breaks lim v p text level ∧ s = Res.new ⟨.constraint text, p⟩ level) := by
  have hg := (C64_classes c).mpr hc
  have key := C41_raises Fld.pyName (checks lim) v (Res.new m)
  constructor
  · rintro ⟨p, x, hn, hcr⟩
    obtain ⟨d, hd, hgd⟩ := nested_obj hn hg hv
    obtain ⟨e, hch⟩ := (obj_raises hd hgd).mpr hcr
    obtain ⟨e, he⟩ := key.mpr ⟨p, x, e, hn, hch⟩
    obtain ⟨q, y, hn', check, hf, hx⟩ := C41_kind Fld.pyName (checks lim) v _ e he
    obtain ⟨d', hd', hgd'⟩ := nested_obj hn' hg hv
    exact ⟨e, obj_kind hd' hgd' hf hx, he⟩
  · intro hr
    cases hx : checkConstraints Fld.pyName (checks lim) v [] (Res.new m) with
    | error e =>
      obtain ⟨p, x, e, hn, hch⟩ := key.mp ⟨e, hx⟩
      obtain ⟨d, hd, hgd⟩ := nested_obj hn hg hv
      exact absurd ⟨p, x, hn, (obj_raises hd hgd).mp ⟨e, hch⟩⟩ hr
    | ok r =>
      have hiff : ∀ p t l, Breaks lim v p t l ↔ ∃ x, Violates Fld.pyName (checks lim) v p x t l := by
        intro p t l
        constructor
        · rintro ⟨x, hn, hb⟩
          obtain ⟨d, hd, hgd⟩ := nested_obj hn hg hv
          exact ⟨x, hn, (obj_violates hd hgd fun hcr => hr ⟨p, x, hn, hcr⟩).mpr (num128_eq lim ▸ hb)⟩
        · rintro ⟨x, hn, hch⟩
          obtain ⟨d, hd, hgd⟩ := nested_obj hn hg hv
          exact ⟨x, hn, num128_eq lim ▸ (obj_violates hd hgd fun hcr => hr ⟨p, x, hn, hcr⟩).mp hch⟩
      refine ⟨r, rfl, ?_, ?_⟩
      · rw [C41_verdict Fld.pyName (checks lim) v _ r rfl hx]
        constructor
        · intro h p t hb
          obtain ⟨x, hv'⟩ := (hiff p t .error).mp hb
          have := h p x t .error hv'
          simp at this
        · intro h p x t l hv'
          obtain ⟨y, hn, hb⟩ := (hiff p t l).mpr ⟨x, hv'⟩
          rcases Broken.level hb with rfl | rfl
          · exact absurd ⟨y, hn, hb⟩ (h p t)
          · exact .inr rfl
      · intro s
        rw [C41_reported Fld.pyName (checks lim) v m r hx s]
        constructor
        · rintro ⟨p, x, t, l, hv', rfl⟩
          exact ⟨p, t, l, (hiff p t l).mpr ⟨x, hv'⟩, rfl⟩
        · rintro ⟨p, t, l, hb, rfl⟩
          obtain ⟨x, hv'⟩ := (hiff p t l).mp hb
          exact ⟨p, x, t, l, hv', rfl⟩

theorem pyNames_nodup (c : Cls) : ((fieldsOf c).map fun f => f.name.pyName).Nodup := by
  cases c <;> decide +kernel

/-- In a typed object every place is the place of one object only. -/
theorem C64_places (c : Cls) (hc : c ≠ .langStringSet) (v : AVal) (hv : HasType (schema lim) (.cls c) v) :
    ((objects Fld.pyName v []).map (·.1)).Nodup ∧ ∀ p x y, Nested Fld.pyName v p x → Nested Fld.pyName v p y → x = y := by
  refine C41_places Fld.pyName v fun p c' attrs hn => ?_
  obtain ⟨c2, ⟨attrs', hx, hf⟩, -⟩ := Aas.nested_obj hn (lim := lim) (ty := .cls c) (by cases c <;> first | rfl | exact absurd rfl hc) hv
  cases hx
  have := hf.names
  have h2 := pyNames_nodup c'
  have e : ((fieldsOf c').map fun f => f.name.pyName) = ((fieldsOf c').map (·.name)).map Fld.pyName := by rw [List.map_map]; rfl
  rw [e] at h2
  have e2 : (attrs.map fun a => a.1.pyName) = (attrs.map (·.1)).map Fld.pyName := by rw [List.map_map]; rfl
  rw [e2, this]
  exact h2

/-- the check of a document for a class of the meta-model (`parse_and_check_json`, `parse_and_check_xml`; parse.py 208-231) -/
def checkDocument {A : Type} (ops : Ops A) (lim : Option Nat) (fuel : Nat) (c : Cls) (a : A) : Except PyExc (Res Note × AVal) :=
  parseAndCheck ops (schema lim) Fld.pyName (checks lim) fuel (.cls c) a

/-- Both formats: with an error in the document the verdict is not ok; otherwise the object is typed and its rules are decided. -/
theorem C64_formats {A : Type} (ops : Ops A) (size : A → Nat) (hl : ops.Lawful size) (he : NoEmpty ops) (c : Cls) (hc : c ≠ .langStringSet)
    (a : A) (n : Nat) (hn : size a < n) (v : AVal) (mm : Res Note)
    (h : parseF ops (schema lim) n (.cls c) a (Res.new ⟨.title py!"Check meta model", []⟩) = .ok (v, mm)) :
    (mm.ok = false → ∃ r, checkDocument ops lim n c a = .ok (r, v) ∧ r.ok = false) ∧
    (mm.ok = true → HasType (schema lim) (.cls c) v ∧
      (Raising lim v → ∃ e, Mishap e ∧ checkDocument ops lim n c a = .error e) ∧
      (¬ Raising lim v → ∃ r, checkDocument ops lim n c a = .ok (r, v) ∧ (r.ok = true ↔ ∀ p t, ¬ Breaks lim v p t .error))) := by
  obtain ⟨h1, h2⟩ := C36_check (schema lim) ops size hl (sane lim) he Fld.pyName (checks lim) (.cls c) a n hn v mm h
  constructor
  · intro hm
    exact ⟨_, h1 hm⟩
  · intro hm
    obtain ⟨ht, -, hp⟩ := h2 hm
    obtain ⟨c1, c2⟩ := C64_constraints lim c hc v ht ⟨.title py!"Check constraints", []⟩
    refine ⟨ht, ?_, ?_⟩
    · intro hr
      obtain ⟨e, hk, hx⟩ := c1 hr
      exact ⟨e, hk, by rw [checkDocument, hp, hx]; rfl⟩
    · intro hr
      obtain ⟨rc, hx, hok, -⟩ := c2 hr
      refine ⟨_, by rw [checkDocument, hp, hx]; rfl, ?_⟩
      rw [append_ok, append_ok, hm, ← hok]
      simp [Res.ok, Res.new, Res.level]

/-- JSON, for every document: it is reported as wrong iff it does not conform to the meta-model or an object breaks a rule; the check
raises iff the document conforms and a check raises on one of its objects. -/
theorem C64_json (c : Cls) (hc : c ≠ .langStringSet) (j : Json) (hw : WF j) (n : Nat) (hn : j.size < n) :
    (¬ Conforms (schema lim) (.cls c) j → ∃ r v, checkDocument jsonOps lim n c ⟨j, []⟩ = .ok (r, v) ∧ r.ok = false) ∧
    (Conforms (schema lim) (.cls c) j → ∃ v, HasType (schema lim) (.cls c) v ∧ Describes (schema lim) (.cls c) j (strip v) ∧
      (Raising lim v → ∃ e, Mishap e ∧ checkDocument jsonOps lim n c ⟨j, []⟩ = .error e) ∧
      (¬ Raising lim v → ∃ r, checkDocument jsonOps lim n c ⟨j, []⟩ = .ok (r, v) ∧ (r.ok = true ↔ ∀ p t, ¬ Breaks lim v p t .error))) := by
  have hres : (Res.new (⟨.title py!"Check meta model", []⟩ : Note)).ok = true := rfl
  obtain ⟨v, notes, h, hnotes⟩ := C35_returns (schema lim) (sane lim) (supported lim) (.cls c) trivial j hw [] n hn
    (Res.new ⟨.title py!"Check meta model", []⟩) hres
  have hok := C35_conforms (schema lim) (sane lim) (.cls c) j hw [] n hn _ _ _ hres h
  obtain ⟨f1, f2⟩ := C64_formats lim jsonOps (fun a => a.value.size) json_lawful json_nonempty c hc ⟨j, []⟩ n hn v _ h
  constructor
  · intro hcf
    have : (((Res.new (⟨.title py!"Check meta model", []⟩ : Note)).appendAll (errs notes)).ok) = false := by
      rw [← Bool.not_eq_true]; exact fun hh => hcf (hok.mp hh)
    obtain ⟨r, h1, h2⟩ := f1 this
    exact ⟨r, v, h1, h2⟩
  · intro hcf
    obtain ⟨ht, h1, h2⟩ := f2 (hok.mpr hcf)
    refine ⟨v, ht, ?_, h1, h2⟩
    have hg := parseF_good jsonOps (schema lim) _ json_lawful (fun _ => True) ⟨fun _ _ _ _ _ _ => trivial, fun _ _ _ _ _ _ _ => trivial⟩
      n (.cls c) ⟨j, []⟩ hn trivial (Res.new ⟨.title py!"Check meta model", []⟩)
    obtain ⟨w, hread⟩ := Conforms.read (sane lim) hcf hw []
    rw [h] at hg
    obtain ⟨_, _, _, hu, _⟩ := hg
    obtain rfl := (hu w hread).2 hres
    exact Read.describes (sane lim) hread hw

/-! ## C65 -/

/-- Whatever is read without error from a JSON document is what the document describes: no member is dropped, changed or invented. -/
theorem C65_content {C E S F : Type} (sc : Schema C E S F) (hs : Sane sc) (ty : Ty C E S) (j : Json) (hw : WF j) (p : List PTok) (n : Nat)
    (hn : j.size < n) (res r : Res Note) (v : Val C E S F) (h : parseF jsonOps sc n ty ⟨j, p⟩ res = .ok (v, r)) (hok : r.ok = true) :
    Describes sc ty j (strip v) := by
  have hg := parseF_good jsonOps sc _ json_lawful (fun _ => True) ⟨fun _ _ _ _ _ _ => trivial, fun _ _ _ _ _ _ _ => trivial⟩
    n ty ⟨j, p⟩ hn trivial res
  rw [h] at hg
  obtain ⟨notes, rfl, -, -, hr⟩ := hg
  obtain ⟨h1, h2⟩ := (appendAll_errs_ok _ _).mp hok
  exact Read.describes hs (hr h2 h1) hw

/-- the document describes no other value -/
theorem C65_unique {C E S F : Type} (sc : Schema C E S F) (hs : Sane sc) (ty : Ty C E S) (j : Json) (hw : WF j) (v w : Val C E S F)
    (hv : Describes sc ty j v) (hw' : Describes sc ty j w) : v = w :=
  Describes.unique hs.names hv hw w hw'

/-! ## examples -/

/-- a small environment with a submodel; the category of its property is wrong -/
def sampleJson (category : Str) : Json := .obj [(py!"submodels", .arr [.obj [(py!"modelType", .str py!"Submodel"), (py!"id", .str py!"urn:x"),
  (py!"submodelElements", .arr [.obj [(py!"modelType", .str py!"Property"), (py!"idShort", .str py!"p"), (py!"category", .str category),
    (py!"valueType", .str py!"xs:int"), (py!"value", .str py!"12")]])]])]

def verdict (j : Json) : Except PyExc Bool := (checkDocument jsonOps none 40 .environment ⟨j, []⟩).map (fun r => r.1.ok)

-- the places in a typed object
example : HasType (schema none) (.cls .reference) Samples.badRef ∧ (objects Fld.pyName Samples.badRef []).map (·.1) =
    [[], [.key py!"keys", .idx 0], [.key py!"keys", .idx 1], [.key py!"keys", .idx 2]] :=
  ⟨Samples.typedB_sound 20 _ _ (by decide +kernel), by decide +kernel⟩

example : verdict (sampleJson py!"CONSTANT") = .ok true := by decide +kernel
example : verdict (sampleJson py!"wrong") = .ok false := by decide +kernel

end Verif.Props
