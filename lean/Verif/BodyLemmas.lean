import Verif.Props.Responses

/-!
# Lemmas on the bodies of responses
-/

namespace Verif.Props
open Verif Verif.Parse Verif.Spec.Parse Verif.Aas Verif.Spec
open Verif.Api hiding sane supported

variable {lim : Option Nat}

/-- the place in the document does not matter -/
theorem read_same {C E S F : Type} {sc : Schema C E S F} (hs : Sane sc) {ty : Ty C E S} {j : Json} {p q : List PTok} {v w : Val C E S F} (hw : WF j)
    (h1 : Read jsonOps sc ty ⟨j, p⟩ v) (h2 : Read jsonOps sc ty ⟨j, q⟩ w) : v = w :=
  Read.strip_inj hs json_nonempty json_nonempty h1 _ _ h2
    (C65_unique sc hs ty j hw _ _ (Read.describes hs h1 hw) (Read.describes hs h2 hw))

/-! ## objects of the meta-model -/

theorem fields_emb {c : Cls} {f : RFld} {key : Str} {ty : RTy} {req : Bool} (h : ⟨f, .attr key ty req⟩ ∈ respFields (.model c)) :
    ∃ g t, ⟨g, .attr key t req⟩ ∈ fieldsOf c ∧ f = .model g ∧ ty = embTy t := by
  obtain ⟨⟨g, slot⟩, hm, he⟩ := List.mem_map.mp h
  cases slot with
  | excluded => cases he
  | attr k t r => cases he; exact ⟨g, t, hm, rfl, rfl⟩

theorem fields_of_emb {c : Cls} {g : Fld} {key : Str} {t : ATy} {req : Bool} (h : ⟨g, .attr key t req⟩ ∈ fieldsOf c) :
    (⟨.model g, .attr key (embTy t) req⟩ : RField) ∈ respFields (.model c) := List.mem_map.mpr ⟨_, h, rfl⟩

theorem isA_model {c d : Cls} : IsA (respSchema lim) (.model c) (.model d) ↔ IsA (schema lim) c d := by
  constructor
  · intro h
    obtain ⟨d', he, h⟩ := isA_emb lim h
    cases he
    exact h
  · rintro (⟨h1, rfl⟩ | ⟨h1, h2⟩)
    · exact .inl ⟨h1, rfl⟩
    · exact .inr ⟨h1, List.mem_map.mpr ⟨d, h2, rfl⟩⟩

theorem conforms_emb_mpr {ty : ATy} {j : Json} (h : Conforms (schema lim) ty j) : Conforms (respSchema lim) (embTy ty) j := by
  induction h with
  | str s => exact .str s
  | bool b => exact .bool b
  | any j => exact .any j
  | enum h => exact .enum h
  | sfv h => exact .sfv h
  | list h _ ih => exact .list h ih
  | @obj c c' kvs isA tag known required values ih =>
    have htag : (respSchema lim).abstract (.model c) = true ∨ (respSchema lim).needsModelType (.model c') = true →
        (py!"modelType", Json.str ((respSchema lim).className (.model c'))) ∈ kvs := tag
    refine .obj (isA_model.mpr isA) htag ?_ ?_ ?_
    · intro e he
      rcases known e he with h | ⟨f, ty, req, h⟩
      · exact .inl h
      · exact .inr ⟨_, _, _, fields_of_emb h⟩
    · intro f key ty hf
      obtain ⟨g, t, hg, -, -⟩ := fields_emb hf
      exact required g key t hg
    · intro f key ty req j hf hj
      obtain ⟨g, t, hg, -, rfl⟩ := fields_emb hf
      exact ih g key t req j hg hj

theorem conforms_emb_mp {ty' : RTy} {j : Json} (h : Conforms (respSchema lim) ty' j) : ∀ ty : ATy, ty' = embTy ty → Conforms (schema lim) ty j := by
  induction h with
  | str s => intro ty he; cases ty <;> cases he; exact .str s
  | bool b => intro ty he; cases ty <;> cases he; exact .bool b
  | any j => intro ty he; cases ty <;> cases he; exact .any j
  | enum h => intro ty he; cases ty <;> cases he; exact .enum h
  | sfv h => intro ty he; cases ty <;> cases he; exact .sfv h
  | list h _ ih => intro ty he; cases ty <;> cases he; exact .list h fun j hj => ih j hj _ rfl
  | @obj c c' kvs isA tag known required values ih =>
    intro ty he
    cases ty <;> cases he
    obtain ⟨d, rfl, hd⟩ := isA_emb lim isA
    refine .obj (c' := d) hd tag ?_ ?_ ?_
    · intro e he
      rcases known e he with h | ⟨f, ty, req, h⟩
      · exact .inl h
      · obtain ⟨g, t, hg, -, -⟩ := fields_emb h
        exact .inr ⟨_, _, _, hg⟩
    · intro f key ty hf
      exact required _ key _ (fields_of_emb hf)
    · intro f key ty req j hf hj
      exact ih _ key _ req j (fields_of_emb hf) hj _ rfl

theorem mem_embAttrs {f : RFld} {w : RVal} {attrs : List (Fld × AVal)} (h : (f, w) ∈ embAttrs attrs) : ∃ g a, f = .model g ∧ w = embVal a ∧ (g, a) ∈ attrs := by
  rw [embAttrs_map] at h
  obtain ⟨⟨g, a⟩, hm, he⟩ := List.mem_map.mp h
  cases he
  exact ⟨g, a, rfl, rfl, hm⟩

theorem nested_emb_mp {v y : RVal} {p : List PTok} (h : Nested RFld.pyName v p y) : ∀ a : AVal, v = embVal a → ∃ b, y = embVal b ∧ Nested Fld.pyName a p b := by
  induction h with
  | here c attrs =>
    intro a ha
    cases a <;> simp only [embVal] at ha <;> cases ha
    exact ⟨.obj _ _, rfl, .here _ _⟩
  | attr hm _ ih =>
    intro a ha
    cases a <;> simp only [embVal] at ha <;> cases ha
    obtain ⟨g, a, rfl, rfl, hm'⟩ := mem_embAttrs hm
    obtain ⟨b, rfl, hb⟩ := ih a rfl
    exact ⟨b, rfl, .attr hm' hb⟩
  | item hm hi _ ih =>
    intro a ha
    cases a <;> simp only [embVal] at ha <;> cases ha
    obtain ⟨g, a, rfl, ha, hm'⟩ := mem_embAttrs hm
    cases a <;> simp only [embVal] at ha <;> cases ha
    rw [embVals_map, List.getElem?_map] at hi
    obtain ⟨a, ha, rfl⟩ := Option.map_eq_some_iff.mp hi
    obtain ⟨b, rfl, hb⟩ := ih a rfl
    exact ⟨b, rfl, .item hm' ha hb⟩

theorem nested_emb_mpr {a b : AVal} {p : List PTok} (h : Nested Fld.pyName a p b) : Nested RFld.pyName (embVal a) p (embVal b) := by
  induction h with
  | here c attrs => exact .here _ _
  | attr hm _ ih =>
    have hm' := List.mem_map_of_mem (f := fun a : Fld × AVal => (RFld.model a.1, embVal a.2)) hm
    rw [← embAttrs_map] at hm'
    exact .attr (name := RFld.pyName) hm' ih
  | item hm hi _ ih =>
    have hm' := List.mem_map_of_mem (f := fun a : Fld × AVal => (RFld.model a.1, embVal a.2)) hm
    rw [← embAttrs_map] at hm'
    refine .item (name := RFld.pyName) hm' ?_ ih
    rw [embVals_map, List.getElem?_map, hi]
    rfl

theorem raising_emb (a : AVal) : RRaising lim (embVal a) ↔ Raising lim a := by
  constructor
  · rintro ⟨p, b, hn, hc⟩
    obtain ⟨b', he, hn⟩ := nested_emb_mp hn a rfl
    cases emb_inj he
    exact ⟨p, b, hn, hc⟩
  · rintro ⟨p, b, hn, hc⟩
    exact ⟨p, b, nested_emb_mpr hn, hc⟩

theorem breaks_emb (a : AVal) (p : List PTok) (t : Str) (l : Level) : RBreaks lim (embVal a) p t l ↔ Breaks lim a p t l := by
  constructor
  · rintro ⟨b, hn, hc⟩
    obtain ⟨b', he, hn⟩ := nested_emb_mp hn a rfl
    cases emb_inj he
    exact ⟨b, hn, hc⟩
  · rintro ⟨b, hn, hc⟩
    exact ⟨b, nested_emb_mpr hn, hc⟩

/-- what can be read is returned by the parser -/
theorem read_parsed {C E S F : Type} {sc : Schema C E S F} {ty : Ty C E S} {j : Json} {p : List PTok} {v : Val C E S F}
    (h : Read jsonOps sc ty ⟨j, p⟩ v) (n : Nat) (hn : j.size < n) (res : Res Note) (hres : res.ok = true) : parseF jsonOps sc n ty ⟨j, p⟩ res = .ok (v, res) := by
  have hg := parseF_good jsonOps sc _ json_lawful (fun _ => True) ⟨fun _ _ _ _ _ _ => trivial, fun _ _ _ _ _ _ _ => trivial⟩ n ty ⟨j, p⟩ hn trivial res
  cases hp : parseF jsonOps sc n ty ⟨j, p⟩ res with
  | error e => rw [hp] at hg; exact absurd h (hg v)
  | ok x =>
    obtain ⟨w, r⟩ := x
    rw [hp] at hg
    obtain ⟨notes, rfl, -, hu, -⟩ := hg
    obtain ⟨rfl, hw⟩ := hu v h
    rw [hw hres]
    rfl

theorem parsed_read {C E S F : Type} {sc : Schema C E S F} {ty : Ty C E S} {j : Json} {p : List PTok} {v : Val C E S F}
    (n : Nat) (hn : j.size < n) (res r : Res Note) (h : parseF jsonOps sc n ty ⟨j, p⟩ res = .ok (v, r)) (hr : r.ok = true) :
    Read jsonOps sc ty ⟨j, p⟩ v := by
  have hg := parseF_good jsonOps sc _ json_lawful (fun _ => True) ⟨fun _ _ _ _ _ _ => trivial, fun _ _ _ _ _ _ _ => trivial⟩ n ty ⟨j, p⟩ hn trivial res
  rw [h] at hg
  obtain ⟨notes, rfl, -, -, hu⟩ := hg
  obtain ⟨h1, h2⟩ := (appendAll_errs_ok _ _).mp hr
  exact hu h2 h1

theorem read_emb {ty : ATy} {j : Json} {p : List PTok} {a : AVal} (h : Read jsonOps (schema lim) ty ⟨j, p⟩ a) :
    Read jsonOps (respSchema lim) (embTy ty) ⟨j, p⟩ (embVal a) := by
  have h1 := read_parsed h (j.size + 1) (Nat.lt_succ_self _) (Res.new ⟨.title [], []⟩) rfl
  refine parsed_read (j.size + 1) (Nat.lt_succ_self _) (Res.new ⟨.title [], []⟩) (Res.new ⟨.title [], []⟩) ?_ rfl
  rw [parseF_emb, h1]
  rfl

/-- no rule is broken and no check raises -/
def Fine (lim : Option Nat) (v : RVal) : Prop := ¬ RRaising lim v ∧ ∀ p t, ¬ RBreaks lim v p t .error

/-- the document is accepted as an object of the class -/
def Accepted (lim : Option Nat) (c : Cls) (j : Json) : Prop := ∃ res v, checkDocument jsonOps lim (j.size + 1) c ⟨j, []⟩ = .ok (res, v) ∧ res.ok = true

theorem accepted_iff (c : Cls) (hc : c ≠ .langStringSet) (j : Json) (hw : WF j) :
    Accepted lim c j ↔ ∃ w, Read jsonOps (respSchema lim) (.cls (.model c)) ⟨j, []⟩ w ∧ Fine lim w := by
  by_cases hcf : Conforms (schema lim) (.cls c) j
  · obtain ⟨a, hr⟩ := Conforms.read (Aas.sane lim) hcf hw []
    have hn : j.size < j.size + 1 := Nat.lt_succ_self _
    obtain ⟨-, h2⟩ := C64_formats lim jsonOps (fun a => a.value.size) json_lawful json_nonempty c hc ⟨j, []⟩ (j.size + 1) hn a _
      (read_parsed hr _ hn (Res.new ⟨.title py!"Check meta model", []⟩) rfl)
    obtain ⟨-, h3, h4⟩ := h2 rfl
    have hr' := read_emb hr
    constructor
    · rintro ⟨res, v, h, hok⟩
      refine ⟨_, hr', ?_⟩
      have hnr : ¬ Raising lim a := fun hh => by
        obtain ⟨e, -, he⟩ := h3 hh
        rw [he] at h; cases h
      obtain ⟨r, h5, h6⟩ := h4 hnr
      rw [h5] at h
      cases h
      exact ⟨fun hh => hnr ((raising_emb a).mp hh), fun p t hb => h6.mp hok p t ((breaks_emb a p t .error).mp hb)⟩
    · rintro ⟨w, hw', h5, h6⟩
      obtain rfl := read_same (Api.sane lim) hw hr' hw'
      obtain ⟨r, h7, h8⟩ := h4 fun hh => h5 ((raising_emb a).mpr hh)
      exact ⟨r, _, h7, h8.mpr fun p t hb => h6 p t ((breaks_emb a p t .error).mpr hb)⟩
  · constructor
    · rintro ⟨res, v, h, hok⟩
      obtain ⟨r, v', h1, h2⟩ := (C64_json lim c hc j hw (j.size + 1) (Nat.lt_succ_self _)).1 hcf
      rw [h1] at h
      cases h
      rw [h2] at hok; cases hok
    · rintro ⟨w, hw', -⟩
      have := Read.conforms (Api.sane lim) hw' hw
      exact absurd (conforms_emb_mp this (.cls c) rfl) hcf

/-! ## pages -/

theorem WF.nodup {kvs : List (Str × Json)} (h : WF (.obj kvs)) : (kvs.map (·.1)).Nodup := by
  cases h; assumption

theorem WF.value {kvs : List (Str × Json)} {k : Str} {j : Json} (h : WF (.obj kvs)) (hm : (k, j) ∈ kvs) : WF j := by
  cases h with
  | obj _ h => exact h _ hm

theorem WF.item {l : List Json} {j : Json} (h : WF (.arr l)) (hm : j ∈ l) : WF j := by
  cases h with
  | arr h => exact h _ hm

theorem readL_get {A C E S F : Type} {ops : Ops A} {sc : Schema C E S F} {it : Ty C E S} : ∀ {as : List A} {vs : List (Val C E S F)},
    ReadL ops sc it as vs → as.length = vs.length ∧ ∀ (i : Nat) a v, as[i]? = some a → vs[i]? = some v → Read ops sc it a v
  | [], _, h => by cases h; exact ⟨rfl, fun i a v h => by simp at h⟩
  | _ :: as, _, h => by
    cases h with
    | cons h hs =>
      obtain ⟨hl, hg⟩ := readL_get hs
      refine ⟨by simp [hl], fun i a v ha hv => ?_⟩
      cases i with
      | zero => simp only [List.getElem?_cons_zero, Option.some.injEq] at ha hv; subst ha hv; exact h
      | succ i => simp only [List.getElem?_cons_succ] at ha hv; exact hg i a v ha hv

/-- what is read from a page -/
theorem page_read {p : Page} {j : Json} {q : List PTok} {v : RVal} (h : Read jsonOps (respSchema lim) (.cls (.page p)) ⟨j, q⟩ v) :
    ∃ kvs js v1 vs a1, j = .obj kvs ∧ dictGet py!"result" kvs = some (.arr js) ∧
      v = .obj (.page p) [(.pagingMetadata, v1), (.result, .list vs)] ∧ Read jsonOps (respSchema lim) (.cls .pagingMetadata) a1 v1 ∧
      js.length = vs.length ∧ ∀ (i : Nat) x w, js[i]? = some x → vs[i]? = some w → ∃ q', Read jsonOps (respSchema lim) p.item ⟨x, q'⟩ w := by
  cases h with
  | abstract h => cases h
  | concrete _ ho hp =>
    cases hp
    cases ho with
    | mk ho _ _ hf =>
      obtain ⟨kvs, rfl, rfl⟩ := asObject_json ho
      replace hf : ReadF jsonOps (respSchema lim) _ (respFields (.page p)) _ := hf
      cases hf with
      | present h1 h2 hf2 =>
        cases hf2 with
        | present h3 h4 hf3 =>
          cases hf3
          rw [JsonA.members_get _ _ _ (by decide)] at h3
          obtain ⟨j3, h5, rfl⟩ := Option.map_eq_some_iff.mp h3
          cases h4 with
          | list h6 h7 =>
            obtain ⟨js, h8, -, rfl⟩ := asList_json h6
            cases h8
            obtain ⟨hl, hg⟩ := readL_get h7
            rw [JsonA.items_length] at hl
            refine ⟨kvs, js, _, _, _, rfl, h5, rfl, h2, hl, fun i x w hx hw => ?_⟩
            have hi : (JsonA.items (q ++ [.key py!"result"]) 0 js)[i]? = some ⟨x, q ++ [.key py!"result"] ++ [.idx (0 + i)]⟩ := by
              rw [JsonA.items_eq, List.getElem?_mapIdx, hx]
              rfl
            exact ⟨_, hg i _ w hi hw⟩

theorem fine_page {p : Page} {v1 : RVal} {vs : List RVal} (h1 : HasType (respSchema lim) (.cls .pagingMetadata) v1) :
    Fine lim (.obj (.page p) [(.pagingMetadata, v1), (.result, .list vs)]) ↔ ∀ w ∈ vs, Fine lim w := by
  have key : ∀ q a, Nested RFld.pyName (.obj (.page p) [(.pagingMetadata, v1), (.result, .list vs)] : RVal) q (embVal a) ↔
      ∃ i w q', q = .key (RFld.pyName .result) :: .idx i :: q' ∧ vs[i]? = some w ∧ Nested RFld.pyName w q' (embVal a) := by
    intro q a
    constructor
    · generalize hx : embVal a = x
      intro h
      cases h with
      | here => cases a <;> simp only [embVal] at hx <;> cases hx
      | attr hm hn =>
        simp only [List.mem_cons, Prod.mk.injEq, List.not_mem_nil, or_false] at hm
        rcases hm with ⟨rfl, rfl⟩ | ⟨rfl, rfl⟩
        · exact absurd hx.symm (nested_plain hn (ty := .cls .pagingMetadata) rfl h1 a)
        · cases hn
      | item hm hi hn =>
        simp only [List.mem_cons, Prod.mk.injEq, List.not_mem_nil, or_false] at hm
        rcases hm with ⟨-, h⟩ | ⟨rfl, h⟩
        · rw [← h] at h1; cases h1
        · cases h; exact ⟨_, _, _, rfl, hi, hn⟩
    · rintro ⟨i, w, q', rfl, hi, hn⟩
      exact .item (name := RFld.pyName) (by simp) hi hn
  constructor
  · rintro ⟨h2, h3⟩ w hw
    obtain ⟨i, hi⟩ := List.getElem?_of_mem hw
    exact ⟨fun ⟨q, a, hn, hc⟩ => h2 ⟨_, a, (key _ a).mpr ⟨i, w, q, rfl, hi, hn⟩, hc⟩,
      fun q t ⟨a, hn, hb⟩ => h3 _ t ⟨a, (key _ a).mpr ⟨i, w, q, rfl, hi, hn⟩, hb⟩⟩
  · intro h
    constructor
    · rintro ⟨q, a, hn, hc⟩
      obtain ⟨i, w, q', -, hi, hn⟩ := (key q a).mp hn
      exact (h w (List.mem_of_getElem? hi)).1 ⟨q', a, hn, hc⟩
    · rintro q t ⟨a, hn, hb⟩
      obtain ⟨i, w, q', -, hi, hn⟩ := (key q a).mp hn
      exact (h w (List.mem_of_getElem? hi)).2 q' t ⟨a, hn, hb⟩

/-! ## references of elements -/

theorem key_fine {a b : AVal} {p : List PTok} (ht : HasType (schema lim) (.cls .key) a) (hn : Nested Fld.pyName a p b) :
    ¬ Spec.Model.Crashes lim b ∧ ∀ t, ¬ Spec.Model.Broken lim (IndexText lim) b t .error := by
  obtain ⟨c, attrs, rfl, hi, hf⟩ := hasType_cls ht
  obtain ⟨-, rfl⟩ | ⟨h, -⟩ := hi
  case inr => cases h
  replace hf : FieldsOk (schema lim) (fieldsOf .key) attrs := hf
  cases hf with
  | @cons _ a1 _ _ h1 hf2 =>
    cases hf2 with
    | @cons _ a2 _ _ h2 hf3 =>
      cases hf3
      obtain ⟨f1, v1⟩ := a1
      obtain ⟨f2, v2⟩ := a2
      obtain ⟨h1', h1 | h1⟩ := h1
      · cases h1.2
      obtain ⟨h2', h2 | h2⟩ := h2
      · cases h2.2
      cases h1'
      cases h2'
      cases h1
      rename_i s1 _
      cases h2
      rename_i s2 _
      have hb : b = .obj .key [(.type_, .enum .keyType s1), (.value, .sfv .identifierString s2)] := by
        cases hn with
        | here => rfl
        | attr hm hn =>
          simp only [List.mem_cons, Prod.mk.injEq, List.not_mem_nil, or_false] at hm
          rcases hm with ⟨rfl, rfl⟩ | ⟨rfl, rfl⟩ <;> cases hn
        | item hm hi hn =>
          simp at hm
      subst hb
      constructor
      · intro h
        cases h <;> rename_i h _ <;> exact absurd h (by simp only [Spec.Model.className]; decide)
      · intro t h
        cases h
        case aasd118 h => exact h fun h => absurd rfl h
        case aasd002 h => exact h fun s h => by cases h
        all_goals rename_i h _; exact absurd h (by simp only [Spec.Model.className]; decide)

theorem fine_of {v : RVal} (h : ∀ p a, Nested RFld.pyName v p (embVal a) →
    ¬ Spec.Model.Crashes lim a ∧ ∀ t, ¬ Spec.Model.Broken lim (IndexText lim) a t .error) : Fine lim v :=
  ⟨fun ⟨p, a, hn, hc⟩ => (h p a hn).1 hc, fun p t ⟨a, hn, hb⟩ => (h p a hn).2 t hb⟩

/-- keys satisfy all rules -/
theorem loose_fine {v x : RVal} {p : List PTok} (h : Nested RFld.pyName v p x) : HasType (respSchema lim) (.cls .unconstrainedReference) v →
    ∀ a, x = embVal a → ¬ Spec.Model.Crashes lim a ∧ ∀ t, ¬ Spec.Model.Broken lim (IndexText lim) a t .error := by
  have attrs : ∀ {c attrs f w}, HasType (respSchema lim) (.cls .unconstrainedReference) (.obj c attrs : RVal) → (f, w) ∈ attrs →
      c = .unconstrainedReference ∧ (w = .none ∨ HasType (respSchema lim) (.enum (.model .referenceType)) w ∨
        HasType (respSchema lim) (.cls .unconstrainedReference) w ∨ HasType (respSchema lim) (.list (.cls (.model .key)) true) w) := by
    intro c attrs f w ht hm
    obtain ⟨hi, hf⟩ := hasType_obj.mp ht
    obtain ⟨-, rfl⟩ | ⟨h, -⟩ := hi
    case inr => cases h
    refine ⟨rfl, ?_⟩
    obtain ⟨⟨g, slot⟩, hg, -, hok⟩ := rfieldsOk_mem hf hm
    replace hg : _ ∈ respFields .unconstrainedReference := hg
    simp only [respFields, List.mem_cons, Field.mk.injEq, List.not_mem_nil, or_false] at hg
    rcases hg with ⟨-, rfl⟩ | ⟨-, rfl⟩ | ⟨-, rfl⟩ <;> rcases hok with ⟨hok, -⟩ | hok
    · exact .inl hok
    · exact .inr (.inl hok)
    · exact .inl hok
    · exact .inr (.inr (.inl hok))
    · exact .inl hok
    · exact .inr (.inr (.inr hok))
  induction h with
  | here c as =>
    intro ht a ha
    cases a <;> simp only [embVal] at ha <;> cases ha
    obtain ⟨⟨-, h⟩ | ⟨h, -⟩, -⟩ := hasType_obj.mp ht <;> cases h
  | attr hm hn ih =>
    intro ht
    obtain ⟨-, rfl | h | h | h⟩ := attrs ht hm
    · cases hn
    · cases h; cases hn
    · exact ih h
    · cases h; cases hn
  | item hm hi hn ih =>
    intro ht a ha
    obtain ⟨-, h | h | h | h⟩ := attrs ht hm
    · cases h
    · cases h
    · cases h
    · cases h with
      | list _ hall =>
        obtain ⟨b, rfl, hb⟩ := typed_proj _ (.cls .key) (hall _ (List.mem_of_getElem? hi))
        obtain ⟨a', rfl, hn'⟩ := nested_emb_mp hn b rfl
        cases emb_inj ha
        exact key_fine hb hn'

end Verif.Props
