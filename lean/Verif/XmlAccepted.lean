import Verif.ParseXml4
import Verif.Spec.XmlAccepted

/-! # What is read from XML elements, exactly -/

namespace Verif.Parse
open Verif Verif.Spec.Parse

section
variable {C E S F : Type}

theorem called_opVar {x : Xml} : Called x py!"OperationVariable" ↔ XmlA.upperFirst (x.tag.drop xmlns.length) = py!"OperationVariable" := by
  rw [XmlA.upperFirst_iff ⟨79, _, rfl, by decide, by decide⟩]
  simp [Called]

theorem content_iff {x d : Xml} : Content x d ↔ XmlA.data x = .ok d := XmlA.data_iff.symm

theorem modelType_named {a : XmlA} {d : Xml} (hd : XmlA.data a.value = .ok d) (hn : xmlns.length < d.tag.length) :
    XmlA.modelType a = .ok (some (XmlA.upperFirst (d.tag.drop xmlns.length))) :=
  XmlA.modelType_iff.mpr ⟨d, hd, by
    intro e
    have := congrArg List.length e
    rw [List.length_drop] at this
    have h0 : XmlA.ns.length = xmlns.length := rfl
    simp only [List.length_nil] at this
    omega, rfl⟩

theorem modelType_value {a : XmlA} {d : Xml} {mt} (hd : XmlA.data a.value = .ok d) (h : XmlA.modelType a = .ok mt) :
    xmlns.length < d.tag.length ∧ mt = some (XmlA.upperFirst (d.tag.drop xmlns.length)) := by
  obtain ⟨s, rfl⟩ := XmlA.modelType_some h
  obtain ⟨d', h1, h2, h3⟩ := XmlA.modelType_iff.mp h
  rw [hd] at h1
  cases h1
  refine ⟨?_, by rw [← h3]; rfl⟩
  have : 0 < (d.tag.drop XmlA.ns.length).length := List.length_pos_iff.mpr h2
  rw [List.length_drop] at this
  have h0 : XmlA.ns.length = xmlns.length := rfl
  omega

/-- members of an object, in terms of the content -/
theorem entry_iff {d y z : Xml} {key : Str} (hy : y.tag = xmlns ++ key) :
    XmlA.Entry (some (XmlA.upperFirst (d.tag.drop xmlns.length))) key y z ↔ Inside d y z := by
  have hop : IsOpValue d y ↔ some (XmlA.upperFirst (d.tag.drop xmlns.length)) = some py!"OperationVariable" ∧ key = py!"value" := by
    rw [IsOpValue, called_opVar, hy, List.append_cancel_left_eq, Option.some.injEq]
  unfold XmlA.Entry Inside
  rw [hop]
  split
  · rename_i h; exact ⟨fun e => .inl ⟨h, e⟩, fun e => e.elim (·.2) (fun e => absurd h e.1)⟩
  · rename_i h; exact ⟨fun e => .inr ⟨h, e⟩, fun e => e.elim (fun e => absurd e.1 h) (·.2)⟩

theorem members_single {a : XmlA} {mt : Option Str} (hmt : XmlA.modelType a = .ok mt) : ∀ {cs : List Xml} {acc obj : List (Str × XmlA)},
    XmlA.members a cs acc = .ok obj → mt = some py!"OperationVariable" → ∀ c ∈ cs, c.tag = xmlns ++ py!"value" → ∃ z, c.children = [z]
  | [], _, _, _, _, c, hc, _ => by cases hc
  | c :: cs, acc, obj, h, hm, y, hy, ht => by
    unfold XmlA.members at h
    split at h
    · simp only [hmt] at h
      split at h
      · cases hs : XmlA.singleChild c with
        | error e => simp [hs] at h
        | ok d =>
          simp only [hs] at h
          rcases List.mem_cons.mp hy with rfl | hy
          · exact ⟨d, XmlA.singleChild_ok hs⟩
          · exact members_single hmt h hm y hy ht
      · rename_i hc
        rcases List.mem_cons.mp hy with rfl | hy
        · exact absurd ⟨hm, by rw [ht]; exact List.drop_left ..⟩ hc
        · exact members_single hmt h hm y hy ht
    · cases h

theorem last_unique {l pre pre' post post' : List Xml} {y y' : Xml} {t : Str} (h : l = pre ++ y :: post) (h' : l = pre' ++ y' :: post')
    (ht : y.tag = t) (ht' : y'.tag = t) (hl : ∀ z ∈ post, z.tag ≠ t) (hl' : ∀ z ∈ post', z.tag ≠ t) : y' = y := by
  rw [h'] at h
  clear h'
  induction pre generalizing pre' with
  | nil =>
    cases pre' with
    | nil => simp only [List.nil_append, List.cons.injEq] at h; exact h.1
    | cons z pre' =>
      simp only [List.nil_append, List.cons_append, List.cons.injEq] at h
      exact absurd ht' (hl y' (by rw [← h.2]; simp))
  | cons w pre ih =>
    cases pre' with
    | nil =>
      simp only [List.nil_append, List.cons_append, List.cons.injEq] at h
      exact absurd ht (hl' y (by rw [h.2]; simp))
    | cons z pre' =>
      simp only [List.cons_append, List.cons.injEq] at h
      exact ih h.2

theorem last_exists {t : Str} : ∀ {l : List Xml}, (∃ y ∈ l, y.tag = t) → ∃ pre y post, l = pre ++ y :: post ∧ y.tag = t ∧ ∀ z ∈ post, z.tag ≠ t
  | [], ⟨y, hy, _⟩ => by cases hy
  | x :: l, h => by
    by_cases hl : ∃ y ∈ l, y.tag = t
    · obtain ⟨pre, y, post, rfl, h1, h2⟩ := last_exists hl
      exact ⟨x :: pre, y, post, rfl, h1, h2⟩
    · obtain ⟨y, hy, ht⟩ := h
      rcases List.mem_cons.mp hy with rfl | hy
      · exact ⟨[], y, l, rfl, ht, fun z hz e => hl ⟨z, hz, e⟩⟩
      · exact absurd ⟨y, hy, ht⟩ hl

/-- what is known about an object that was read -/
structure XmlObjA (sc : Schema C E S F) (c : C) (a : XmlA) (obj : List (Str × XmlA)) (attrs : List (F × Val C E S F)) : Prop where
  object : XmlA.asObject a = .ok obj
  tag : sc.needsModelType c = true → XmlA.modelType a = .ok (some (sc.className c))
  known : ∀ e ∈ obj, e.1 ∈ allKeys (sc.fields c)
  fields : FieldsOk sc (sc.fields c) attrs
  present : ∀ f key ty req v, (Field.mk f (.attr key ty req), f, v) ∈ (sc.fields c).zip attrs →
        (∀ e, dictGet key obj = some e → XAccepts sc ty e.value (strip v)) ∧
        (dictGet key obj = none → req = false ∧ v = .none)
  excluded : ∀ f v, (Field.mk f .excluded, f, v) ∈ (sc.fields c).zip attrs → v = .none

theorem XmlObjA.accepts {sc : Schema C E S F} (hx : XmlNames sc) {b c a obj attrs} (h : XmlObjA sc c a obj attrs) (isA : IsA sc b c)
    (habs : sc.abstract b = true → XmlA.modelType a = .ok (some (sc.className c))) :
    XAccepts sc (.cls b) a.value (.obj c (strip.stripA attrs)) := by
  obtain ⟨hpre, hnt, d, hd, hm⟩ := XmlA.asObject_iff.mp h.object
  have hcs := XmlA.members_prefix hm
  have hcalled : sc.abstract b = true ∨ sc.needsModelType c = true → Called d (sc.className c) := by
    intro hc
    obtain ⟨d', h1, h2, h3⟩ := XmlA.modelType_iff.mp (hc.elim habs h.tag)
    rw [hd] at h1
    cases h1
    exact (called_iff hx).mpr h3
  have hget : ∀ key, (∃ e pre y post, dictGet key obj = some e ∧ d.children = pre ++ y :: post ∧ y.tag = xmlns ++ key ∧
        (∀ z ∈ post, z.tag ≠ xmlns ++ key) ∧ Inside d y e.value) ∨
      ((∀ z ∈ d.children, z.tag ≠ xmlns ++ key) ∧ dictGet key obj = none) := by
    intro key
    by_cases hne : d.children = []
    · rw [hne, XmlA.members] at hm
      cases hm
      right; simp [hne, dictGet]
    · obtain ⟨mt, hmt⟩ := hcs.2 hne
      obtain ⟨-, rfl⟩ := modelType_value hd hmt
      rcases XmlA.members_get hmt hm key with ⟨e, pre, y, post, h1, h2, h3, h4, h5⟩ | h'
      · exact .inl ⟨e, pre, y, post, h1, h2, h3, h4, (entry_iff h3).mp h5⟩
      · exact .inr h'
  refine .obj isA hpre hnt (content_iff.mpr hd) hcalled ?_ ?_ ?_ ?_ ?_ ?_ ?_
  · by_cases hne : d.children = []
    · exact .inl hne
    · obtain ⟨mt, hmt⟩ := hcs.2 hne
      exact .inr (modelType_value hd hmt).1
  · intro y hy
    obtain ⟨key, hkey⟩ := hcs.1 y hy
    refine ⟨key, ?_, hkey.symm⟩
    rcases hget key with ⟨e, -, -, -, he, -⟩ | ⟨h1, -⟩
    · exact h.known _ (dictGet_mem he)
    · exact absurd hkey.symm (h1 y hy)
  · rintro y hy ⟨h1, h2⟩
    obtain ⟨mt, hmt⟩ := hcs.2 (List.ne_nil_of_mem hy)
    obtain ⟨-, rfl⟩ := modelType_value hd hmt
    exact members_single hmt hm (congrArg some (called_opVar.mp h1)) y hy h2
  · rw [stripA_map, List.map_map]; exact h.fields.names
  · intro f key ty req v pre y post z hz hsplit htag hlast hin
    obtain ⟨u, rfl, hu⟩ := zip_stripA hz
    rcases hget key with ⟨e, pre', y', post', he, h2, h3, h4, h5⟩ | ⟨h1, -⟩
    · obtain rfl := last_unique hsplit h2 htag h3 hlast h4
      have : e.value = z := by
        rcases h5 with ⟨g1, g2⟩ | ⟨g1, g2⟩ <;> rcases hin with ⟨k1, k2⟩ | ⟨k1, k2⟩
        · rw [g2] at k2; simpa using k2
        · exact absurd g1 k1
        · exact absurd k1 g1
        · rw [g2, k2]
      exact this ▸ (h.present _ _ _ _ _ hu).1 e he
    · exact absurd htag (h1 y (by rw [hsplit]; simp))
  · intro f key ty req v hz hno
    obtain ⟨u, rfl, hu⟩ := zip_stripA hz
    rcases hget key with ⟨e, pre', y', post', he, h2, h3, -⟩ | ⟨-, h1⟩
    · exact absurd h3 (hno y' (by rw [h2]; simp))
    · obtain ⟨h2, h3⟩ := (h.present _ _ _ _ _ hu).2 h1
      exact ⟨h2, by rw [h3]; simp [strip]⟩
  · intro f v hz
    obtain ⟨u, rfl, hu⟩ := zip_stripA hz
    rw [h.excluded _ _ hu]; simp [strip]

theorem boolText_iff {t : Option Str} {b : Bool} : BoolText true t b ↔ (b = true ↔ t = some py!"true") := by
  unfold BoolText
  by_cases h : t = some py!"true"
  · subst h; cases b <;> simp
  · cases b <;> simp [h]

theorem Read.accepts {sc : Schema C E S F} (hs : Sane sc) (hx : XmlNames sc) {ty a v} (h : Read xmlOps sc ty a v) :
    XAccepts sc ty a.value (strip v) := by
  refine Read.rec (ops := xmlOps) (sc := sc) (motive_1 := fun ty a v _ => XAccepts sc ty a.value (strip v))
    (motive_2 := fun it as vs _ => as.length = vs.length ∧ ∀ (i : Nat) (a : XmlA) (v : Val C E S F), as[i]? = some a → vs[i]? = some v →
      XAccepts sc it a.value (strip v))
    (motive_3 := fun c a v _ => ∃ obj attrs, v = .obj c attrs ∧ XmlObjA sc c a obj attrs)
    (motive_4 := fun obj fs attrs _ =>
      (∀ f key ty req v, (Field.mk f (.attr key ty req), f, v) ∈ fs.zip attrs →
        (∀ e, dictGet key obj = some e → XAccepts sc ty e.value (strip v)) ∧
        (dictGet key obj = none → req = false ∧ v = .none)) ∧
      (∀ f v, (Field.mk f .excluded, f, v) ∈ fs.zip attrs → v = .none))
    ?_ ?_ ?_ ?_ ?_ ?_ ?_ ?_ ?_ ?_ ?_ ?_ ?_ ?_ ?_ h
  · intro a s h
    obtain ⟨h1, rfl⟩ := XmlA.asString_iff.mp h
    simp only [strip]; exact .str h1
  · intro a b h
    obtain ⟨h1, h2⟩ := XmlA.asBool_iff.mp h
    simp only [strip]; exact .bool h1 (boolText_iff.mp h2)
  · intros; simp only [strip]; exact .any
  · intro a e s h h'
    obtain ⟨h1, h2⟩ := XmlA.asString_iff.mp h
    simp only [strip]; exact .enum h1 h2 h'
  · intro a e s h h'
    obtain ⟨h1, h2⟩ := XmlA.asString_iff.mp h
    simp only [strip]; exact .sfv h1 h2 h'
  · rintro a as it ae vs h _ ⟨ih1, ih2⟩
    obtain ⟨hne, rfl⟩ := XmlA.asList_ok h
    have hlen : a.value.children.length = vs.length := by rw [← ih1, XmlA.items_eq]; simp
    rw [strip_list, stripL_map]
    refine .list ?_ (by simpa using hlen) fun i y v hy hv => ?_
    · rcases hne with h | h
      · left
        intro e
        simp only [List.map_eq_nil_iff] at e
        subst e
        exact h (List.length_eq_zero_iff.mp (by simpa using hlen))
      · exact .inr h
    · rw [List.getElem?_map] at hv
      obtain ⟨v0, hv0, rfl⟩ := Option.map_eq_some_iff.mp hv
      refine ih2 i ⟨y, a.path ++ [.idx i]⟩ v0 ?_ hv0
      rw [XmlA.items_eq, List.getElem?_mapIdx, hy]
      simp
  · rintro a c v w hab _ hp ⟨obj, attrs, rfl, ho⟩
    have hst : strip w = strip (.obj c attrs) := by
      have ht : HasType sc (.cls c) (.obj c attrs) := hasType_obj.mpr ⟨.inl ⟨hab, rfl⟩, ho.fields⟩
      unfold Post at hp
      cases hpp : sc.postParse c with
      | none => simp only [hpp] at hp; rw [hp]
      | some f =>
        simp only [hpp] at hp
        obtain ⟨w', h1, -, h2⟩ := hs.post c f _ hpp ht
        rw [hp] at h1
        cases h1
        exact h2
    rw [hst, strip_obj]
    exact ho.accepts hx (.inl ⟨hab, rfl⟩) (fun h => by simp [hab] at h)
  · rintro a c c' d v hab hm hf _ ⟨obj, attrs, rfl, ho⟩
    have hd : d = some (sc.className c') := by simpa using List.find?_some hf
    rw [strip_obj]
    exact ho.accepts hx (.inr ⟨hab, List.mem_of_find?_eq_some hf⟩) (fun _ => hd ▸ hm)
  · intro it; simp
  · intro it a as v vs _ _ h1 ⟨h2, h3⟩
    refine ⟨by simp [h2], fun i b w hb hw => ?_⟩
    cases i with
    | zero => simp only [List.getElem?_cons_zero, Option.some.injEq] at hb hw; subst hb hw; exact h1
    | succ i => simp only [List.getElem?_cons_succ] at hb hw; exact h3 i b w hb hw
  · intro c a obj attrs ho hm hk hr ⟨ih1, ih2⟩
    exact ⟨obj, attrs, rfl, ho, hm, hk, ReadF.typed hs xml_nonempty hr, ih1, ih2⟩
  · intro obj; simp
  · intro obj f fs attrs _ ⟨ih1, ih2⟩
    constructor
    · intro f' key ty req v hm
      simp only [List.zip_cons_cons, List.mem_cons, Prod.mk.injEq, Field.mk.injEq, reduceCtorEq, and_false, false_and, false_or] at hm
      exact ih1 _ _ _ _ _ hm
    · intro f' v hm
      rw [List.zip_cons_cons] at hm
      rcases List.mem_cons.mp hm with hm | hm
      · cases hm; rfl
      · exact ih2 _ _ hm
  · intro obj f key ty fs attrs hg _ ⟨ih1, ih2⟩
    constructor
    · intro f' key' ty' req' v hm
      rw [List.zip_cons_cons] at hm
      rcases List.mem_cons.mp hm with hm | hm
      · cases hm; simp [hg]
      · exact ih1 _ _ _ _ _ hm
    · intro f' v hm
      simp only [List.zip_cons_cons, List.mem_cons, Prod.mk.injEq, Field.mk.injEq, reduceCtorEq, and_false, false_and, false_or] at hm
      exact ih2 _ _ hm
  · intro obj f key ty req a v fs attrs hg _ _ h1 ⟨ih1, ih2⟩
    constructor
    · intro f' key' ty' req' v hm
      rw [List.zip_cons_cons] at hm
      rcases List.mem_cons.mp hm with hm | hm
      · cases hm
        refine ⟨fun a' ha' => ?_, by simp [hg]⟩
        rw [hg] at ha'; cases ha'
        exact h1
      · exact ih1 _ _ _ _ _ hm
    · intro f' v hm
      simp only [List.zip_cons_cons, List.mem_cons, Prod.mk.injEq, Field.mk.injEq, reduceCtorEq, and_false, false_and, false_or] at hm
      exact ih2 _ _ hm

theorem xaccepts_obj {sc : Schema C E S F} (a : XmlA) {x : Xml} {c' : C} {attrs : List (F × Val C E S F)}
    (hd : XmlA.data a.value = .ok x) (hp : xmlns <+: a.value.tag) (hnt : NoText a.value)
    (hneed : sc.needsModelType c' = true → XmlA.modelType a = .ok (some (sc.className c')))
    (named : x.children = [] ∨ xmlns.length < x.tag.length)
    (known : ∀ y ∈ x.children, ∃ key ∈ allKeys (sc.fields c'), y.tag = xmlns ++ key)
    (single : ∀ y ∈ x.children, IsOpValue x y → ∃ z, y.children = [z])
    (names : attrs.map (·.1) = (sc.fields c').map (·.name))
    (present : ∀ f key ty req v pre y post z, (Field.mk f (.attr key ty req), f, v) ∈ (sc.fields c').zip attrs →
        x.children = pre ++ y :: post → y.tag = xmlns ++ key → (∀ u ∈ post, u.tag ≠ xmlns ++ key) → Inside x y z → ∀ p, Readable sc ty v z p)
    (absent : ∀ f key ty req v, (Field.mk f (.attr key ty req), f, v) ∈ (sc.fields c').zip attrs →
        (∀ y ∈ x.children, y.tag ≠ xmlns ++ key) → req = false ∧ v = .none)
    (excluded : ∀ f v, (Field.mk f .excluded, f, v) ∈ (sc.fields c').zip attrs → v = .none) :
    ∃ ws, ReadObj xmlOps sc c' a (.obj c' ws) ∧ strip.stripA ws = attrs := by
  obtain ⟨obj, hobj, hget⟩ : ∃ obj, XmlA.members a x.children [] = .ok obj ∧ ∀ key,
      (∃ e pre c post, dictGet key obj = some e ∧ x.children = pre ++ c :: post ∧ c.tag = xmlns ++ key ∧ (∀ z ∈ post, z.tag ≠ xmlns ++ key) ∧
        Inside x c e.value) ∨
      ((∀ z ∈ x.children, z.tag ≠ xmlns ++ key) ∧ dictGet key obj = none) := by
    rcases named with hnil | hn
    · rw [hnil]
      exact ⟨[], rfl, fun key => .inr ⟨by simp, rfl⟩⟩
    · have hmt := modelType_named hd hn
      obtain ⟨obj, hobj⟩ : ∃ obj, XmlA.members a x.children [] = .ok obj := by
        refine XmlA.members_exists hmt ?_ ?_
        · intro y hy
          obtain ⟨key, -, ht⟩ := known y hy
          exact ⟨key, ht.symm⟩
        · intro hmt' y hy ht
          exact single y hy ⟨called_opVar.mpr (Option.some.inj hmt'), ht⟩
      refine ⟨obj, hobj, fun key => ?_⟩
      rcases XmlA.members_get hmt hobj key with ⟨e, pre, y, post, g1, g2, g3, g4, g5⟩ | h'
      · exact .inl ⟨e, pre, y, post, g1, g2, g3, g4, (entry_iff g3).mp g5⟩
      · exact .inr h'
  obtain ⟨ws, h1, h2⟩ := readF_of (ops := xmlOps) (sc := sc) obj (sc.fields c') attrs names excluded (by
    intro f key ty req v hz
    rcases hget key with ⟨e, pre, y, post, g1, g2, g3, g4, g5⟩ | ⟨g1, g2⟩
    · obtain ⟨w, hw⟩ := present f key ty req v pre y post e.value hz g2 g3 g4 g5 e.path
      exact .inr ⟨e, w, g1, hw⟩
    · obtain ⟨k1, k2⟩ := absent f key ty req v hz g1
      exact .inl ⟨g2, k1, k2⟩)
  refine ⟨ws, .mk (obj := obj) ?_ hneed ?_ h1, h2⟩
  · exact XmlA.asObject_iff.mpr ⟨hp, hnt, x, hd, hobj⟩
  · intro e he
    rcases XmlA.mem_members hobj e he with h | ⟨y, hy, ht, -⟩
    · simp at h
    · obtain ⟨key, hkey, ht'⟩ := known y hy
      obtain rfl : key = e.1 := List.append_cancel_left (ht'.symm.trans ht)
      exact hkey

theorem XAccepts.read {sc : Schema C E S F} (hs : Sane sc) (hx : XmlNames sc) {ty x v} (h : XAccepts sc ty x v) :
    ∀ p, Readable sc ty v x p := by
  induction h with
  | str h => exact fun p => ⟨_, .str (XmlA.asString_iff.mpr ⟨h, rfl⟩), rfl⟩
  | bool h h' => exact fun p => ⟨_, .bool (XmlA.asBool_iff.mpr ⟨h, boolText_iff.mpr h'⟩), rfl⟩
  | any => exact fun p => ⟨_, .any, rfl⟩
  | enum h h' h'' => exact fun p => ⟨_, .enum (XmlA.asString_iff.mpr ⟨h, h'⟩) h'', rfl⟩
  | sfv h h' h'' => exact fun p => ⟨_, .sfv (XmlA.asString_iff.mpr ⟨h, h'⟩) h'', rfl⟩
  | @list it ae x vs hne length items ih =>
    intro p
    have hl : ∀ (cs : List Xml) (vs : List (Val C E S F)) (i : Nat), cs.length = vs.length →
        (∀ (i : Nat) (y : Xml) (v : Val C E S F), cs[i]? = some y → vs[i]? = some v → ∀ p, Readable sc it v y p) →
        ∃ ws, ReadL xmlOps sc it (XmlA.items p i cs) ws ∧ strip.stripL ws = vs := by
      intro cs
      induction cs with
      | nil =>
        intro vs i h _
        cases vs with
        | nil => exact ⟨_, .nil, rfl⟩
        | cons v vs => simp at h
      | cons y cs ih2 =>
        intro vs i h hi
        cases vs with
        | nil => simp at h
        | cons v vs =>
          obtain ⟨ws, h1, h2⟩ := ih2 vs (i + 1) (by simpa using h) (fun i y v hy hv => hi (i + 1) y v (by simpa using hy) (by simpa using hv))
          obtain ⟨w, h3, h4⟩ := hi 0 y v rfl rfl (p ++ [.idx i])
          exact ⟨_, .cons h3 h1, by simp [strip.stripL, h2, h4]⟩
    obtain ⟨ws, h1, h2⟩ := hl x.children vs 0 length ih
    refine ⟨_, .list ?_ h1, by rw [strip_list, h2]⟩
    simp only [xmlOps, XmlA.asList]
    rw [if_neg]
    simp only [List.isEmpty_iff, Bool.and_eq_true, Bool.not_eq_eq_eq_not, Bool.not_true]
    rintro ⟨e1, e2⟩
    rcases hne with h | h
    · rw [e1] at length
      exact h (List.length_eq_zero_iff.mp length.symm)
    · simp [h] at e2
  | @obj c c' x d attrs isA inNamespace text content called named known single names present absent excluded ih =>
    intro p
    have hd : XmlA.data (⟨x, p⟩ : XmlA).value = .ok d := content_iff.mp content
    have hmt : sc.abstract c = true ∨ sc.needsModelType c' = true → XmlA.modelType ⟨x, p⟩ = .ok (some (sc.className c')) := by
      intro h
      have hc := (called_iff hx).mp (called h)
      refine XmlA.modelType_iff.mpr ⟨d, hd, ?_, hc⟩
      intro e
      rw [show d.tag.drop xmlns.length = [] from e] at hc
      obtain ⟨a, s, h', -⟩ := hx.upper c'
      rw [h'] at hc
      cases hc
    obtain ⟨ws, h1, h2⟩ := xaccepts_obj ⟨x, p⟩ hd inNamespace text (fun h => hmt (.inr h)) named known single names ih absent excluded
    exact read_cls hs isA (fun h => hmt (.inl h)) h1 h2

end
end Verif.Parse
