import Verif.Props.EndToEnd

/-!
# C88: an environment is valid iff its parts are valid, and have different identifiers

The second half is not checked. Every shell, submodel and concept description is judged on its own: an environment passes iff each of its parts passes in an environment of its own.
No rule connects the parts.
-/

namespace Verif.Props
open Verif Verif.Parse Verif.Spec.Parse Verif.Aas Verif.Spec.Model Verif.Spec.Templates Verif.Engine Verif.Spec.Engine Verif.File Res

/-- the attributes of an environment: attribute, its name in documents, the class of the elements -/
inductive Slot : Fld → Str → Cls → Prop
  | shells : Slot .assetAdministrationShells py!"assetAdministrationShells" .assetAdministrationShell
  | submodels : Slot .submodels py!"submodels" .submodel
  | descriptions : Slot .conceptDescriptions py!"conceptDescriptions" .conceptDescription

variable (text : Note → Str) (lim : Option Nat)

/-- the check of the document as an environment ends with a report without errors -/
def PassesCheck (j : Json) : Prop := ∃ r, checkJsonData (engine text lim) j py!"Environment" = .ok r ∧ r.ok = true

section
variable {lim : Option Nat}

theorem slot_field {f : Fld} {key : Str} {c : Cls} (h : Slot f key c) : Field.mk f (.attr key (.list (.cls c) false) false) ∈ (schema lim).fields .environment := by
  change _ ∈ fieldsOf .environment
  cases h <;> simp [fieldsOf]

theorem field_slot {f : Fld} {key : Str} {ty : ATy} {req : Bool} (h : Field.mk f (.attr key ty req) ∈ (schema lim).fields .environment) :
    ∃ c, Slot f key c ∧ ty = .list (.cls c) false ∧ req = false := by
  change _ ∈ fieldsOf .environment at h
  simp only [fieldsOf, List.mem_cons, Field.mk.injEq, Slot.attr.injEq, List.not_mem_nil, or_false] at h
  rcases h with ⟨rfl, rfl, rfl, rfl⟩ | ⟨rfl, rfl, rfl, rfl⟩ | ⟨rfl, rfl, rfl, rfl⟩
  · exact ⟨_, .shells, rfl, rfl⟩
  · exact ⟨_, .submodels, rfl, rfl⟩
  · exact ⟨_, .descriptions, rfl, rfl⟩

theorem env_isA {c : Cls} (h : IsA (schema lim) .environment c) : c = .environment := by
  rcases h with ⟨-, h⟩ | ⟨h, -⟩
  · exact h
  · cases h

theorem slot_key {f f' : Fld} {key : Str} {c c' : Cls} (h : Slot f key c) (h' : Slot f' key c') : f = f' ∧ c = c' := by
  cases h <;> cases h' <;> first | exact ⟨rfl, rfl⟩ | skip

/-- documents of environments -/
theorem env_conforms {kvs : List (Str × Json)} : Conforms (schema lim) (.cls .environment) (.obj kvs) ↔
    ∀ e ∈ kvs, e.1 = py!"modelType" ∨ ∃ f c l, Slot f e.1 c ∧ e.2 = .arr l ∧ l ≠ [] ∧ ∀ y ∈ l, Conforms (schema lim) (.cls c) y := by
  constructor
  · intro h
    cases h with
    | obj isA tag known required values =>
      obtain rfl := env_isA isA
      rintro ⟨k, v⟩ he
      refine (known _ he).imp id fun ⟨f, ty, req, hf⟩ => ?_
      obtain ⟨c, hs, rfl, rfl⟩ := field_slot hf
      have := values f k _ _ v hf he
      cases this with
      | list hne hit => exact ⟨f, c, _, hs, rfl, hne.resolve_right (by simp), hit⟩
  · intro h
    refine .obj (.inl ⟨rfl, rfl⟩) ?_ ?_ ?_ ?_
    · rintro (h | h) <;> cases h
    · intro e he
      refine (h e he).imp id fun ⟨f, c, l, hs, _⟩ => ⟨f, _, _, slot_field hs⟩
    · intro f key ty hf
      obtain ⟨-, -, -, h⟩ := field_slot hf
      cases h
    · intro f key ty req j hf he
      obtain ⟨c, hs, rfl, rfl⟩ := field_slot hf
      rcases h _ he with rfl | ⟨f', c', l, hs', rfl, hne, hl⟩
      · cases hs
      · obtain ⟨rfl, rfl⟩ := slot_key hs hs'
        exact .list (.inl hne) hl

/-- the content of an environment -/
theorem env_content {kvs : List (Str × Json)} {w : AVal} (h : Spec.Parse.Describes (schema lim) (.cls .environment) (.obj kvs) w) :
    ∃ a b c, w = .obj .environment [(.assetAdministrationShells, a), (.submodels, b), (.conceptDescriptions, c)] ∧
      ∀ f key cl, Slot f key cl → (∀ j, (key, j) ∈ kvs → Spec.Parse.Describes (schema lim) (.list (.cls cl) false) j (Spec.Model.get w f)) ∧
        ((∀ j, (key, j) ∉ kvs) → Spec.Model.get w f = .none) := by
  cases h with
  | obj isA tag names present absent excluded =>
    rename_i c attrs
    obtain rfl := env_isA isA
    change _ = (fieldsOf .environment).map _ at names
    simp only [fieldsOf, List.map_cons, List.map_nil] at names
    match attrs, names with
    | [(f1, a), (f2, b), (f3, c)], names =>
      simp only [List.map_cons, List.map_nil, List.cons.injEq, and_true] at names
      obtain ⟨rfl, rfl, rfl⟩ := names
      refine ⟨a, b, c, rfl, ?_⟩
      intro f key cl hs
      have hz : (Field.mk f (.attr key (.list (.cls cl) false) false), f, Spec.Model.get
          (.obj .environment [(.assetAdministrationShells, a), (.submodels, b), (.conceptDescriptions, c)]) f) ∈ ((schema lim).fields .environment).zip
          [(Fld.assetAdministrationShells, a), (.submodels, b), (.conceptDescriptions, c)] := by
        cases hs
        · exact .head _
        · exact .tail _ (.head _)
        · exact .tail _ (.tail _ (.head _))
      exact ⟨fun j hj => present f key _ _ _ j hz hj, fun hn => absent f key _ _ _ hz hn⟩

theorem env_nested {a b c x : AVal} {p : List PTok} (w : AVal) (hw : w = .obj .environment [(.assetAdministrationShells, a), (.submodels, b), (.conceptDescriptions, c)])
    (hl : ∀ f key cl, Slot f key cl → Spec.Model.get w f = .none ∨ ∃ l, Spec.Model.get w f = .list l) :
    Nested Fld.pyName w p x ↔ (p = [] ∧ x = w) ∨ ∃ f key cl i u q, Slot f key cl ∧ (elems w f)[i]? = some u ∧ p = .key f.pyName :: .idx i :: q ∧ Nested Fld.pyName u q x := by
  have hmem : ∀ f v, (f, v) ∈ [(Fld.assetAdministrationShells, a), (.submodels, b), (.conceptDescriptions, c)] → ∃ key cl, Slot f key cl ∧ Spec.Model.get w f = v := by
    intro f v h
    simp only [List.mem_cons, Prod.mk.injEq, List.not_mem_nil, or_false] at h
    rcases h with ⟨rfl, rfl⟩ | ⟨rfl, rfl⟩ | ⟨rfl, rfl⟩
    · exact ⟨_, _, .shells, by rw [hw]; rfl⟩
    · exact ⟨_, _, .submodels, by rw [hw]; rfl⟩
    · exact ⟨_, _, .descriptions, by rw [hw]; rfl⟩
  constructor
  · intro h
    rw [hw] at h
    cases h with
    | here => exact .inl ⟨rfl, hw.symm⟩
    | attr hm hn =>
      obtain ⟨key, cl, hs, hg⟩ := hmem _ _ hm
      rcases hl _ _ _ hs with h | ⟨l, h⟩ <;> rw [hg] at h <;> subst h <;> cases hn
    | item hm hi hn =>
      obtain ⟨key, cl, hs, hg⟩ := hmem _ _ hm
      exact .inr ⟨_, _, _, _, _, _, hs, by rw [elems, hg]; exact hi, rfl, hn⟩
  · rintro (⟨rfl, rfl⟩ | ⟨f, key, cl, i, u, q, hs, hi, rfl, hn⟩)
    · rw [hw]; exact .here _ _
    · rcases hl _ _ _ hs with h | ⟨l, h⟩
      · rw [elems, h] at hi; cases hi
      · rw [elems, h] at hi
        have : (f, Val.list l) ∈ [(Fld.assetAdministrationShells, a), (.submodels, b), (.conceptDescriptions, c)] := by
          rw [hw] at h
          rw [← h]
          cases hs
          · exact .head _
          · exact .tail _ (.head _)
          · exact .tail _ (.tail _ (.head _))
        rw [hw]
        exact .item this hi hn

theorem unbroken {v : AVal} {N : Str → Prop} {t : Str} {l : Level} (hn : className v = py!"Environment") (h1 : AASd118 v) (h2 : AASd002 v) :
    ¬ Broken lim N v t l := by
  intro h
  cases h <;> first
    | (rename_i h; exact h h1) | (rename_i h; exact h h2)
    | (rename_i h _; rw [hn] at h; revert h; decide +kernel)

theorem env_unbroken {a b c : AVal} {N : Str → Prop} {t : Str} {l : Level} :
    ¬ Broken lim N (.obj .environment [(.assetAdministrationShells, a), (.submodels, b), (.conceptDescriptions, c)]) t l :=
  unbroken rfl (fun h => absurd rfl h) (fun _ h => by cases h)

theorem uncrashed {v : AVal} (hn : className v = py!"Environment") : ¬ Crashes lim v := by
  intro h
  cases h <;> (rename_i h _; rw [hn] at h; revert h; decide +kernel)

/-- the part breaks no rule, its checks do not raise, and if it is a submodel with a template, it follows the template -/
def Sound (lim : Option Nat) (f : Fld) (u : AVal) : Prop :=
  Obeys lim u ∧ ¬ Raising lim u ∧ (f = .submodels → ∀ p ∈ templated [u], Follows true p.2 p.1 ∧ ¬ RaisesSubmodel p.2 p.1)

/-- the values of the attributes of environments -/
theorem env_lists {kvs : List (Str × Json)} {w : AVal}
    (hd : ∀ f key cl, Slot f key cl → (∀ j, (key, j) ∈ kvs → Spec.Parse.Describes (schema lim) (.list (.cls cl) false) j (Spec.Model.get w f)) ∧
        ((∀ j, (key, j) ∉ kvs) → Spec.Model.get w f = .none)) (f : Fld) (key : Str) (cl : Cls) (hs : Slot f key cl) :
    (Spec.Model.get w f = .none ∧ ∀ j, (key, j) ∉ kvs) ∨ ∃ js vs, (key, .arr js) ∈ kvs ∧ Spec.Model.get w f = .list vs ∧ js.length = vs.length ∧
      ∀ (i : Nat) (j : Json) (v : AVal), js[i]? = some j → vs[i]? = some v → Spec.Parse.Describes (schema lim) (.cls cl) j v := by
  by_cases h : ∃ j, (key, j) ∈ kvs
  · obtain ⟨j, hj⟩ := h
    have hg := (hd f key cl hs).1 j hj
    generalize Spec.Model.get w f = v at hg
    cases hg with
    | list hl hi => exact .inr ⟨_, _, hj, rfl, hl, hi⟩
  · have : ∀ j, (key, j) ∉ kvs := fun j hj => h ⟨j, hj⟩
    exact .inl ⟨(hd f key cl hs).2 this, this⟩

/-- an environment, whatever the document was -/
def Shape (w : AVal) : Prop :=
  (∃ a b c, w = .obj .environment [(.assetAdministrationShells, a), (.submodels, b), (.conceptDescriptions, c)]) ∧
    ∀ f key cl, Slot f key cl → Spec.Model.get w f = .none ∨ ∃ l, Spec.Model.get w f = .list l

theorem Shape.lines {w : AVal} (h : Shape w) (p : List PTok) (t : Str) (l : Level) :
    Breaks lim w p t l ↔ ∃ f key cl i u q, Slot f key cl ∧ (elems w f)[i]? = some u ∧ p = .key f.pyName :: .idx i :: q ∧ Breaks lim u q t l := by
  obtain ⟨⟨a, b, c, hw⟩, hl⟩ := h
  constructor
  · rintro ⟨x, hn, hb⟩
    rcases (env_nested w hw hl).mp hn with ⟨rfl, rfl⟩ | ⟨f, key, cl, i, u, q, hs, hi, rfl, hn'⟩
    · rw [hw] at hb; exact absurd hb env_unbroken
    · exact ⟨f, key, cl, i, u, q, hs, hi, rfl, x, hn', hb⟩
  · rintro ⟨f, key, cl, i, u, q, hs, hi, rfl, x, hn, hb⟩
    exact ⟨x, (env_nested w hw hl).mpr (.inr ⟨f, key, cl, i, u, q, hs, hi, rfl, hn⟩), hb⟩

theorem Shape.raising {w : AVal} (h : Shape w) : Raising lim w ↔ ∃ f key cl, ∃ u ∈ elems w f, Slot f key cl ∧ Raising lim u := by
  obtain ⟨⟨a, b, c, hw⟩, hl⟩ := h
  constructor
  · rintro ⟨p, x, hn, hb⟩
    rcases (env_nested w hw hl).mp hn with ⟨rfl, rfl⟩ | ⟨f, key, cl, i, u, q, hs, hi, rfl, hn'⟩
    · exact absurd hb (uncrashed (by rw [hw]; rfl))
    · exact ⟨f, key, cl, u, List.mem_of_getElem? hi, hs, q, x, hn', hb⟩
  · rintro ⟨f, key, cl, u, hu, hs, q, x, hn, hb⟩
    obtain ⟨i, hi⟩ := List.getElem?_of_mem hu
    exact ⟨_, x, (env_nested w hw hl).mpr (.inr ⟨f, key, cl, i, u, q, hs, hi, rfl, hn⟩), hb⟩

theorem shape_of {kvs : List (Str × Json)} {w : AVal} (hd : Spec.Parse.Describes (schema lim) (.cls .environment) (.obj kvs) w) : Shape w := by
  obtain ⟨a, b, c, hw, hg⟩ := env_content hd
  exact ⟨⟨a, b, c, hw⟩, fun f key cl hs => (env_lists hg f key cl hs).imp And.left fun ⟨js, vs, _, h, _⟩ => ⟨vs, h⟩⟩

/-- the lines on rules: those of the parts, with the attribute and the position in front of their places -/
theorem C88_lines (kvs : List (Str × Json)) (w : AVal)
    (hd : Spec.Parse.Describes (schema lim) (.cls .environment) (.obj kvs) w) (p : List PTok) (t : Str) (l : Level) :
    Breaks lim w p t l ↔ ∃ f key cl i u q, Slot f key cl ∧ (elems w f)[i]? = some u ∧ p = .key f.pyName :: .idx i :: q ∧ Breaks lim u q t l :=
  (shape_of hd).lines p t l

theorem mem_templated_iff {l : List AVal} {p : AVal × Templates.TCls} : p ∈ templated l ↔ ∃ u ∈ l, p ∈ templated [u] := by
  simp only [templated, List.mem_filterMap, List.mem_singleton, exists_eq_left]

/-- the environment obeys the rules and follows the templates iff its parts are sound -/
theorem Shape.sound {w : AVal} (h : Shape w) : (Obeys lim w ∧ ¬ Raising lim w ∧ FollowsAll .environment w ∧ ¬ LateRaise .environment w) ↔
    ∀ f key cl, Slot f key cl → ∀ u ∈ elems w f, Sound lim f u := by
  constructor
  · rintro ⟨ho, hr, hf, hl⟩ f k cl hs u hm
    obtain ⟨i, hu⟩ := List.getElem?_of_mem hm
    refine ⟨fun p t hb => ?_, fun h' => ?_, ?_⟩
    · exact ho _ t ((h.lines _ t _).mpr ⟨f, k, cl, i, _, p, hs, hu, rfl, hb⟩)
    · exact hr (h.raising.mpr ⟨f, k, cl, _, hm, hs, h'⟩)
    · rintro rfl p hp
      have hp' := mem_templated_iff.mpr ⟨_, hm, hp⟩
      exact ⟨hf rfl p hp', fun h => hl ⟨p, hp', h⟩⟩
  · intro parts
    refine ⟨fun p t hb => ?_, fun hr => ?_, fun _ p hp => ?_, ?_⟩
    · obtain ⟨f, key, cl, i, u, q, hs, hi, -, hb⟩ := (h.lines p t _).mp hb
      exact (parts f key cl hs u (List.mem_of_getElem? hi)).1 q t hb
    · obtain ⟨f, key, cl, u, hu, hs, hr⟩ := h.raising.mp hr
      exact (parts f key cl hs u hu).2.1 hr
    · obtain ⟨u, hu, hp⟩ := mem_templated_iff.mp hp
      exact ((parts _ _ _ .submodels u hu).2.2 rfl p hp).1
    · rintro ⟨p, hp, hr⟩
      obtain ⟨u, hu, hp⟩ := mem_templated_iff.mp hp
      exact ((parts _ _ _ .submodels u hu).2.2 rfl p hp).2 hr

theorem env_symbol : symbol py!"Environment" = .ok (.cls .environment) := by decide +kernel

theorem passes_iff {text : Note → Str} {j : Json} (hw : WF j) : PassesCheck text lim j ↔ Conforms (schema lim) (.cls .environment) j ∧
    ∃ w, Spec.Parse.Describes (schema lim) (.cls .environment) j w ∧ Obeys lim w ∧ ¬ Raising lim w ∧ FollowsAll .environment w ∧ ¬ LateRaise .environment w := by
  obtain ⟨h1, h2⟩ := C80_data text lim py!"Environment" .environment env_symbol j hw
  have huniq : ∀ w w', Spec.Parse.Describes (schema lim) (.cls .environment) j w → Spec.Parse.Describes (schema lim) (.cls .environment) j w' → w = w' :=
    fun w w' h h' => C65_unique (schema lim) (sane lim) _ j hw w w' h h'
  constructor
  · rintro ⟨r, hr, hok⟩
    by_cases ht : TripsJson lim .environment j
    · obtain ⟨e, -, he⟩ := h1 ht
      rw [he] at hr; cases hr
    · obtain ⟨r', hr', hv⟩ := h2 ht
      rw [hr'] at hr
      cases hr
      obtain ⟨hc, w, hd, ho, hf⟩ := hv.mp hok
      exact ⟨hc, w, hd, ho, fun h => ht ⟨hc, w, hd, .inl h⟩, hf, fun h => ht ⟨hc, w, hd, .inr ⟨ho, h⟩⟩⟩
  · rintro ⟨hc, w, hd, ho, hr, hf, hl⟩
    have ht : ¬ TripsJson lim .environment j := by
      rintro ⟨-, w', hd', ht⟩
      obtain rfl := huniq w w' hd hd'
      rcases ht with h | h
      · exact hr h
      · exact hl h.2
    obtain ⟨r, he, hv⟩ := h2 ht
    exact ⟨r, he, hv.mpr ⟨hc, w, hd, ho, hf⟩⟩

/-- the environment passes iff its parts are sound -/
theorem passes_parts {text : Note → Str} {kvs : List (Str × Json)} (hw : WF (.obj kvs)) : PassesCheck text lim (.obj kvs) ↔
    ∀ e ∈ kvs, e.1 = py!"modelType" ∨ ∃ f c l, Slot f e.1 c ∧ e.2 = .arr l ∧ l ≠ [] ∧ ∀ y ∈ l, Conforms (schema lim) (.cls c) y ∧
      ∃ u, Spec.Parse.Describes (schema lim) (.cls c) y u ∧ Sound lim f u := by
  rw [passes_iff hw]
  constructor
  · rintro ⟨hc, w, hd, ho, hr, hf, hl⟩ ⟨k, v⟩ he
    obtain ⟨a, b, c, hwe, hg⟩ := env_content hd
    refine (env_conforms.mp hc _ he).imp id ?_
    rintro ⟨f, cl, l, hs, rfl, hne, hcs⟩
    refine ⟨f, cl, l, hs, rfl, hne, fun y hy => ⟨hcs y hy, ?_⟩⟩
    obtain ⟨i, hi⟩ := List.getElem?_of_mem hy
    rcases env_lists hg f k cl hs with ⟨-, h⟩ | ⟨js, vs, hk, hgl, hlen, hit⟩
    · exact absurd he (h _)
    · have hjs : js = l := by
        have hnd : (kvs.map (·.1)).Nodup := by cases hw with | obj h _ => exact h
        have := (dictGet_of_mem hnd hk).symm.trans (dictGet_of_mem hnd he)
        cases this
        rfl
      subst hjs
      have hiv : i < vs.length := hlen ▸ (List.getElem?_eq_some_iff.mp hi).1
      have hu : (elems w f)[i]? = some vs[i] := by rw [elems, hgl]; exact List.getElem?_eq_getElem hiv
      have hm := List.mem_of_getElem? hu
      exact ⟨vs[i], hit i y _ hi (List.getElem?_eq_getElem hiv), (shape_of hd).sound.mp ⟨ho, hr, hf, hl⟩ f k cl hs _ hm⟩
  · intro h
    have hc : Conforms (schema lim) (.cls .environment) (.obj kvs) := env_conforms.mpr fun e he =>
      (h e he).imp id fun ⟨f, c, l, hs, h1, h2, h3⟩ => ⟨f, c, l, hs, h1, h2, fun y hy => (h3 y hy).1⟩
    obtain ⟨v, -, hd, -⟩ := (C64_json lim .environment (by decide) (.obj kvs) hw _ (Nat.lt_succ_self _)).2 hc
    obtain ⟨a, b, c, hwe, hg⟩ := env_content hd
    have parts : ∀ f key cl, Slot f key cl → ∀ u ∈ elems (strip v) f, Sound lim f u := by
      intro f key cl hs u hu
      rcases env_lists hg f key cl hs with ⟨h', -⟩ | ⟨js, vs, hk, hgl, hlen, hit⟩
      · rw [elems, h'] at hu; cases hu
      · rw [elems, hgl] at hu
        obtain ⟨i, hi⟩ := List.getElem?_of_mem hu
        have hij : i < js.length := hlen ▸ (List.getElem?_eq_some_iff.mp hi).1
        have hdu := hit i _ u (List.getElem?_eq_getElem hij) hi
        rcases h _ hk with hmt | ⟨f', cl', l, hs', hl, -, hall⟩
        · subst hmt; cases hs
        · cases hl
          obtain ⟨rfl, rfl⟩ := slot_key hs hs'
          obtain ⟨-, u', hdu', hsound⟩ := hall js[i] (List.getElem_mem hij)
          have hwj : WF js[i] := by
            cases hw with
            | obj _ h => cases h _ hk with | arr h => exact h _ (List.getElem_mem hij)
          rwa [C65_unique (schema lim) (sane lim) _ _ hwj u u' hdu hdu']
    exact ⟨hc, strip v, hd, (shape_of hd).sound.mpr parts⟩

end

/-- An environment passes iff each of its parts passes on its own. Missing: the identifiers of the parts are different. -/
theorem C88_parts_partial (kvs : List (Str × Json)) (hw : WF (.obj kvs)) : PassesCheck text lim (.obj kvs) ↔
    ∀ k v, (k, v) ∈ kvs → k = py!"modelType" ∨ ((∃ f c, Slot f k c) ∧ ∃ l, v = .arr l ∧ l ≠ [] ∧ ∀ y ∈ l, PassesCheck text lim (.obj [(k, .arr [y])])) := by
  have hwf : ∀ k l, (k, Json.arr l) ∈ kvs → ∀ y ∈ l, WF (.obj [(k, .arr [y])]) := by
    intro k l hk y hy
    cases hw with
    | obj _ h =>
      cases h _ hk with
      | arr h =>
        refine .obj (by simp) fun e he => ?_
        obtain rfl := List.mem_singleton.mp he
        exact .arr fun j hj => by obtain rfl := List.mem_singleton.mp hj; exact h _ hy
  rw [passes_parts hw]
  constructor
  · intro h k v hk
    refine (h _ hk).imp id ?_
    rintro ⟨f, c, l, hs, hl, hne, hall⟩
    dsimp only at hl
    subst hl
    refine ⟨⟨f, c, hs⟩, l, rfl, hne, fun y hy => (passes_parts (hwf k l hk y hy)).mpr fun e he => ?_⟩
    obtain rfl := List.mem_singleton.mp he
    exact .inr ⟨f, c, [y], hs, rfl, by simp, fun z hz => by obtain rfl := List.mem_singleton.mp hz; exact hall _ hy⟩
  · rintro h ⟨k, v⟩ hk
    refine (h k v hk).imp id ?_
    rintro ⟨⟨f, c, hs⟩, l, rfl, hne, hall⟩
    refine ⟨f, c, l, hs, rfl, hne, fun y hy => ?_⟩
    rcases (passes_parts (hwf k l hk y hy)).mp (hall y hy) _ (.head _) with rfl | ⟨f', c', l', hs', hl', -, h'⟩
    · cases hs
    · cases hl'
      obtain ⟨rfl, rfl⟩ := slot_key hs hs'
      exact h' y (.head _)

/-- Environments can be merged and split: in particular nothing connects an identifier with another one, and references are not followed. -/
theorem C88_merge (k : Str) (l l' : List Json) (hne : l ≠ []) (hne' : l' ≠ []) (rest : List (Str × Json)) (hw : WF (.obj ((k, .arr (l ++ l')) :: rest))) :
    PassesCheck text lim (.obj ((k, .arr (l ++ l')) :: rest)) ↔
      PassesCheck text lim (.obj ((k, .arr l) :: rest)) ∧ PassesCheck text lim (.obj ((k, .arr l') :: rest)) := by
  have hsub : ∀ m, (∀ y ∈ m, y ∈ l ++ l') → WF (.obj ((k, .arr m) :: rest)) := by
    intro m hm
    cases hw with
    | obj h1 h2 =>
      refine .obj h1 fun e he => ?_
      rcases List.mem_cons.mp he with rfl | he
      · cases h2 _ (.head _) with | arr h => exact .arr fun j hj => h j (hm j hj)
      · exact h2 e (.tail _ he)
  rw [C88_parts_partial text lim _ hw, C88_parts_partial text lim _ (hsub l fun y hy => List.mem_append_left _ hy),
    C88_parts_partial text lim _ (hsub l' fun y hy => List.mem_append_right _ hy)]
  constructor
  · intro h
    constructor
    · intro k' v hk
      rcases List.mem_cons.mp hk with he | he
      · cases he
        refine (h k _ (.head _)).imp id ?_
        rintro ⟨hs, l2, he, -, hall⟩
        cases he
        exact ⟨hs, l, rfl, hne, fun y hy => hall y (List.mem_append_left _ hy)⟩
      · exact h k' v (.tail _ he)
    · intro k' v hk
      rcases List.mem_cons.mp hk with he | he
      · cases he
        refine (h k _ (.head _)).imp id ?_
        rintro ⟨hs, l2, he, -, hall⟩
        cases he
        exact ⟨hs, l', rfl, hne', fun y hy => hall y (List.mem_append_right _ hy)⟩
      · exact h k' v (.tail _ he)
  · rintro ⟨h, h'⟩ k' v hk
    rcases List.mem_cons.mp hk with he | he
    · cases he
      rcases h k _ (.head _) with rfl | ⟨hs, l2, he, -, hall⟩
      · exact .inl rfl
      · rcases h' k _ (.head _) with rfl | ⟨-, l3, he', -, hall'⟩
        · exact .inl rfl
        · cases he
          cases he'
          exact .inr ⟨hs, _, rfl, by simp [hne], fun y hy => (List.mem_append.mp hy).elim (hall y) (hall' y)⟩
    · exact h k' v (.tail _ he)

/-- Identifiers are not compared: whatever passes once, passes twice in the same environment. -/
theorem C88_unique_ids_violated (k : Str) (y : Json) (hy : WF y) (h : PassesCheck text lim (.obj [(k, .arr [y])])) :
    PassesCheck text lim (.obj [(k, .arr [y, y])]) := by
  refine (C88_merge text lim k [y] [y] (by simp) (by simp) [] (.obj (by simp) fun e he => ?_)).mpr ⟨h, h⟩
  obtain rfl := List.mem_singleton.mp he
  exact .arr fun j hj => by
    rcases List.mem_cons.mp hj with rfl | hj
    · exact hy
    · obtain rfl := List.mem_singleton.mp hj; exact hy

/-! ## examples -/

def partA : Json := .obj [(py!"modelType", .str py!"Submodel"), (py!"id", .str py!"urn:a")]
/-- a wrong category -/
def partB (category : Str) : Json := .obj [(py!"modelType", .str py!"ConceptDescription"), (py!"id", .str py!"urn:a"), (py!"idShort", .str category)]

def passes (kvs : List (Str × Json)) : Except PyExc Bool :=
  (checkJsonData (engine (fun _ => []) none) (.obj kvs) py!"Environment").map (fun r => r.ok)

theorem passes_sound {kvs : List (Str × Json)} (h : passes kvs = .ok true) : PassesCheck (fun _ => []) none (.obj kvs) := by
  unfold passes at h
  cases hr : checkJsonData (engine (fun _ => []) none) (.obj kvs) py!"Environment" with
  | error e => rw [hr] at h; cases h
  | ok r => rw [hr] at h; exact ⟨r, hr, by injection h⟩

/-- a submodel, a concept description with the same identifier, both; a wrong concept description, and both -/
example : passes [(py!"submodels", .arr [partA])] = .ok true ∧ passes [(py!"conceptDescriptions", .arr [partB py!"c"])] = .ok true ∧
    passes [(py!"conceptDescriptions", .arr [partB py!"c"]), (py!"submodels", .arr [partA])] = .ok true ∧
    passes [(py!"conceptDescriptions", .arr [partB py!"1"])] = .ok false ∧
    passes [(py!"conceptDescriptions", .arr [partB py!"1"]), (py!"submodels", .arr [partA])] = .ok false := by decide +kernel

/-- the same submodel twice -/
example : PassesCheck (fun _ => []) none (.obj [(py!"submodels", .arr [partA, partA])]) :=
  C88_unique_ids_violated _ _ _ _ (wf_sound _ (by decide +kernel)) (passes_sound (by decide +kernel))

end Verif.Props
