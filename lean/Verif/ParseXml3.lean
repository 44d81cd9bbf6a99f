import Verif.ParseXml2

/-! # What is read from XML elements is what they describe -/

namespace Verif.Parse
open Verif Verif.Spec.Parse

section
variable {C E S F : Type}

theorem called_iff {sc : Schema C E S F} (hx : XmlNames sc) {x : Xml} {c : C} :
    Called x (sc.className c) ↔ XmlA.upperFirst (x.tag.drop xmlns.length) = sc.className c := by
  rw [XmlA.upperFirst_iff (hx.upper c)]
  simp [Called]

/-- an element in a list is also one for an attribute -/
theorem XDescribes.to_attr {sc : Schema C E S F} (hx : XmlNames sc) {ty x v} (h : XDescribes sc true .item ty x v) {c f key req}
    (hf : Field.mk f (.attr key ty req) ∈ sc.fields c) (ht : x.tag = xmlns ++ key) : XDescribes sc true .attr ty x v := by
  cases h with
  | str h => exact .str h
  | bool h h' => exact .bool h h'
  | any => exact .any
  | enum h h' h'' => exact .enum h h' h''
  | sfv h h' h'' => exact .sfv h h' h''
  | list h1 h2 h3 h4 => exact .list h1 h2 h3 h4
  | @obj _ d d' _ attrs isA position called text known once names present absent excluded =>
    have hisA := isA
    rcases isA with ⟨hab, rfl⟩ | ⟨hab, hm⟩
    · refine .obj hisA (fun _ => ⟨hab, (hx.conc _ _ _ _ _ hf hab).1⟩) (fun h => absurd rfl h) ?_ known once names present absent excluded
      rcases text with h | ⟨-, h⟩
      · exact .inl h
      · cases h
    · exfalso
      have hname : Called x (sc.className d') := by
        rcases called (by decide) with h | ⟨-, -, h⟩
        · exact ⟨_, rfl, .inl (by rw [h]; simp)⟩
        · exact h (.inl hab)
      obtain ⟨-, n1, n2⟩ := hx.noContent _ _ hisA
      rw [called_iff hx, ht] at hname
      simp only [List.drop_left] at hname
      rcases hx.abs _ _ _ _ _ hf hab with rfl | ⟨-, rfl⟩
      · exact n1 (hname ▸ rfl)
      · exact n2 (hname ▸ rfl)
  | @wrappedItem d _ y _ tol name text child content =>
    cases hab : sc.abstract d with
    | true => exact .wrapped hab name text child content
    | false => exact absurd (ht ▸ name) (hx.conc _ _ _ _ _ hf hab).2.2.1

/-- what is known about an object that was read -/
structure XmlObj (sc : Schema C E S F) (c : C) (a : XmlA) (obj : List (Str × XmlA)) (attrs : List (F × Val C E S F)) : Prop where
  object : XmlA.asObject a = .ok obj
  tag : sc.needsModelType c = true → XmlA.modelType a = .ok (some (sc.className c))
  known : ∀ e ∈ obj, e.1 ∈ allKeys (sc.fields c)
  fields : FieldsOk sc (sc.fields c) attrs
  present : ∀ f key ty req v, (Field.mk f (.attr key ty req), f, v) ∈ (sc.fields c).zip attrs →
        (∀ e, dictGet key obj = some e → XDescribes sc true .item ty e.value (strip v)) ∧
        (dictGet key obj = none → req = false ∧ v = .none)
  excluded : ∀ f v, (Field.mk f .excluded, f, v) ∈ (sc.fields c).zip attrs → v = .none

theorem XmlObj.describes {sc : Schema C E S F} (hx : XmlNames sc) {b c a obj attrs} (h : XmlObj sc c a obj attrs) (isA : IsA sc b c)
    (habs : sc.abstract b = true → XmlA.modelType a = .ok (some (sc.className c))) :
    XDescribes sc true .item (.cls b) a.value (.obj c (strip.stripA attrs)) := by
  obtain ⟨hpre, hnt, d, hd, hm⟩ := XmlA.asObject_iff.mp h.object
  have hcs := XmlA.members_prefix hm
  have hcalled : sc.abstract b = true ∨ sc.needsModelType c = true → Called d (sc.className c) := by
    intro hc
    obtain ⟨d', h1, h2, h3⟩ := XmlA.modelType_iff.mp (hc.elim habs h.tag)
    rw [hd] at h1
    cases h1
    exact (called_iff hx).mpr h3
  have hget : ∀ key, (∃ e pre y post, dictGet key obj = some e ∧ d.children = pre ++ y :: post ∧ y.tag = xmlns ++ key ∧
        (∀ z ∈ post, z.tag ≠ xmlns ++ key) ∧ (e.value = y ∨ (key = py!"value" ∧ y.children = [e.value]))) ∨
      ((∀ z ∈ d.children, z.tag ≠ xmlns ++ key) ∧ dictGet key obj = none) := by
    intro key
    by_cases hne : d.children = []
    · rw [hne, XmlA.members] at hm
      cases hm
      right; simp [hne, dictGet]
    · obtain ⟨mt, hmt⟩ := hcs.2 hne
      rcases XmlA.members_get hmt hm key with ⟨e, pre, y, post, h1, h2, h3, h4, h5⟩ | h'
      · refine .inl ⟨e, pre, y, post, h1, h2, h3, h4, ?_⟩
        rw [XmlA.Entry] at h5
        split at h5
        · rename_i hc; exact .inr ⟨hc.2, h5⟩
        · exact .inl h5
      · exact .inr h'
  have hobj : ∀ pos, pos ≠ .attr → (pos = .item → xmlns <+: d.tag) → (NoText d ∨ (true = true ∧ pos = .inner)) →
      XDescribes sc true pos (.cls b) d (.obj c (strip.stripA attrs)) := by
    intro pos hpos hp ht
    refine .obj isA (fun h => absurd h hpos) (fun _ => .inr ⟨rfl, hp, hcalled⟩) ht ?_ (.inl rfl) ?_ ?_ ?_ ?_
    · intro y hy
      obtain ⟨key, hkey⟩ := hcs.1 y hy
      refine ⟨key, ?_, hkey.symm⟩
      rcases hget key with ⟨e, -, -, -, he, -⟩ | ⟨h1, -⟩
      · exact h.known _ (dictGet_mem he)
      · exact absurd hkey.symm (h1 y hy)
    · rw [stripA_map, List.map_map]; exact h.fields.names
    · intro f key ty req v pre y post hz hsplit htag hlast
      obtain ⟨u, rfl, hu⟩ := zip_stripA hz
      rcases hget key with ⟨e, pre', y', post', he, h2, h3, h4, h5⟩ | ⟨h1, -⟩
      · have hx1 := (h.present _ _ _ _ _ hu).1 e he
        have : y' = y := by
          rw [h2] at hsplit
          clear h2 he
          induction pre generalizing pre' with
          | nil =>
            cases pre' with
            | nil => simp only [List.nil_append, List.cons.injEq] at hsplit; exact hsplit.1
            | cons z pre' =>
              simp only [List.nil_append, List.cons_append, List.cons.injEq] at hsplit
              exact absurd h3 (hlast y' (by rw [← hsplit.2]; simp))
          | cons w pre ih =>
            cases pre' with
            | nil =>
              simp only [List.nil_append, List.cons_append, List.cons.injEq] at hsplit
              exact absurd htag (h4 y (by rw [hsplit.2]; simp))
            | cons z pre' =>
              simp only [List.cons_append, List.cons.injEq] at hsplit
              exact ih _ hsplit.2
        subst this
        rcases h5 with h5 | ⟨rfl, h5⟩
        · rw [h5] at hx1
          exact XDescribes.to_attr hx hx1 (List.of_mem_zip hu).1 h3
        · exact .wrappedValue rfl h3 h5 hx1
      · exact absurd htag (h1 y (by rw [hsplit]; simp))
    · intro f key ty req v hz hno
      obtain ⟨u, rfl, hu⟩ := zip_stripA hz
      rcases hget key with ⟨e, pre', y', post', he, h2, h3, -⟩ | ⟨-, h1⟩
      · exact absurd h3 (hno y' (by rw [h2]; simp))
      · obtain ⟨h2, h3⟩ := (h.present _ _ _ _ _ hu).2 h1
        exact ⟨h2, by rw [h3]; simp [strip]⟩
    · intro f v hz
      obtain ⟨u, rfl, hu⟩ := zip_stripA hz
      rw [h.excluded _ _ hu]; simp [strip]
  rcases XmlA.data_ok hd with ⟨h1, h2⟩ | ⟨h1, rfl⟩
  · exact .wrappedItem rfl h1 hnt h2 (hobj .inner (by decide) (fun h => by cases h) (.inr ⟨rfl, rfl⟩))
  · exact hobj .item (by decide) (fun _ => hpre) (.inl hnt)

theorem Read.xml {sc : Schema C E S F} (hs : Sane sc) (hx : XmlNames sc) {ty a v} (h : Read xmlOps sc ty a v) :
    XDescribes sc true .item ty a.value (strip v) := by
  refine Read.rec (ops := xmlOps) (sc := sc) (motive_1 := fun ty a v _ => XDescribes sc true .item ty a.value (strip v))
    (motive_2 := fun it as vs _ => as.length = vs.length ∧ ∀ (i : Nat) (a : XmlA) (v : Val C E S F), as[i]? = some a → vs[i]? = some v →
      XDescribes sc true .item it a.value (strip v))
    (motive_3 := fun c a v _ => ∃ obj attrs, v = .obj c attrs ∧ XmlObj sc c a obj attrs)
    (motive_4 := fun obj fs attrs _ =>
      (∀ f key ty req v, (Field.mk f (.attr key ty req), f, v) ∈ fs.zip attrs →
        (∀ e, dictGet key obj = some e → XDescribes sc true .item ty e.value (strip v)) ∧
        (dictGet key obj = none → req = false ∧ v = .none)) ∧
      (∀ f v, (Field.mk f .excluded, f, v) ∈ fs.zip attrs → v = .none))
    ?_ ?_ ?_ ?_ ?_ ?_ ?_ ?_ ?_ ?_ ?_ ?_ ?_ ?_ ?_ h
  · intro a s h
    obtain ⟨h1, rfl⟩ := XmlA.asString_iff.mp h
    simp only [strip]; exact .str h1
  · intro a b h
    obtain ⟨h1, h2⟩ := XmlA.asBool_iff.mp h
    simp only [strip]; exact .bool h1 h2
  · intros; simp only [strip]; exact .any
  · intro a e s h h'
    obtain ⟨h1, h2⟩ := XmlA.asString_iff.mp h
    simp only [strip]; exact .enum h1 h2 h'
  · intro a e s h h'
    obtain ⟨h1, h2⟩ := XmlA.asString_iff.mp h
    simp only [strip]; exact .sfv h1 h2 h'
  · rintro a as it ae vs h _ ⟨ih1, ih2⟩
    obtain ⟨hne, rfl⟩ := XmlA.asList_ok h
    have hlen : a.value.children.length = vs.length := by rw [← ih1, XmlA.items_eq]; simp
    rw [strip_list, stripL_map]
    refine .list (.inl rfl) ?_ (by simpa using hlen) fun i y v hy hv => ?_
    · rcases hne with h | h
      · left
        intro e
        simp only [List.map_eq_nil_iff] at e
        subst e
        exact h (List.length_eq_zero_iff.mp (by simpa using hlen))
      · exact .inr h
    · rw [List.getElem?_map] at hv
      obtain ⟨v0, hv0, rfl⟩ := Option.map_eq_some_iff.mp hv
      refine ih2 i ⟨y, a.path ++ [.idx i]⟩ v0 ?_ hv0
      rw [XmlA.items_eq, List.getElem?_mapIdx, hy]
      simp
  · rintro a c v w hab _ hp ⟨obj, attrs, rfl, ho⟩
    have hst : strip w = strip (.obj c attrs) := by
      have ht : HasType sc (.cls c) (.obj c attrs) := hasType_obj.mpr ⟨.inl ⟨hab, rfl⟩, ho.fields⟩
      unfold Post at hp
      cases hpp : sc.postParse c with
      | none => simp only [hpp] at hp; rw [hp]
      | some f =>
        simp only [hpp] at hp
        obtain ⟨w', h1, -, h2⟩ := hs.post c f _ hpp ht
        rw [hp] at h1
        cases h1
        exact h2
    rw [hst, strip_obj]
    exact ho.describes hx (.inl ⟨hab, rfl⟩) (fun h => by simp [hab] at h)
  · rintro a c c' d v hab hm hf _ ⟨obj, attrs, rfl, ho⟩
    have hd : d = some (sc.className c') := by simpa using List.find?_some hf
    rw [strip_obj]
    exact ho.describes hx (.inr ⟨hab, List.mem_of_find?_eq_some hf⟩) (fun _ => hd ▸ hm)
  · intro it; simp
  · intro it a as v vs _ _ h1 ⟨h2, h3⟩
    refine ⟨by simp [h2], fun i b w hb hw => ?_⟩
    cases i with
    | zero => simp only [List.getElem?_cons_zero, Option.some.injEq] at hb hw; subst hb hw; exact h1
    | succ i => simp only [List.getElem?_cons_succ] at hb hw; exact h3 i b w hb hw
  · intro c a obj attrs ho hm hk hr ⟨ih1, ih2⟩
    exact ⟨obj, attrs, rfl, ho, hm, hk, ReadF.typed hs xml_nonempty hr, ih1, ih2⟩
  · intro obj; simp
  · intro obj f fs attrs _ ⟨ih1, ih2⟩
    constructor
    · intro f' key ty req v hm
      simp only [List.zip_cons_cons, List.mem_cons, Prod.mk.injEq, Field.mk.injEq, reduceCtorEq, and_false, false_and, false_or] at hm
      exact ih1 _ _ _ _ _ hm
    · intro f' v hm
      rw [List.zip_cons_cons] at hm
      rcases List.mem_cons.mp hm with hm | hm
      · cases hm; rfl
      · exact ih2 _ _ hm
  · intro obj f key ty fs attrs hg _ ⟨ih1, ih2⟩
    constructor
    · intro f' key' ty' req' v hm
      rw [List.zip_cons_cons] at hm
      rcases List.mem_cons.mp hm with hm | hm
      · cases hm; simp [hg]
      · exact ih1 _ _ _ _ _ hm
    · intro f' v hm
      simp only [List.zip_cons_cons, List.mem_cons, Prod.mk.injEq, Field.mk.injEq, reduceCtorEq, and_false, false_and, false_or] at hm
      exact ih2 _ _ hm
  · intro obj f key ty req a v fs attrs hg _ _ h1 ⟨ih1, ih2⟩
    constructor
    · intro f' key' ty' req' v hm
      rw [List.zip_cons_cons] at hm
      rcases List.mem_cons.mp hm with hm | hm
      · cases hm
        refine ⟨fun a' ha' => ?_, by simp [hg]⟩
        rw [hg] at ha'; cases ha'
        exact h1
      · exact ih1 _ _ _ _ _ hm
    · intro f' v hm
      simp only [List.zip_cons_cons, List.mem_cons, Prod.mk.injEq, Field.mk.injEq, reduceCtorEq, and_false, false_and, false_or] at hm
      exact ih2 _ _ hm

end
end Verif.Parse
