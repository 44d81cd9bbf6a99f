import Verif.Spec.Document
import Verif.ParseJson2

/-! # The value that is read is the one the document describes -/

namespace Verif.Parse
open Verif Verif.Spec.Parse

section
variable {C E S F : Type}

theorem stripA_map (attrs : List (F × Val C E S F)) : strip.stripA attrs = attrs.map (fun a => (a.1, strip a.2)) := by
  induction attrs with
  | nil => simp [strip.stripA]
  | cons a as ih => simp [strip.stripA, ih]

theorem stripL_map (vs : List (Val C E S F)) : strip.stripL vs = vs.map strip := by
  induction vs with
  | nil => simp [strip.stripL]
  | cons a as ih => simp [strip.stripL, ih]

theorem zip_stripA {X : Type} {fs : List X} {attrs : List (F × Val C E S F)} {x : X} {f : F} {w : Val C E S F}
    (h : (x, f, w) ∈ fs.zip (strip.stripA attrs)) : ∃ v, w = strip v ∧ (x, f, v) ∈ fs.zip attrs := by
  rw [stripA_map, List.zip_map_right] at h
  obtain ⟨⟨y, g, v⟩, hm, he⟩ := List.mem_map.mp h
  simp only [Prod.map, id, Prod.mk.injEq] at he
  obtain ⟨rfl, rfl, rfl⟩ := he
  exact ⟨v, rfl, hm⟩

theorem Read.describes {sc : Schema C E S F} (hs : Sane sc) {ty a v} (h : Read jsonOps sc ty a v) : WF a.value →
    Describes sc ty a.value (strip v) := by
  refine Read.rec (ops := jsonOps) (sc := sc) (motive_1 := fun ty a v _ => WF a.value → Describes sc ty a.value (strip v))
    (motive_2 := fun it as vs _ => as.length = vs.length ∧ ∀ (i : Nat) (a : JsonA) (v : Val C E S F), as[i]? = some a → vs[i]? = some v →
      WF a.value → Describes sc it a.value (strip v))
    (motive_3 := fun c a v _ => WF a.value → ∃ kvs attrs, a.value = .obj kvs ∧ v = .obj c attrs ∧ FieldsOk sc (sc.fields c) attrs ∧
      (∀ f key ty req v j, (Field.mk f (.attr key ty req), f, v) ∈ (sc.fields c).zip attrs → (key, j) ∈ kvs → Describes sc ty j (strip v)) ∧
      (∀ f key ty req v, (Field.mk f (.attr key ty req), f, v) ∈ (sc.fields c).zip attrs → (∀ j, (key, j) ∉ kvs) → v = .none) ∧
      (∀ f v, (Field.mk f .excluded, f, v) ∈ (sc.fields c).zip attrs → v = .none))
    (motive_4 := fun obj fs attrs _ =>
      (∀ f key ty req v, (Field.mk f (.attr key ty req), f, v) ∈ fs.zip attrs →
        (∀ a, dictGet key obj = some a → WF a.value → Describes sc ty a.value (strip v)) ∧ (dictGet key obj = none → v = .none)) ∧
      (∀ f v, (Field.mk f .excluded, f, v) ∈ fs.zip attrs → v = .none))
    ?_ ?_ ?_ ?_ ?_ ?_ ?_ ?_ ?_ ?_ ?_ ?_ ?_ ?_ ?_ h
  · rintro ⟨j, p⟩ s h _
    cases j <;> simp [jsonOps, JsonA.asString] at h
    subst h
    simp only [strip]; exact .str _
  · rintro ⟨j, p⟩ s h _
    cases j <;> simp [jsonOps, JsonA.asBool] at h
    subst h
    simp only [strip]; exact .bool _
  · intros; simp only [strip]; exact .any _
  · rintro ⟨j, p⟩ e s h h' _
    cases j <;> simp [jsonOps, JsonA.asString] at h
    subst h
    simp only [strip]; exact .enum _ _
  · rintro ⟨j, p⟩ e s h h' _
    cases j <;> simp [jsonOps, JsonA.asString] at h
    subst h
    simp only [strip]; exact .sfv _ _
  · rintro a as it ae vs h _ ⟨ih1, ih2⟩ hw
    obtain ⟨js, hv, hne, rfl⟩ := asList_json h
    rw [hv] at hw ⊢
    rw [strip_list, stripL_map]
    rw [JsonA.items_length] at ih1
    cases hw with
    | arr hw =>
      refine .list (by simpa using ih1) fun i j v hj hv' => ?_
      rw [List.getElem?_map] at hv'
      obtain ⟨v0, hv0, rfl⟩ := Option.map_eq_some_iff.mp hv'
      refine ih2 i ⟨j, a.path ++ [.idx i]⟩ v0 ?_ hv0 (hw j (List.mem_of_getElem? hj))
      rw [JsonA.items_eq, List.getElem?_mapIdx, hj]
      simp
  · intro a c v w hab _ hp ih hw
    obtain ⟨kvs, attrs, hv, rfl, hf, h1, h2, h3⟩ := ih hw
    have hst : strip w = strip (.obj c attrs) := by
      have ht : HasType sc (.cls c) (.obj c attrs) := hasType_obj.mpr ⟨.inl ⟨hab, rfl⟩, hf⟩
      unfold Post at hp
      cases hpp : sc.postParse c with
      | none => simp only [hpp] at hp; rw [hp]
      | some f =>
        simp only [hpp] at hp
        obtain ⟨w', h1, -, h2⟩ := hs.post c f _ hpp ht
        rw [hp] at h1
        cases h1
        exact h2
    rw [hst, strip_obj, hv]
    refine .obj (.inl ⟨hab, rfl⟩) (fun h => by simp [hab] at h) ?_ ?_ ?_ ?_
    · rw [stripA_map, List.map_map]; exact hf.names
    · intro f key ty req v j hm hj
      obtain ⟨u, rfl, hu⟩ := zip_stripA hm
      exact h1 _ _ _ _ _ _ hu hj
    · intro f key ty req v hm hj
      obtain ⟨u, rfl, hu⟩ := zip_stripA hm
      rw [h2 _ _ _ _ _ hu hj]; simp [strip]
    · intro f v hm
      obtain ⟨u, rfl, hu⟩ := zip_stripA hm
      rw [h3 _ _ hu]; simp [strip]
  · intro a c c' d v hab hm hf _ ih hw
    obtain ⟨kvs, attrs, hv, rfl, hfs, h1, h2, h3⟩ := ih hw
    have hd : d = some (sc.className c') := by simpa using List.find?_some hf
    rw [hv] at hw ⊢
    obtain ⟨j, p⟩ := a
    simp only at hv
    subst hv
    rw [strip_obj]
    cases hw with
    | obj hn hw =>
      refine .obj (.inr ⟨hab, List.mem_of_find?_eq_some hf⟩) (fun _ => (modelType_json hn p _).mp (hd ▸ hm)) ?_ ?_ ?_ ?_
      · rw [stripA_map, List.map_map]; exact hfs.names
      · intro f key ty req v j hm hj
        obtain ⟨u, rfl, hu⟩ := zip_stripA hm
        exact h1 _ _ _ _ _ _ hu hj
      · intro f key ty req v hm hj
        obtain ⟨u, rfl, hu⟩ := zip_stripA hm
        rw [h2 _ _ _ _ _ hu hj]; simp [strip]
      · intro f v hm
        obtain ⟨u, rfl, hu⟩ := zip_stripA hm
        rw [h3 _ _ hu]; simp [strip]
  · intro it; simp
  · intro it a as v vs _ _ h1 ⟨h2, h3⟩
    refine ⟨by simp [h2], fun i b w hb hw => ?_⟩
    cases i with
    | zero => simp only [List.getElem?_cons_zero, Option.some.injEq] at hb hw; subst hb hw; exact h1
    | succ i => simp only [List.getElem?_cons_succ] at hb hw; exact h3 i b w hb hw
  · intro c a obj attrs ho hm hk hr ⟨ih1, ih2⟩ hw
    obtain ⟨kvs, hv, rfl⟩ := asObject_json ho
    obtain ⟨j, p⟩ := a
    simp only at hv
    subst hv
    have hne : ∀ {f key ty req v}, (Field.mk f (.attr key ty req), f, v) ∈ (sc.fields c).zip attrs → key ≠ py!"modelType" := by
      intro f key ty req v hm e
      rw [e] at hm
      exact hs.keys _ _ _ _ (List.of_mem_zip hm).1
    cases hw with
    | obj hn hw =>
      refine ⟨kvs, attrs, rfl, rfl, ReadF.typed hs json_nonempty hr, ?_, ?_, ih2⟩
      · intro f key ty req v j hm hj
        refine (ih1 f key ty req v hm).1 ⟨j, p ++ [.key key]⟩ ?_ (hw _ hj)
        rw [JsonA.members_get _ _ _ (hne hm), dictGet_of_mem hn hj]
        rfl
      · intro f key ty req v hm hj
        refine (ih1 f key ty req v hm).2 ?_
        rw [JsonA.members_get _ _ _ (hne hm), dictGet_eq_none.mpr hj]
        rfl
  · intro obj; simp
  · intro obj f fs attrs _ ⟨ih1, ih2⟩
    constructor
    · intro f' key ty req v hm
      simp only [List.zip_cons_cons, List.mem_cons, Prod.mk.injEq, Field.mk.injEq, reduceCtorEq, and_false, false_and, false_or] at hm
      exact ih1 _ _ _ _ _ hm
    · intro f' v hm
      rw [List.zip_cons_cons] at hm
      rcases List.mem_cons.mp hm with hm | hm
      · cases hm; rfl
      · exact ih2 _ _ hm
  · intro obj f key ty fs attrs hg _ ⟨ih1, ih2⟩
    constructor
    · intro f' key' ty' req' v hm
      rw [List.zip_cons_cons] at hm
      rcases List.mem_cons.mp hm with hm | hm
      · cases hm; simp [hg]
      · exact ih1 _ _ _ _ _ hm
    · intro f' v hm
      simp only [List.zip_cons_cons, List.mem_cons, Prod.mk.injEq, Field.mk.injEq, reduceCtorEq, and_false, false_and, false_or] at hm
      exact ih2 _ _ hm
  · intro obj f key ty req a v fs attrs hg _ _ h1 ⟨ih1, ih2⟩
    constructor
    · intro f' key' ty' req' v hm
      rw [List.zip_cons_cons] at hm
      rcases List.mem_cons.mp hm with hm | hm
      · cases hm
        refine ⟨fun a' ha' => ?_, by simp [hg]⟩
        rw [hg] at ha'; cases ha'
        exact h1
      · exact ih1 _ _ _ _ _ hm
    · intro f' v hm
      simp only [List.zip_cons_cons, List.mem_cons, Prod.mk.injEq, Field.mk.injEq, reduceCtorEq, and_false, false_and, false_or] at hm
      exact ih2 _ _ hm

theorem nodup_map_inj {X Y : Type} {f : X → Y} {l : List X} (h : (l.map f).Nodup) {a b : X} (ha : a ∈ l) (hb : b ∈ l) (he : f a = f b) :
    a = b := by
  induction l with
  | nil => simp at ha
  | cons x l ih =>
    simp only [List.map_cons, List.nodup_cons] at h
    rcases List.mem_cons.mp ha with ha' | ha'
    · rcases List.mem_cons.mp hb with hb' | hb'
      · rw [ha', hb']
      · exact absurd (List.mem_map.mpr ⟨b, hb', by rw [← he, ha']⟩) h.1
    · rcases List.mem_cons.mp hb with hb' | hb'
      · exact absurd (List.mem_map.mpr ⟨a, ha', by rw [he, hb']⟩) h.1
      · exact ih h.2 ha' hb'

/-- a document describes one value only -/
theorem Describes.unique {sc : Schema C E S F} (hn : ∀ c, ((sc.subclasses c).map sc.className).Nodup) {ty j v} (h : Describes sc ty j v) :
    WF j → ∀ w, Describes sc ty j w → v = w := by
  induction h with
  | str s => intro _ w hw; cases hw; rfl
  | bool s => intro _ w hw; cases hw; rfl
  | any j => intro _ w hw; cases hw; rfl
  | enum e s => intro _ w hw; cases hw; rfl
  | sfv e s => intro _ w hw; cases hw; rfl
  | @list it ae js vs length items ih =>
    intro hwf w hw
    cases hw with
    | @list _ _ _ ws length' items' =>
      congr 1
      apply List.ext_getElem?
      intro i
      cases hv : vs[i]? with
      | none =>
        rw [List.getElem?_eq_none_iff] at hv
        symm
        rw [List.getElem?_eq_none_iff]; omega
      | some v =>
        have hlt : i < js.length := by have := (List.getElem?_eq_some_iff.mp hv).1; omega
        have hj : js[i]? = some js[i] := List.getElem?_eq_getElem hlt
        have hw : ws[i]? = some ws[i] := List.getElem?_eq_getElem (by omega)
        cases hwf with
        | arr hwf =>
          rw [hw, ih i _ _ hj hv (hwf _ (List.getElem_mem hlt)) _ (items' i _ _ hj hw)]
  | @obj c c' kvs attrs isA tag names present absent excluded ih =>
    intro hwf w hw
    cases hw with
    | @obj _ d _ bttrs isA' tag' names' present' absent' excluded' =>
      cases hwf with
      | obj hnd hwf =>
        obtain rfl : c' = d := by
          rcases isA with ⟨ha, rfl⟩ | ⟨ha, hm⟩
          · rcases isA' with ⟨-, rfl⟩ | ⟨hb, -⟩
            · rfl
            · rw [ha] at hb; cases hb
          · rcases isA' with ⟨hb, -⟩ | ⟨-, hm'⟩
            · rw [ha] at hb; cases hb
            · have h1 := dictGet_of_mem hnd (tag ha)
              have h2 := dictGet_of_mem hnd (tag' ha)
              rw [h1] at h2
              simp only [Option.some.injEq, Json.str.injEq] at h2
              exact nodup_map_inj (hn c) hm hm' h2
        congr 1
        clear isA isA' tag tag'
        generalize sc.fields c' = fs at *
        induction fs generalizing attrs bttrs with
        | nil =>
          simp only [List.map_nil, List.map_eq_nil_iff] at names names'
          rw [names, names']
        | cons x fs ihf =>
          cases attrs with
          | nil => simp at names
          | cons a attrs =>
            cases bttrs with
            | nil => simp at names'
            | cons b bttrs =>
              simp only [List.map_cons, List.cons.injEq] at names names'
              obtain ⟨f, slot⟩ := x
              obtain ⟨fa, va⟩ := a
              obtain ⟨fb, vb⟩ := b
              obtain ⟨n1, n2⟩ := names
              obtain ⟨n1', n2'⟩ := names'
              obtain rfl : fa = f := n1
              obtain rfl : fb = fa := n1'
              have hv : va = vb := by
                cases slot with
                | excluded => rw [excluded fb va (by simp), excluded' fb vb (by simp)]
                | attr key ty req =>
                  by_cases hk : ∃ j, (key, j) ∈ kvs
                  · obtain ⟨j, hj⟩ := hk
                    exact ih fb key ty req va j (by simp) hj (hwf _ hj) _ (present' fb key ty req vb j (by simp) hj)
                  · have hk' : ∀ j, (key, j) ∉ kvs := fun j hj => hk ⟨j, hj⟩
                    rw [absent fb key ty req va (by simp) hk', absent' fb key ty req vb (by simp) hk']
              subst hv
              congr 1
              refine ihf n2 ?_ ?_ ?_ ?_ n2' ?_ ?_ ?_
              · exact fun f key ty req v j hm => present f key ty req v j (by rw [List.zip_cons_cons]; exact List.mem_cons_of_mem _ hm)
              · exact fun f key ty req v hm => absent f key ty req v (by rw [List.zip_cons_cons]; exact List.mem_cons_of_mem _ hm)
              · exact fun f v hm => excluded f v (by rw [List.zip_cons_cons]; exact List.mem_cons_of_mem _ hm)
              · exact fun f key ty req v j hm => ih f key ty req v j (by rw [List.zip_cons_cons]; exact List.mem_cons_of_mem _ hm)
              · exact fun f v hm => excluded' f v (by rw [List.zip_cons_cons]; exact List.mem_cons_of_mem _ hm)
              · exact fun f key ty req v j hm => present' f key ty req v j (by rw [List.zip_cons_cons]; exact List.mem_cons_of_mem _ hm)
              · exact fun f key ty req v hm => absent' f key ty req v (by rw [List.zip_cons_cons]; exact List.mem_cons_of_mem _ hm)

end
end Verif.Parse
