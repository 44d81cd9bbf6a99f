import Verif.ParseLemmas2

/-!
# The JSON adapter: conformance, sizes, paths
-/

namespace Verif.Parse
open Verif Verif.Spec.Parse

namespace JsonA

theorem members_get (p : List PTok) (kvs : List (Str × Json)) (k : Str) (hk : k ≠ py!"modelType") :
    dictGet k (members p kvs) = (dictGet k kvs).map (fun j => ⟨j, p ++ [.key k]⟩) := by
  induction kvs with
  | nil => rfl
  | cons e kvs ih =>
    obtain ⟨k', v⟩ := e
    unfold members
    generalize py!"modelType" = mt at hk ih ⊢
    by_cases h : k' = mt
    · have : k' ≠ k := fun e => hk (e ▸ h)
      simp only [h, if_true, ih, dictGet]
      rw [if_neg (h ▸ this)]
    · simp only [h, if_false, dictGet]
      by_cases hkk : k' = k
      · simp [hkk]
      · simp [hkk, ih]

theorem mem_members (p : List PTok) (kvs : List (Str × Json)) (e : Str × JsonA) :
    e ∈ members p kvs ↔ e.1 ≠ py!"modelType" ∧ e.2.path = p ++ [.key e.1] ∧ (e.1, e.2.value) ∈ kvs := by
  induction kvs with
  | nil => simp [members]
  | cons x kvs ih =>
    obtain ⟨k', v⟩ := x
    obtain ⟨k, ⟨w, q⟩⟩ := e
    unfold members
    generalize py!"modelType" = mt at ih ⊢
    by_cases h : k' = mt
    · rw [if_pos h, ih]
      simp only [List.mem_cons, Prod.mk.injEq]
      constructor
      · rintro ⟨h1, h2, h3⟩; exact ⟨h1, h2, .inr h3⟩
      · rintro ⟨h1, h2, h3 | h3⟩
        · exact absurd (h3.1.trans h) h1
        · exact ⟨h1, h2, h3⟩
    · rw [if_neg h, List.mem_cons, ih]
      simp only [List.mem_cons, Prod.mk.injEq, JsonA.mk.injEq]
      constructor
      · rintro (⟨rfl, rfl, rfl⟩ | ⟨h1, h2, h3⟩)
        · exact ⟨h, rfl, .inl ⟨rfl, rfl⟩⟩
        · exact ⟨h1, h2, .inr h3⟩
      · rintro ⟨h1, h2, ⟨rfl, rfl⟩ | h3⟩
        · exact .inl ⟨rfl, rfl, h2⟩
        · exact .inr ⟨h1, h2, h3⟩

theorem items_eq (p : List PTok) (l : List Json) : ∀ i, items p i l = l.mapIdx (fun k j => ⟨j, p ++ [.idx (i + k)]⟩) := by
  induction l with
  | nil => intro i; rfl
  | cons j l ih =>
    intro i
    simp only [items, List.mapIdx_cons, Nat.add_zero, ih, List.cons.injEq, true_and]
    congr 1
    funext k j
    rw [Nat.add_right_comm, Nat.add_assoc]

theorem mem_items {p : List PTok} {l : List Json} {a : JsonA} (h : a ∈ items p 0 l) :
    ∃ i, l[i]? = some a.value ∧ a.path = p ++ [.idx i] := by
  rw [items_eq] at h
  obtain ⟨i, hi, rfl⟩ := List.mem_mapIdx.mp h
  exact ⟨i, by simp [hi], by simp⟩

theorem items_length (p : List PTok) (l : List Json) : (items p 0 l).length = l.length := by
  rw [items_eq]; simp

end JsonA

theorem size_mem_L {l : List Json} {j : Json} (h : j ∈ l) : j.size ≤ Json.sizeL l := by
  induction l with
  | nil => simp at h
  | cons x l ih =>
    unfold Json.sizeL
    rcases List.mem_cons.mp h with rfl | h
    · omega
    · have := ih h; omega

theorem size_mem_O {l : List (Str × Json)} {e : Str × Json} (h : e ∈ l) : e.2.size ≤ Json.sizeO l := by
  induction l with
  | nil => simp at h
  | cons x l ih =>
    obtain ⟨k, x⟩ := x
    unfold Json.sizeO
    rcases List.mem_cons.mp h with rfl | h
    · simp only; omega
    · have := ih h; omega

theorem asObject_json {a : JsonA} {obj} (h : jsonOps.asObject a = .ok obj) :
    ∃ kvs, a.value = .obj kvs ∧ obj = JsonA.members a.path kvs := by
  obtain ⟨j, p⟩ := a
  simp only [jsonOps, JsonA.asObject] at h
  cases j <;> simp at h
  exact ⟨_, rfl, h.symm⟩

theorem asList_json {a : JsonA} {ae l} (h : jsonOps.asList a ae = .ok l) :
    ∃ js, a.value = .arr js ∧ (js ≠ [] ∨ ae = true) ∧ l = JsonA.items a.path 0 js := by
  obtain ⟨j, p⟩ := a
  simp only [jsonOps, JsonA.asList] at h
  cases j with
  | arr js =>
    simp only at h
    split at h
    · simp at h
    · rename_i hn
      refine ⟨js, rfl, ?_, by simpa using h.symm⟩
      cases ae with
      | true => exact .inr rfl
      | false => cases js <;> simp_all
  | _ => simp at h

theorem json_lawful : jsonOps.Lawful (fun a => a.value.size) where
  object a obj h e he := by
    obtain ⟨kvs, hv, rfl⟩ := asObject_json h
    have := size_mem_O ((JsonA.mem_members _ _ _).mp he).2.2
    simp only [hv, Json.size] at this ⊢
    omega
  list a ae as h b hb := by
    obtain ⟨js, hv, -, rfl⟩ := asList_json h
    obtain ⟨i, hi, -⟩ := JsonA.mem_items hb
    have := size_mem_L (List.mem_of_getElem? hi)
    simp only [hv, Json.size]
    omega

/-- the adapters of parts of the document `j` -/
def InDoc (j : Json) (a : JsonA) : Prop := At j a.path a.value

theorem json_closed (j : Json) : jsonOps.Closed (InDoc j) where
  object a obj h hi e he := by
    obtain ⟨kvs, hv, rfl⟩ := asObject_json h
    obtain ⟨-, h1, h2⟩ := (JsonA.mem_members _ _ _).mp he
    unfold InDoc at hi ⊢
    rw [h1]
    exact .key (hv ▸ hi) h2
  list a ae as h hi b hb := by
    obtain ⟨js, hv, -, rfl⟩ := asList_json h
    obtain ⟨i, h1, h2⟩ := JsonA.mem_items hb
    unfold InDoc at hi ⊢
    rw [h2]
    exact .idx (hv ▸ hi) h1

theorem json_nonempty : ∀ a as, jsonOps.asList a false = .ok as → as ≠ [] := by
  intro a as h
  obtain ⟨js, -, hn, rfl⟩ := asList_json h
  intro e
  have := JsonA.items_length a.path js
  rw [e] at this
  simp at hn this
  exact hn (List.length_eq_zero_iff.mp this.symm)

section
variable {C E S F : Type}

theorem dictGet_of_mem {α : Type} {k : Str} {v : α} : ∀ {l : List (Str × α)}, (l.map (·.1)).Nodup → (k, v) ∈ l → dictGet k l = some v
  | [], _, h => by simp at h
  | (k', v') :: l, hn, h => by
    unfold dictGet
    simp only [List.map_cons, List.nodup_cons] at hn
    rcases List.mem_cons.mp h with h | h
    · cases h; simp
    · have : k' ≠ k := fun e => hn.1 (List.mem_map.mpr ⟨_, h, e.symm⟩)
      rw [if_neg this]
      exact dictGet_of_mem hn.2 h

theorem dictGet_eq_none {α : Type} {k : Str} {l : List (Str × α)} : dictGet k l = none ↔ ∀ v, (k, v) ∉ l := by
  induction l with
  | nil => simp [dictGet]
  | cons e l ih =>
    obtain ⟨k', v'⟩ := e
    unfold dictGet
    by_cases h : k' = k
    · subst h
      simp only [if_true, reduceCtorEq, false_iff]
      exact fun h => h v' List.mem_cons_self
    · have h' : k ≠ k' := fun e => h e.symm
      rw [if_neg h, ih]
      simp [h']

theorem mem_allKeys {fs : List (Field C E S F)} {k : Str} : k ∈ allKeys fs ↔ ∃ f ty req, ⟨f, .attr k ty req⟩ ∈ fs := by
  simp only [allKeys, List.mem_filterMap]
  constructor
  · rintro ⟨⟨f, slot⟩, hm, h⟩
    cases slot with
    | excluded => simp at h
    | attr key ty req => simp at h; subst h; exact ⟨f, ty, req, hm⟩
  · rintro ⟨f, ty, req, hm⟩
    exact ⟨_, hm, rfl⟩

theorem modelType_json {kvs : List (Str × Json)} (hn : (kvs.map (·.1)).Nodup) (p : List PTok) (s : Str) :
    jsonOps.modelType ⟨.obj kvs, p⟩ = .ok (some s) ↔ (py!"modelType", Json.str s) ∈ kvs := by
  simp only [jsonOps, JsonA.modelType]
  generalize py!"modelType" = mt
  constructor
  · intro h
    cases hg : dictGet mt kvs with
    | none => simp [hg] at h
    | some j =>
      simp only [hg] at h
      cases j <;> simp at h
      subst h
      exact dictGet_mem hg
  · intro h
    rw [dictGet_of_mem hn h]

theorem find_subclass {sc : Schema C E S F} (hs : Sane sc) {c c' : C} (h : c' ∈ sc.subclasses c) :
    (sc.subclasses c).find? (fun s => decide (some (sc.className c') = some (sc.className s))) = some c' := by
  have hn := hs.names c
  revert h hn
  generalize sc.subclasses c = l
  induction l with
  | nil => simp
  | cons x l ih =>
    intro h hn
    simp only [List.map_cons, List.nodup_cons] at hn
    rw [List.find?_cons]
    rcases List.mem_cons.mp h with rfl | h
    · simp
    · have : sc.className c' ≠ sc.className x := fun e => hn.1 (List.mem_map.mpr ⟨_, h, e⟩)
      simp only [Option.some.injEq, this, decide_false]
      simpa using ih h hn.2

theorem readF_exists (sc : Schema C E S F) (hs : Sane sc) (c' : C) (kvs : List (Str × Json)) (p : List PTok)
    (required : ∀ f key ty, ⟨f, .attr key ty true⟩ ∈ sc.fields c' → ∃ j, (key, j) ∈ kvs)
    (values : ∀ f key ty req j, ⟨f, .attr key ty req⟩ ∈ sc.fields c' → (key, j) ∈ kvs →
      ∃ v, Read jsonOps sc ty ⟨j, p ++ [.key key]⟩ v) : ∀ fs : List (Field C E S F), (∀ f ∈ fs, f ∈ sc.fields c') →
    ∃ attrs, ReadF jsonOps sc (JsonA.members p kvs) fs attrs
  | [], _ => ⟨_, .nil⟩
  | ⟨f, .excluded⟩ :: fs, h => by
    obtain ⟨attrs, ih⟩ := readF_exists sc hs c' kvs p required values fs (fun f hf => h f (List.mem_cons_of_mem _ hf))
    exact ⟨_, .excluded ih⟩
  | ⟨f, .attr key ty req⟩ :: fs, h => by
    obtain ⟨attrs, ih⟩ := readF_exists sc hs c' kvs p required values fs (fun f hf => h f (List.mem_cons_of_mem _ hf))
    have hf := h _ List.mem_cons_self
    have hk : key ≠ py!"modelType" := by
      intro e; rw [e] at hf; exact hs.keys _ _ _ _ hf
    cases hg : dictGet key kvs with
    | some j =>
      obtain ⟨v, hv⟩ := values _ _ _ _ j hf (dictGet_mem hg)
      exact ⟨_, .present (by rw [JsonA.members_get _ _ _ hk, hg]; rfl) hv ih⟩
    | none =>
      cases req with
      | true =>
        obtain ⟨j, hj⟩ := required _ _ _ hf
        exact absurd hj (dictGet_eq_none.mp hg j)
      | false => exact ⟨_, .absent (by rw [JsonA.members_get _ _ _ hk, hg]; rfl) ih⟩

/-- what conforms can be read -/
theorem Conforms.read {sc : Schema C E S F} (hs : Sane sc) {ty j} (h : Conforms sc ty j) : WF j → ∀ p,
    ∃ v, Read jsonOps sc ty ⟨j, p⟩ v := by
  induction h with
  | str s => exact fun _ p => ⟨_, .str rfl⟩
  | bool s => exact fun _ p => ⟨_, .bool rfl⟩
  | any j => exact fun _ p => ⟨_, .any⟩
  | enum h => exact fun _ p => ⟨_, .enum rfl h⟩
  | sfv h => exact fun _ p => ⟨_, .sfv rfl h⟩
  | @list it ae l hne _ ih =>
    intro hw p
    cases hw with
    | arr hw =>
      have hl : ∀ (l' : List Json) (i : Nat), (∀ j ∈ l', j ∈ l) → ∃ vs, ReadL jsonOps sc it (JsonA.items p i l') vs := by
        intro l'
        induction l' with
        | nil => exact fun _ _ => ⟨_, .nil⟩
        | cons x l' ih' =>
          intro i hsub
          have hx := hsub x List.mem_cons_self
          obtain ⟨v, hv⟩ := ih x hx (hw x hx) (p ++ [.idx i])
          obtain ⟨vs, hvs⟩ := ih' (i + 1) (fun j hj => hsub j (List.mem_cons_of_mem _ hj))
          exact ⟨_, .cons hv hvs⟩
      obtain ⟨vs, hvs⟩ := hl l 0 (fun _ h => h)
      refine ⟨_, .list ?_ hvs⟩
      simp only [jsonOps, JsonA.asList]
      rw [if_neg]
      cases l with
      | nil => simp_all
      | cons => simp
  | @obj c c' kvs isA tag known required values ih =>
    intro hw p
    cases hw with
    | obj hn hw =>
      obtain ⟨attrs, hat⟩ := readF_exists sc hs c' kvs p required
        (fun f key ty req j h1 h2 => ih f key ty req j h1 h2 (hw _ h2) (p ++ [.key key])) (sc.fields c') (fun _ h => h)
      have hobj : ReadObj jsonOps sc c' ⟨.obj kvs, p⟩ (.obj c' attrs) := by
        refine .mk (obj := JsonA.members p kvs) rfl ?_ ?_ hat
        · exact fun h => (modelType_json hn p _).mpr (tag (.inr h))
        · intro e he
          obtain ⟨h1, -, h2⟩ := (JsonA.mem_members _ _ _).mp he
          rcases known _ h2 with h | h
          · exact absurd h h1
          · exact mem_allKeys.mpr h
      rcases isA with ⟨hab, rfl⟩ | ⟨hab, hm⟩
      · have ht : HasType sc (.cls c') (.obj c' attrs) := by
          exact hasType_obj.mpr ⟨.inl ⟨hab, rfl⟩, ReadF.typed hs json_nonempty hat⟩
        cases hpp : sc.postParse c' with
        | none => exact ⟨_, .concrete hab hobj (by simp [Post, hpp]; rfl)⟩
        | some f =>
          obtain ⟨w, hw, -⟩ := hs.post c' f _ hpp ht
          exact ⟨w, .concrete hab hobj (by simp [Post, hpp, hw])⟩
      · exact ⟨_, .abstract hab ((modelType_json hn p _).mpr (tag (.inl hab))) (find_subclass hs hm) hobj⟩

/-- what can be read conforms -/
theorem Read.conforms {sc : Schema C E S F} (hs : Sane sc) {ty a v} (h : Read jsonOps sc ty a v) : WF a.value →
    Conforms sc ty a.value := by
  refine Read.rec (ops := jsonOps) (sc := sc) (motive_1 := fun ty a _ _ => WF a.value → Conforms sc ty a.value)
    (motive_2 := fun it as _ _ => ∀ a ∈ as, WF a.value → Conforms sc it a.value)
    (motive_3 := fun c a _ _ => WF a.value → ∃ kvs, a.value = .obj kvs ∧
      (sc.needsModelType c = true → (py!"modelType", Json.str (sc.className c)) ∈ kvs) ∧
      (∀ e ∈ kvs, e.1 = py!"modelType" ∨ ∃ f ty req, ⟨f, .attr e.1 ty req⟩ ∈ sc.fields c) ∧
      (∀ f key ty, ⟨f, .attr key ty true⟩ ∈ sc.fields c → ∃ j, (key, j) ∈ kvs) ∧
      (∀ f key ty req j, ⟨f, .attr key ty req⟩ ∈ sc.fields c → (key, j) ∈ kvs → Conforms sc ty j))
    (motive_4 := fun obj fs _ _ => ∀ f key ty req, ⟨f, .attr key ty req⟩ ∈ fs →
      (req = true → dictGet key obj ≠ none) ∧ ∀ a, dictGet key obj = some a → WF a.value → Conforms sc ty a.value)
    ?_ ?_ ?_ ?_ ?_ ?_ ?_ ?_ ?_ ?_ ?_ ?_ ?_ ?_ ?_ h
  · rintro ⟨j, p⟩ s h _
    cases j <;> simp [jsonOps, JsonA.asString] at h
    exact .str _
  · rintro ⟨j, p⟩ s h _
    cases j <;> simp [jsonOps, JsonA.asBool] at h
    exact .bool _
  · intros; exact .any _
  · rintro ⟨j, p⟩ e s h h' _
    cases j <;> simp [jsonOps, JsonA.asString] at h
    exact .enum (h ▸ h')
  · rintro ⟨j, p⟩ e s h h' _
    cases j <;> simp [jsonOps, JsonA.asString] at h
    exact .sfv (h ▸ h')
  · rintro a as it ae vs h _ ih hw
    obtain ⟨js, hv, hne, rfl⟩ := asList_json h
    rw [hv] at hw ⊢
    cases hw with
    | arr hw =>
      refine .list hne (fun j hj => ?_)
      obtain ⟨i, hi, hij⟩ := List.mem_iff_getElem.mp hj
      refine ih ⟨j, a.path ++ [.idx i]⟩ ?_ (hw j hj)
      rw [JsonA.items_eq]
      exact List.mem_mapIdx.mpr ⟨i, hi, by simp [hij]⟩
  · intro a c v w hab _ _ ih hw
    obtain ⟨kvs, hv, h1, h2, h3, h4⟩ := ih hw
    rw [hv]
    exact .obj (.inl ⟨hab, rfl⟩) (fun h => h.elim (fun h => by simp [hab] at h) h1) h2 h3 h4
  · intro a c c' d v hab hm hf _ ih hw
    obtain ⟨kvs, hv, h1, h2, h3, h4⟩ := ih hw
    have hd : d = some (sc.className c') := by simpa using List.find?_some hf
    rw [hv] at hw ⊢
    obtain ⟨j, p⟩ := a
    simp only at hv
    subst hv
    cases hw with
    | obj hn hw =>
      refine .obj (.inr ⟨hab, List.mem_of_find?_eq_some hf⟩) (fun _ => ?_) h2 h3 h4
      exact (modelType_json hn p _).mp (hd ▸ hm)
  · intro it; simp
  · intro it a as v vs _ _ h1 h2 b hb
    rcases List.mem_cons.mp hb with rfl | hb
    · exact h1
    · exact h2 b hb
  · intro c a obj attrs ho hm hk _ ih hw
    obtain ⟨kvs, hv, rfl⟩ := asObject_json ho
    obtain ⟨j, p⟩ := a
    simp only at hv
    subst hv
    cases hw with
    | obj hn hw =>
      refine ⟨kvs, rfl, ?_, ?_, ?_, ?_⟩
      · exact fun h => (modelType_json hn p _).mp (hm h)
      · rintro ⟨k, j⟩ he
        by_cases hkm : k = py!"modelType"
        · exact .inl hkm
        · exact .inr (mem_allKeys.mp (hk (k, ⟨j, p ++ [.key k]⟩) ((JsonA.mem_members _ _ _).mpr ⟨hkm, rfl, he⟩)))
      · intro f key ty hf
        have hkm : key ≠ py!"modelType" := by
          intro e; rw [e] at hf; exact hs.keys _ _ _ _ hf
        have := (ih f key ty true hf).1 rfl
        rw [JsonA.members_get _ _ _ hkm] at this
        cases hg : dictGet key kvs with
        | none => simp [hg] at this
        | some j => exact ⟨j, dictGet_mem hg⟩
      · intro f key ty req j hf hj
        have hkm : key ≠ py!"modelType" := by
          intro e; rw [e] at hf; exact hs.keys _ _ _ _ hf
        refine (ih f key ty req hf).2 ⟨j, p ++ [.key key]⟩ ?_ (hw _ hj)
        rw [JsonA.members_get _ _ _ hkm, dictGet_of_mem hn hj]
        rfl
  · intro obj; simp
  · intro obj f fs attrs _ ih f' key ty req hm
    simp only [List.mem_cons, Field.mk.injEq, reduceCtorEq, and_false, false_or] at hm
    exact ih f' key ty req hm
  · intro obj f key ty fs attrs hg _ ih f' key' ty' req' hm
    rcases List.mem_cons.mp hm with hm | hm
    · cases hm; simp [hg]
    · exact ih _ _ _ _ hm
  · intro obj f key ty req a v fs attrs hg _ _ h1 h2 f' key' ty' req' hm
    rcases List.mem_cons.mp hm with hm | hm
    · cases hm
      refine ⟨by simp [hg], fun a' ha' => ?_⟩
      rw [hg] at ha'; cases ha'
      exact h1
    · exact h2 _ _ _ _ hm

end
end Verif.Parse
