import Verif.FaultLemmas
import Verif.ParseJson

/-! # The reports on JSON and XML documents -/

namespace Verif.Parse
open Verif Verif.Spec.Parse

section
variable {C E S F : Type}

/-! ## JSON -/

theorem JsonA.members_sublist (p : List PTok) : ∀ kvs : List (Str × Json), ((members p kvs).map (·.1)).Sublist (kvs.map (·.1))
  | [] => .refl _
  | (k, v) :: kvs => by
    unfold members
    split
    · exact (members_sublist p kvs).cons _
    · exact (members_sublist p kvs).cons_cons _

theorem json_places : jsonOps.Places (fun a => WF a.value) := by
  constructor
  · intro a obj ha h
    change JsonA.asObject a = _ at h
    unfold JsonA.asObject at h
    split at h
    · rename_i kvs hv
      cases h
      rw [hv] at ha
      cases ha with
      | obj h1 h2 =>
        refine ⟨h1.sublist (JsonA.members_sublist _ _), fun e he => ?_⟩
        obtain ⟨-, h3, h4⟩ := (JsonA.mem_members _ _ _).mp he
        exact ⟨h3, h2 _ h4⟩
    · cases h
  · intro a ae as ha h i b hb
    change JsonA.asList a ae = _ at h
    unfold JsonA.asList at h
    split at h
    · rename_i l hv
      split at h
      · cases h
      · cases h
        rw [hv] at ha
        cases ha with
        | arr h1 =>
          rw [JsonA.items_eq, List.getElem?_mapIdx] at hb
          cases hl : l[i]? with
          | none => rw [hl] at hb; cases hb
          | some j =>
            rw [hl] at hb
            cases hb
            refine ⟨?_, h1 _ (List.mem_of_getElem? hl)⟩
            change a.path ++ [PTok.idx (0 + i)] = _
            rw [Nat.zero_add]; rfl
    · cases h

theorem find_class {sc : Schema C E S F} (hs : Sane sc) {c c' : C} {d : Option Str} :
    (sc.subclasses c).find? (fun s => decide (d = some (sc.className s))) = some c' ↔ c' ∈ sc.subclasses c ∧ d = some (sc.className c') := by
  constructor
  · intro h
    exact ⟨List.mem_of_find?_eq_some h, by simpa using List.find?_some h⟩
  · rintro ⟨h1, rfl⟩
    have := hs.names c
    revert this h1
    generalize sc.subclasses c = l
    induction l with
    | nil => simp
    | cons x l ih =>
      intro h1 hn
      simp only [List.map_cons, List.nodup_cons] at hn
      rw [List.find?_cons]
      rcases List.mem_cons.mp h1 with rfl | h1
      · simp
      · rw [decide_eq_false]
        · exact ih h1 hn.2
        · intro e
          simp only [Option.some.injEq] at e
          exact hn.1 (e ▸ List.mem_map_of_mem h1)

theorem json_modelType {a : JsonA} (ha : WF a.value) {kvs} (hv : a.value = .obj kvs) :
    (JsonA.modelType a = .error (.adapter .noModelType) ∧ ∀ j, (py!"modelType", j) ∉ kvs) ∨
    (∃ j d, (∀ j', (py!"modelType", j') ∈ kvs ↔ j' = j) ∧ JsonA.modelType a = .ok d ∧ ∀ s, d = some s ↔ j = .str s) := by
  unfold JsonA.modelType
  rw [hv]
  dsimp only
  cases hd : dictGet py!"modelType" kvs with
  | none => exact .inl ⟨rfl, dictGet_eq_none.mp hd⟩
  | some j =>
    refine .inr ⟨j, ?_⟩
    have hm : ∀ j', (py!"modelType", j') ∈ kvs ↔ j' = j := by
      rw [hv] at ha
      cases ha with
      | obj h1 h2 =>
        refine fun j' => ⟨fun h => ?_, fun h => h ▸ dictGet_mem hd⟩
        rw [dictGet_of_mem h1 h] at hd
        exact Option.some.inj hd
    cases j <;> first | exact ⟨_, hm, rfl, by simp⟩ | exact ⟨_, hm, rfl, by simp [eq_comm]⟩

theorem json_object {a : JsonA} : (∃ kvs, a.value = .obj kvs ∧ JsonA.asObject a = .ok (JsonA.members a.path kvs)) ∨
    ((∀ kvs, a.value ≠ .obj kvs) ∧ JsonA.asObject a = .error (.adapter .notAnObject) ∧ JsonA.modelType a = .error (.adapter .notAnObject)) := by
  unfold JsonA.asObject JsonA.modelType
  cases a.value <;> simp

theorem json_chosen {sc : Schema C E S F} (hs : Sane sc) {a : JsonA} (ha : WF a.value) {kvs} (hv : a.value = .obj kvs) {c c'} :
    Chosen jsonOps sc c a c' ↔ ReadAs sc c c' kvs := by
  unfold Chosen ReadAs
  refine or_congr .rfl (and_congr .rfl ?_)
  change (∃ d, JsonA.modelType a = .ok d ∧ _) ↔ _
  rcases json_modelType ha hv with ⟨h1, h2⟩ | ⟨j, d, h1, h2, h3⟩
  · rw [h1]
    constructor
    · rintro ⟨d, h, _⟩; cases h
    · rintro ⟨_, h⟩; exact absurd h (h2 _)
  · rw [h2]
    constructor
    · rintro ⟨d', e, h⟩
      cases e
      obtain ⟨h4, h5⟩ := (find_class hs).mp h
      exact ⟨h4, (h1 _).mpr ((h3 _).mp h5).symm⟩
    · rintro ⟨h4, h5⟩
      exact ⟨d, rfl, (find_class hs).mpr ⟨h4, (h3 _).mpr ((h1 _).mp h5).symm⟩⟩

theorem JsonA.asString_error {a : JsonA} {e} (h : asString a = .error e) : e = .adapter .notAString ∧ ∀ s, a.value ≠ .str s := by
  unfold asString at h
  cases hv : a.value <;> simp_all

theorem json_string {v : Json} {p s} (h : jsonOps.asString ⟨v, p⟩ = .ok s) : v = .str s := by
  change JsonA.asString _ = _ at h
  unfold JsonA.asString at h
  cases v <;> simp_all

theorem GFault.json {sc : Schema C E S F} (hs : Sane sc) {ty a n} (h : GFault jsonOps sc ty a n) : WF a.value → Fault sc ty a.value a.path n := by
  refine GFault.rec (ops := jsonOps) (sc := sc) (motive_1 := fun ty a n _ => WF a.value → Fault sc ty a.value a.path n)
    (motive_2 := fun c' a n _ => WF a.value → ∀ c, Chosen jsonOps sc c a c' → Fault sc (.cls c) a.value a.path n) ?_ ?_ ?_ ?_ ?_ ?_ ?_ ?_ ?_ ?_ ?_ ?_ ?_ ?_ ?_ ?_ h
  · intro ty a k ht he _
    obtain ⟨e, h⟩ := JsonA.asString_error he
    cases e
    exact .notString ht h
  · intro c a he _
    obtain ⟨e, h⟩ := JsonA.asString_error he
    cases e
  · intro c a s h1 h2 _
    obtain ⟨v, p⟩ := a
    obtain rfl := json_string h1
    exact .format h2
  · intro e a s h1 h2 _
    obtain ⟨v, p⟩ := a
    obtain rfl := json_string h1
    exact .notInEnum h2
  · intro a k h1 _
    change JsonA.asBool a = _ at h1
    unfold JsonA.asBool at h1
    split at h1
    · cases h1
    · rename_i h2; cases h1; exact .notBool h2
  · intro it ae a k h1 _
    obtain ⟨v, p⟩ := a
    change JsonA.asList _ _ = _ at h1
    unfold JsonA.asList at h1
    split at h1
    · rename_i l hv
      dsimp only at hv
      split at h1
      · rename_i h2
        cases h1
        simp only [Bool.and_eq_true, List.isEmpty_iff, Bool.not_eq_true'] at h2
        obtain ⟨rfl, rfl⟩ := h2
        rw [hv]
        exact .emptyList
      · cases h1
    · rename_i h2; cases h1; exact .notList h2
  · intro it ae a as b n h1 h2 _ ih ha
    obtain ⟨v, p⟩ := a
    obtain ⟨i, hi⟩ := List.getElem?_of_mem h2
    obtain ⟨h3, h4⟩ := json_places.list _ _ _ ha h1 i b hi
    change JsonA.asList _ _ = _ at h1
    unfold JsonA.asList at h1
    split at h1
    · rename_i l hv
      dsimp only at hv
      split at h1
      · cases h1
      · cases h1
        obtain ⟨i, h5, h6⟩ := JsonA.mem_items h2
        rw [hv]
        have := ih h4
        rw [h6] at this
        exact .item h5 this
    · cases h1
  · intro c a k hab h1 ha
    change JsonA.modelType a = _ at h1
    rcases json_object (a := a) with ⟨kvs, hv, -⟩ | ⟨h2, -, h3⟩
    · rcases json_modelType ha hv with ⟨h4, h5⟩ | ⟨j, d, -, h4, -⟩
      · rw [h1] at h4
        cases h4
        rw [hv]
        exact .noModelType hab h5
      · rw [h1] at h4; cases h4
    · rw [h1] at h3
      cases h3
      exact .notObject h2
  · intro c a d hab h1 h2 ha
    change JsonA.modelType a = _ at h1
    rcases json_object (a := a) with ⟨kvs, hv, -⟩ | ⟨-, -, h3⟩
    · rcases json_modelType ha hv with ⟨h4, -⟩ | ⟨j, d', h3, h4, h5⟩
      · rw [h1] at h4; cases h4
      · rw [h1] at h4
        cases h4
        rw [hv]
        refine .invalidModelType hab ((h3 _).mpr rfl) fun c' hc e => ?_
        rw [(find_class hs).mpr ⟨hc, (h5 _).mpr e⟩] at h2
        cases h2
    · rw [h1] at h3; cases h3
  · intro c c' a n h1 _ ih ha
    exact ih ha c h1
  · intro c' a k h1 ha c hc
    change JsonA.asObject a = _ at h1
    rcases json_object (a := a) with ⟨kvs, hv, h2⟩ | ⟨h2, h3, -⟩
    · rw [h1] at h2; cases h2
    · rw [h1] at h3; cases h3; exact .notObject h2
  · intro c' a obj k h1 h2 h3 ha c hc
    change JsonA.asObject a = _ at h1
    change JsonA.modelType a = _ at h3
    rcases json_object (a := a) with ⟨kvs, hv, -⟩ | ⟨-, h4, -⟩
    · rcases json_modelType ha hv with ⟨h4, h5⟩ | ⟨j, d, h4, h5, -⟩
      · rw [hv]
        rcases hc with ⟨hab, rfl⟩ | ⟨-, d, h6, -⟩
        · exact .missingModelType hab h2 h5
        · change JsonA.modelType a = _ at h6; rw [h3] at h6; cases h6
      · rw [h3] at h5; cases h5
    · rw [h1] at h4; cases h4
  · intro c' a obj d h1 h2 h3 h3' ha c hc
    change JsonA.asObject a = _ at h1
    change JsonA.modelType a = _ at h3
    rcases json_object (a := a) with ⟨kvs, hv, -⟩ | ⟨-, h4, -⟩
    · rcases json_modelType ha hv with ⟨h4, -⟩ | ⟨j, d, h4, h5, h6⟩
      · rw [h3] at h4; cases h4
      · rw [h3] at h5
        cases h5
        rw [hv]
        rcases hc with ⟨hab, rfl⟩ | ⟨-, d, h7, h8⟩
        · exact .wrongModelType hab h2 ((h4 _).mpr rfl) fun e => h3' ((h6 _).mpr e)
        · change JsonA.modelType a = _ at h7
          rw [h3] at h7
          cases h7
          exact absurd ((find_class hs).mp h8).2 h3'
    · rw [h1] at h4; cases h4
  · intro c' a obj f key ty h1 h2 h3 ha c hc
    change JsonA.asObject a = _ at h1
    rcases json_object (a := a) with ⟨kvs, hv, h4⟩ | ⟨-, h4, -⟩
    · rw [h1] at h4
      cases h4
      rw [hv]
      have hk : key ≠ py!"modelType" := fun e => hs.keys _ _ _ _ (e ▸ h2)
      rw [JsonA.members_get _ _ _ hk, Option.map_eq_none_iff] at h3
      exact .missing ((json_chosen hs ha hv).mp hc) h2 (dictGet_eq_none.mp h3)
    · rw [h1] at h4; cases h4
  · intro c' a obj f key ty req b n h1 h2 h3 _ ih ha c hc
    have hb := (json_places.object _ _ ha h1).2 _ (dictGet_mem h3)
    change JsonA.asObject a = _ at h1
    rcases json_object (a := a) with ⟨kvs, hv, h4⟩ | ⟨-, h4, -⟩
    · rw [h1] at h4
      cases h4
      rw [hv]
      have := ih hb.2
      rw [show b.path = a.path ++ [.key key] from hb.1] at this
      exact .value ((json_chosen hs ha hv).mp hc) h2 ((JsonA.mem_members _ _ _).mp (dictGet_mem h3)).2.2 this
    · rw [h1] at h4; cases h4
  · intro c' a obj e h1 h2 h3 ha c hc
    change JsonA.asObject a = _ at h1
    rcases json_object (a := a) with ⟨kvs, hv, h4⟩ | ⟨-, h4, -⟩
    · rw [h1] at h4
      cases h4
      rw [hv]
      obtain ⟨h5, -, h6⟩ := (JsonA.mem_members _ _ _).mp h2
      exact .unknown ((json_chosen hs ha hv).mp hc) h6 h5 fun f ty req hm => h3 (mem_allKeys.mpr ⟨f, ty, req, hm⟩)
    · rw [h1] at h4; cases h4

theorem fault_generic {sc : Schema C E S F} (hs : Sane sc) {ty j p n} (h : Fault sc ty j p n) : WF j → GFault jsonOps sc ty ⟨j, p⟩ n := by
  have hobj : ∀ {kvs p}, jsonOps.asObject ⟨.obj kvs, p⟩ = .ok (JsonA.members p kvs) := rfl
  induction h with
  | @notString ty j p ht h =>
    intro _
    refine .string (a := (⟨j, p⟩ : JsonA)) ht ?_
    change JsonA.asString _ = _
    unfold JsonA.asString
    cases j <;> simp_all
  | @notInEnum e s p h => exact fun _ => .enum (a := (⟨.str s, p⟩ : JsonA)) rfl h
  | @format c s p h => exact fun _ => .format (a := (⟨.str s, p⟩ : JsonA)) rfl h
  | @notBool j p h =>
    intro _
    refine .bool (a := (⟨j, p⟩ : JsonA)) ?_
    change JsonA.asBool _ = _
    unfold JsonA.asBool
    cases j <;> simp_all
  | @notList it ae j p h =>
    intro _
    refine .list (a := (⟨j, p⟩ : JsonA)) ?_
    change JsonA.asList _ _ = _
    unfold JsonA.asList
    cases j <;> simp_all
  | @emptyList it p => exact fun _ => .list (a := (⟨.arr [], p⟩ : JsonA)) rfl
  | @item it ae l i j p n h1 _ ih =>
    intro hw
    cases hw with
    | arr hw =>
      refine .item (a := (⟨.arr l, p⟩ : JsonA)) (as := JsonA.items p 0 l) ?_ ?_ (ih (hw _ (List.mem_of_getElem? h1)))
      · cases l with
        | nil => simp at h1
        | cons x l => rfl
      · rw [JsonA.items_eq, List.mem_mapIdx]
        obtain ⟨hi, e⟩ := List.getElem?_eq_some_iff.mp h1
        exact ⟨i, hi, by rw [e, Nat.zero_add]⟩
  | @notObject c j p h =>
    intro _
    rcases json_object (a := ⟨j, p⟩) with ⟨kvs, hv, -⟩ | ⟨-, h2, h3⟩
    · exact absurd hv (h kvs)
    · cases hab : sc.abstract c with
      | true => exact .noType (a := (⟨j, p⟩ : JsonA)) hab h3
      | false => exact .cls (.inl ⟨hab, rfl⟩) (.object (a := (⟨j, p⟩ : JsonA)) h2)
  | @noModelType c kvs p hab h =>
    intro hw
    rcases json_modelType (a := ⟨.obj kvs, p⟩) hw rfl with ⟨h1, -⟩ | ⟨j, d, h1, -⟩
    · exact .noType (a := (⟨.obj kvs, p⟩ : JsonA)) hab h1
    · exact absurd ((h1 _).mpr rfl) (h j)
  | @invalidModelType c kvs p j hab h h' =>
    intro hw
    rcases json_modelType (a := ⟨.obj kvs, p⟩) hw rfl with ⟨-, h1⟩ | ⟨j', d, h1, h2, h3⟩
    · exact absurd h (h1 j)
    · obtain rfl := (h1 _).mp h
      refine .badType (a := (⟨.obj kvs, p⟩ : JsonA)) hab h2 ?_
      cases hf : (sc.subclasses c).find? (fun s => decide (d = some (sc.className s))) with
      | none => rfl
      | some c' =>
        obtain ⟨h4, h5⟩ := (find_class hs).mp hf
        exact absurd ((h3 _).mp h5) (h' _ h4)
  | @missingModelType c kvs p hab hn h =>
    intro hw
    rcases json_modelType (a := ⟨.obj kvs, p⟩) hw rfl with ⟨h1, -⟩ | ⟨j, d, h1, -⟩
    · exact .cls (.inl ⟨hab, rfl⟩) (.noType (a := (⟨.obj kvs, p⟩ : JsonA)) hobj hn h1)
    · exact absurd ((h1 _).mpr rfl) (h j)
  | @wrongModelType c kvs p j hab hn h h' =>
    intro hw
    rcases json_modelType (a := ⟨.obj kvs, p⟩) hw rfl with ⟨-, h1⟩ | ⟨j', d, h1, h2, h3⟩
    · exact absurd h (h1 j)
    · obtain rfl := (h1 _).mp h
      exact .cls (.inl ⟨hab, rfl⟩) (.wrongType (a := (⟨.obj kvs, p⟩ : JsonA)) hobj hn h2 fun e => h' ((h3 _).mp e))
  | @missing c c' kvs p f key ty hr h h' =>
    intro hw
    have hk : key ≠ py!"modelType" := fun e => hs.keys _ _ _ _ (e ▸ h)
    refine .cls ((json_chosen hs (a := ⟨.obj kvs, p⟩) hw rfl).mpr hr) (.missing (a := (⟨.obj kvs, p⟩ : JsonA)) hobj h ?_)
    rw [JsonA.members_get _ _ _ hk, dictGet_eq_none.mpr h']
    rfl
  | @unknown c c' kvs p k j hr h h' h'' =>
    intro hw
    refine .cls ((json_chosen hs (a := ⟨.obj kvs, p⟩) hw rfl).mpr hr) (.unknown (a := (⟨.obj kvs, p⟩ : JsonA)) (e := (k, (⟨j, p ++ [.key k]⟩ : JsonA))) hobj
      ((JsonA.mem_members _ _ _).mpr ⟨h', rfl, h⟩) fun hm => ?_)
    obtain ⟨f, ty, req, hm⟩ := mem_allKeys.mp hm
    exact h'' f ty req hm
  | @value c c' kvs p f key ty req j n hr h h' _ ih =>
    intro hw
    have hk : key ≠ py!"modelType" := fun e => hs.keys _ _ _ _ (e ▸ h)
    refine .cls ((json_chosen hs (a := ⟨.obj kvs, p⟩) hw rfl).mpr hr) ?_
    cases hw with
    | obj h1 h2 =>
      refine .value (a := (⟨.obj kvs, p⟩ : JsonA)) hobj h ?_ (ih (h2 _ h'))
      rw [JsonA.members_get _ _ _ hk, dictGet_of_mem h1 h']
      rfl

theorem json_fault {sc : Schema C E S F} (hs : Sane sc) {ty a n} (ha : WF a.value) : GFault jsonOps sc ty a n ↔ Fault sc ty a.value a.path n :=
  ⟨fun h => h.json hs ha, fun h => fault_generic hs h ha⟩

end
end Verif.Parse
