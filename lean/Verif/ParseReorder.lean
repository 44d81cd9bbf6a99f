import Verif.ParseLemmas3

/-!
# Reordered members
-/

namespace Verif.Parse
open Verif Verif.Spec.Parse

theorem RelL.refl {A : Type} {R : A → A → Prop} : ∀ as : List A, (∀ a ∈ as, R a a) → RelL R as as
  | [], _ => trivial
  | a :: as, h => ⟨h a List.mem_cons_self, RelL.refl as (fun b hb => h b (List.mem_cons_of_mem _ hb))⟩

/-- the same document, or members reordered at one place -/
def OneStep (a b : JsonA) : Prop := a.path = b.path ∧ WF a.value ∧ (a.value = b.value ∨ Step a.value b.value)

theorem items_rel (p : List PTok) {j j' : Json} (h : Step j j') : ∀ (pre post : List Json) (i : Nat),
    (∀ x ∈ pre ++ j :: post, WF x) → RelL OneStep (JsonA.items p i (pre ++ j :: post)) (JsonA.items p i (pre ++ j' :: post))
  | [], post, i, hw => by
    refine ⟨⟨rfl, hw _ (by simp), .inr h⟩, RelL.refl _ (fun a ha => ⟨rfl, ?_, .inl rfl⟩)⟩
    rw [JsonA.items_eq] at ha
    obtain ⟨k, hk, rfl⟩ := List.mem_mapIdx.mp ha
    exact hw _ (by simp [List.getElem_mem])
  | x :: pre, post, i, hw => by
    exact ⟨⟨rfl, hw _ (by simp), .inl rfl⟩, items_rel p h pre post (i + 1) (fun y hy => hw y (by simp at hy ⊢; exact .inr hy))⟩

theorem members_keys (p : List PTok) (kvs : List (Str × Json)) :
    (JsonA.members p kvs).map (·.1) = (kvs.map (·.1)).filter (fun k => decide (k ≠ py!"modelType")) := by
  induction kvs with
  | nil => rfl
  | cons e kvs ih =>
    obtain ⟨k, v⟩ := e
    unfold JsonA.members
    generalize py!"modelType" = mt at ih ⊢
    by_cases h : k = mt
    · simp [h, ih]
    · simp [h, ih]

theorem dictGet_perm {α : Type} {l l' : List (Str × α)} (hn : (l.map (·.1)).Nodup) (h : l.Perm l') (k : Str) :
    dictGet k l = dictGet k l' := by
  have hn' : (l'.map (·.1)).Nodup := (h.map _).nodup_iff.mp hn
  cases hg : dictGet k l with
  | none =>
    symm
    rw [dictGet_eq_none] at hg ⊢
    exact fun v hv => hg v (h.mem_iff.mpr hv)
  | some v => exact (dictGet_of_mem hn' (h.mem_iff.mp (dictGet_mem hg))).symm

theorem dictGet_replace {k k' : Str} {j j' : Json} : ∀ {pre post : List (Str × Json)},
    ((pre ++ (k, j) :: post).map (·.1)).Nodup →
    (k' ≠ k → dictGet k' (pre ++ (k, j) :: post) = dictGet k' (pre ++ (k, j') :: post)) ∧
    dictGet k (pre ++ (k, j) :: post) = some j ∧ dictGet k (pre ++ (k, j') :: post) = some j'
  | [], post, hn => ⟨fun h => by simp [dictGet, h.symm], by simp [dictGet], by simp [dictGet]⟩
  | (x, y) :: pre, post, hn => by
    simp only [List.cons_append, List.map_cons, List.nodup_cons] at hn
    obtain ⟨h1, h2, h3⟩ := dictGet_replace (k' := k') (j := j) (j' := j') hn.2
    have hx : x ≠ k := fun e => hn.1 (by simp [e])
    simp only [List.cons_append, dictGet, hx, if_false]
    refine ⟨fun h => ?_, h2, h3⟩
    rw [h1 h]

theorem oneStep_sim : jsonOps.Sim OneStep where
  path a b h := h.1
  asString a b h := by
    obtain ⟨h1, h2, h3⟩ := h
    obtain ⟨j, p⟩ := a
    obtain ⟨j', p'⟩ := b
    simp only at h1 h3
    subst h1
    rcases h3 with rfl | h3
    · rfl
    · cases h3 <;> rfl
  asBool a b h := by
    obtain ⟨h1, h2, h3⟩ := h
    obtain ⟨j, p⟩ := a
    obtain ⟨j', p'⟩ := b
    simp only at h1 h3
    subst h1
    rcases h3 with rfl | h3
    · rfl
    · cases h3 <;> rfl
  modelType a b h := by
    obtain ⟨h1, h2, h3⟩ := h
    obtain ⟨j, p⟩ := a
    obtain ⟨j', p'⟩ := b
    simp only at h1 h3
    subst h1
    rcases h3 with rfl | h3
    · rfl
    · cases h3 with
      | here hp =>
        cases h2 with
        | obj hn _ => simp only [jsonOps, JsonA.modelType, dictGet_perm hn hp]
      | item => rfl
      | @member pre post k j j' hs =>
        cases h2 with
        | obj hn _ =>
          simp only [jsonOps, JsonA.modelType]
          generalize py!"modelType" = mt
          obtain ⟨g1, g2, g3⟩ := dictGet_replace (k' := mt) (j' := j') hn
          by_cases hk : mt = k
          · subst hk
            rw [g2, g3]
            cases hs <;> rfl
          · rw [g1 hk]
  asList a b ae h := by
    obtain ⟨h1, h2, h3⟩ := h
    obtain ⟨j, p⟩ := a
    obtain ⟨j', p'⟩ := b
    simp only at h1 h3
    subst h1
    rcases h3 with rfl | h3
    · cases hl : jsonOps.asList ⟨j, p⟩ ae with
      | error e => exact (rfl : e = e)
      | ok as =>
        refine RelL.refl _ (fun a ha => ⟨rfl, ?_, .inl rfl⟩)
        obtain ⟨js, hv, -, rfl⟩ := asList_json hl
        obtain ⟨i, hi, -⟩ := JsonA.mem_items ha
        simp only at hv
        subst hv
        cases h2 with
        | arr h2 => exact h2 _ (List.mem_of_getElem? hi)
    · cases h3 with
      | here => exact rfl
      | member => exact rfl
      | @item pre post j j' hs =>
        simp only [jsonOps, JsonA.asList]
        have e : ∀ j : Json, (pre ++ j :: post).isEmpty = false := by simp
        simp only [e, Bool.false_and, Bool.false_eq_true, if_false]
        cases h2 with
        | arr h2 => exact items_rel p hs pre post 0 h2
  asObject a b h := by
    obtain ⟨h1, h2, h3⟩ := h
    obtain ⟨j, p⟩ := a
    obtain ⟨j', p'⟩ := b
    simp only at h1 h3
    subst h1
    -- related dictionaries
    have key : ∀ kvs kvs', WF (.obj kvs) → (kvs.map (·.1)).Perm (kvs'.map (·.1)) →
        (∀ k, RelO (fun x y => WF x ∧ (x = y ∨ Step x y)) (dictGet k kvs) (dictGet k kvs')) →
        (∀ k, RelO OneStep (dictGet k (JsonA.members p kvs)) (dictGet k (JsonA.members p kvs'))) ∧
        ((JsonA.members p kvs).map (·.1)).Perm ((JsonA.members p kvs').map (·.1)) := by
      intro kvs kvs' hw hp hk
      refine ⟨fun k => ?_, by rw [members_keys, members_keys]; exact hp.filter _⟩
      by_cases hm : k = py!"modelType"
      · have e : ∀ kvs, dictGet k (JsonA.members p kvs) = none := by
          intro kvs
          rw [dictGet_eq_none]
          intro v hv
          exact ((JsonA.mem_members _ _ _).mp hv).1 hm
        rw [e, e]
        exact trivial
      · rw [JsonA.members_get _ _ _ hm, JsonA.members_get _ _ _ hm]
        have := hk k
        revert this
        cases dictGet k kvs <;> cases dictGet k kvs' <;> intro this
        · exact trivial
        · exact this.elim
        · exact this.elim
        · exact ⟨rfl, this.1, this.2⟩
    have same : ∀ kvs, WF (.obj kvs) → ∀ k, RelO (fun x y => WF x ∧ (x = y ∨ Step x y)) (dictGet k kvs) (dictGet k kvs) := by
      intro kvs hw k
      cases hg : dictGet k kvs with
      | none => exact trivial
      | some j =>
        cases hw with
        | obj _ hw => exact ⟨hw _ (dictGet_mem hg), .inl rfl⟩
    rcases h3 with rfl | h3
    · cases j with
      | obj kvs => exact key kvs kvs h2 (.refl _) (same kvs h2)
      | _ => exact rfl
    · cases h3 with
      | item => exact rfl
      | @here kvs kvs' hp =>
        refine key kvs kvs' h2 (hp.map _) (fun k => ?_)
        cases h2 with
        | obj hn hw =>
          rw [← dictGet_perm hn hp]
          exact same kvs (.obj hn hw) k
      | @member pre post k j j' hs =>
        refine key _ _ h2 (by simp) (fun k' => ?_)
        have h2' := h2
        cases h2 with
        | obj hn hw =>
          obtain ⟨g1, g2, g3⟩ := dictGet_replace (k' := k') (j' := j') hn
          by_cases hk : k' = k
          · subst hk
            rw [g2, g3]
            exact ⟨hw (k', j) (by simp), .inr hs⟩
          · rw [← g1 hk]
            exact same _ h2' k'

/-- reordering keeps the keys unique -/
theorem WF.step {j j' : Json} (h : Step j j') : WF j → WF j' := by
  induction h with
  | here hp =>
    intro hw
    cases hw with
    | obj hn hw => exact .obj ((hp.map _).nodup_iff.mp hn) (fun e he => hw e (hp.mem_iff.mpr he))
  | item _ ih =>
    intro hw
    cases hw with
    | arr hw =>
      refine .arr (fun x hx => ?_)
      simp only [List.mem_append, List.mem_cons] at hx
      rcases hx with hx | rfl | hx
      · exact hw x (by simp [hx])
      · exact ih (hw _ (by simp))
      · exact hw x (by simp [hx])
  | @member pre post k j j' _ ih =>
    intro hw
    cases hw with
    | obj hn hw =>
      refine .obj (by simpa using hn) (fun x hx => ?_)
      simp only [List.mem_append, List.mem_cons] at hx
      rcases hx with hx | rfl | hx
      · exact hw x (by simp [hx])
      · exact ih (hw (k, j) (by simp))
      · exact hw x (by simp [hx])

theorem size_perm {kvs kvs' : List (Str × Json)} (h : kvs.Perm kvs') : Json.sizeO kvs = Json.sizeO kvs' := by
  induction h with
  | nil => rfl
  | cons x _ ih => obtain ⟨k, x⟩ := x; simp [Json.sizeO, ih]
  | swap x y l => obtain ⟨k, x⟩ := x; obtain ⟨k', y⟩ := y; simp [Json.sizeO]; omega
  | trans _ _ h1 h2 => rw [h1, h2]

theorem sizeL_append (a b : List Json) : Json.sizeL (a ++ b) = Json.sizeL a + Json.sizeL b := by
  induction a with
  | nil => simp [Json.sizeL]
  | cons x a ih => simp [Json.sizeL, ih]; omega

theorem sizeO_append (a b : List (Str × Json)) : Json.sizeO (a ++ b) = Json.sizeO a + Json.sizeO b := by
  induction a with
  | nil => simp [Json.sizeO]
  | cons x a ih => obtain ⟨k, x⟩ := x; simp [Json.sizeO, ih]; omega

theorem size_step {j j' : Json} (h : Step j j') : j.size = j'.size := by
  induction h with
  | here hp => simp [Json.size, size_perm hp]
  | item _ ih => simp [Json.size, sizeL_append, Json.sizeL, ih]
  | member _ ih => simp [Json.size, sizeO_append, Json.sizeO, ih]

end Verif.Parse
