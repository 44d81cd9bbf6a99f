import Verif.ParseReorder

/-!
# Serialised objects are read back
-/

namespace Verif.Parse
open Verif Verif.Spec.Parse

section
variable {A B C E S F : Type}

theorem strip_list (l : List (Val C E S F)) : strip (.list l) = .list (strip.stripL l) := by simp [strip]
theorem strip_obj (c : C) (as : List (F × Val C E S F)) : strip (.obj c as) = .obj c (strip.stripA as) := by simp [strip]

/-- `None` in place of a value -/
theorem HasType.strip_ne_none {sc : Schema C E S F} {ty v} (h : HasType sc ty v) : strip v ≠ .none := by
  cases h <;> simp [strip]

/-- what was read is determined by its content -/
theorem Read.strip_inj {ops : Ops A} {ops' : Ops B} {sc : Schema C E S F} (hs : Sane sc)
    (he : ∀ a as, ops.asList a false = .ok as → as ≠ []) (he' : ∀ a as, ops'.asList a false = .ok as → as ≠ [])
    {ty a v} (h : Read ops sc ty a v) : ∀ b w, Read ops' sc ty b w → strip v = strip w → v = w := by
  refine Read.rec (ops := ops) (sc := sc)
    (motive_1 := fun ty _ v _ => ∀ b w, Read ops' sc ty b w → strip v = strip w → v = w)
    (motive_2 := fun it _ vs _ => ∀ bs ws, ReadL ops' sc it bs ws → strip.stripL vs = strip.stripL ws → vs = ws)
    (motive_3 := fun c a v _ => ∀ b w, ReadObj ops sc c a v → ReadObj ops' sc c b w → strip v = strip w → v = w)
    (motive_4 := fun _ fs attrs _ => ∀ obj ws, ReadF ops' sc obj fs ws → strip.stripA attrs = strip.stripA ws → attrs = ws)
    ?_ ?_ ?_ ?_ ?_ ?_ ?_ ?_ ?_ ?_ ?_ ?_ ?_ ?_ ?_ h
  · intro a s _ b w hw hst; cases hw; simpa [strip] using hst
  · intro a s _ b w hw hst; cases hw; simpa [strip] using hst
  · intro a b w hw _; cases hw; rfl
  · intro a e s _ _ b w hw hst; cases hw; simpa [strip] using hst
  · intro a e s _ _ b w hw hst; cases hw; simpa [strip] using hst
  · intro a as it ae vs _ _ ih b w hw hst
    cases hw with
    | list _ h =>
      simp only [strip_list, Val.list.injEq] at hst
      rw [ih _ _ h hst]
  · intro a c v v' hab ho hp ih b w hw hst
    cases hw with
    | abstract h => simp [hab] at h
    | @concrete _ _ w0 _ _ ho' hp' =>
      have t1 : HasType sc (.cls c) v := by
        cases ho with
        | mk _ _ _ h => exact hasType_obj.mpr ⟨.inl ⟨hab, rfl⟩, ReadF.typed hs he h⟩
      have t2 : HasType sc (.cls c) w0 := by
        cases ho' with
        | mk _ _ _ h => exact hasType_obj.mpr ⟨.inl ⟨hab, rfl⟩, ReadF.typed hs he' h⟩
      unfold Post at hp hp'
      cases hpp : sc.postParse c with
      | none =>
        simp only [hpp] at hp hp'
        subst hp; subst hp'
        exact ih _ _ ho ho' hst
      | some f =>
        simp only [hpp] at hp hp'
        obtain ⟨x, g1, -, g2⟩ := hs.post c f v hpp t1
        obtain ⟨y, k1, -, k2⟩ := hs.post c f w0 hpp t2
        rw [hp] at g1; cases g1
        rw [hp'] at k1; cases k1
        have := ih _ _ ho ho' (by rw [← g2, ← k2, hst])
        subst this
        rw [hp] at hp'
        cases hp'
        rfl
  · intro a c c' d v hab _ hf ho ih b w hw hst
    cases hw with
    | concrete h => simp [hab] at h
    | @abstract _ _ c'' d' _ _ _ hf' ho' =>
      have : c'' = c' := by
        cases ho with
        | mk => cases ho' with
          | mk => simp only [strip_obj, Val.obj.injEq] at hst; exact hst.1.symm
      subst this
      exact ih _ _ ho ho' hst
  · intro it bs ws hw hst
    cases hw with
    | nil => rfl
    | cons => simp [strip.stripL] at hst
  · intro it a as v vs _ _ h1 h2 bs ws hw hst
    cases hw with
    | nil => simp [strip.stripL] at hst
    | cons g1 g2 =>
      simp only [strip.stripL, List.cons.injEq] at hst
      rw [h1 _ _ g1 hst.1, h2 _ _ g2 hst.2]
  · intro c a obj attrs _ _ _ _ ih b w _ hw hst
    cases hw with
    | mk _ _ _ h =>
      simp only [strip_obj, Val.obj.injEq, true_and] at hst
      rw [ih _ _ h hst]
  · intro obj o ws hw _; cases hw; rfl
  · intro obj f fs attrs _ ih o ws hw hst
    cases hw with
    | excluded h =>
      simp only [strip.stripA, List.cons.injEq, true_and] at hst
      rw [ih _ _ h hst]
  · intro obj f key ty fs attrs _ _ ih o ws hw hst
    cases hw with
    | absent _ h =>
      simp only [strip.stripA, List.cons.injEq, true_and] at hst
      rw [ih _ _ h hst]
    | present _ h h' =>
      simp only [strip.stripA, List.cons.injEq, Prod.mk.injEq, true_and] at hst
      exact absurd (by simpa [strip] using hst.1.symm) (HasType.strip_ne_none (Read.typed hs he' h))
  · intro obj f key ty req a v fs attrs _ hr _ h1 h2 o ws hw hst
    cases hw with
    | absent _ h =>
      simp only [strip.stripA, List.cons.injEq, Prod.mk.injEq, true_and] at hst
      exact absurd (by simpa [strip] using hst.1) (HasType.strip_ne_none (Read.typed hs he hr))
    | present _ h h' =>
      simp only [strip.stripA, List.cons.injEq, Prod.mk.injEq, true_and] at hst
      rw [h1 _ _ h hst.1, h2 _ _ h' hst.2]

/-! ## JSON -/

/-- the members of a serialised object -/
theorem toJsonA_cons {sc : Schema C E S F} {tagged : C → Bool} {f : F} {key ty req} {fs : List (Field C E S F)} {a : F × Val C E S F}
    {as : List (F × Val C E S F)} (h : a.2 ≠ .none) : toJsonA sc tagged (⟨f, .attr key ty req⟩ :: fs) (a :: as) =
      (key, toJson sc tagged a.2) :: toJsonA sc tagged fs as := by
  obtain ⟨g, v⟩ := a
  cases v <;> simp_all [toJsonA]

theorem toJsonA_keys (sc : Schema C E S F) (tagged : C → Bool) : ∀ (fs : List (Field C E S F)) (as : List (F × Val C E S F)),
    List.Sublist ((toJsonA sc tagged fs as).map (·.1)) (allKeys fs)
  | [], as => by cases as <;> simp [toJsonA]
  | ⟨f, .excluded⟩ :: fs, [] => by simp [toJsonA]
  | ⟨f, .excluded⟩ :: fs, a :: as => by simpa [toJsonA, allKeys] using toJsonA_keys sc tagged fs as
  | ⟨f, .attr key ty req⟩ :: fs, [] => by simp [toJsonA]
  | ⟨f, .attr key ty req⟩ :: fs, (g, v) :: as => by
    by_cases hv : v = .none
    · subst hv
      simp only [toJsonA]
      exact List.Sublist.cons key (toJsonA_keys sc tagged fs as)
    · rw [toJsonA_cons hv]
      exact List.Sublist.cons_cons key (toJsonA_keys sc tagged fs as)

theorem toJsonA_get (sc : Schema C E S F) (tagged : C → Bool) : ∀ (fs : List (Field C E S F)) (as : List (F × Val C E S F)),
    (allKeys fs).Nodup → ∀ f key ty req g v, (Field.mk f (.attr key ty req), g, v) ∈ fs.zip as →
    (v ≠ .none → (key, toJson sc tagged v) ∈ toJsonA sc tagged fs as) ∧
    (v = .none → ∀ j, (key, j) ∉ toJsonA sc tagged fs as)
  | [], as, _, _, _, _, _, _, _, h => by simp at h
  | _ :: _, [], _, _, _, _, _, _, _, h => by simp at h
  | ⟨f', .excluded⟩ :: fs, a :: as, hn, f, key, ty, req, g, v, h => by
    simp only [toJsonA]
    simp only [List.zip_cons_cons, List.mem_cons, Prod.mk.injEq, Field.mk.injEq, reduceCtorEq, and_false, false_and, false_or] at h
    exact toJsonA_get sc tagged fs as (by simpa [allKeys] using hn) f key ty req g v h
  | ⟨f', .attr key' ty' req'⟩ :: fs, a :: as, hn, f, key, ty, req, g, v, h => by
    have hn' : key' ∉ allKeys fs ∧ (allKeys fs).Nodup := by
      have : allKeys (⟨f', .attr key' ty' req'⟩ :: fs) = key' :: allKeys fs := by simp [allKeys]
      rw [this, List.nodup_cons] at hn
      exact hn
    have sub := (toJsonA_keys sc tagged fs as).subset
    simp only [List.zip_cons_cons, List.mem_cons] at h
    rcases h with h | h
    · obtain ⟨⟨rfl, rfl, rfl, rfl⟩, rfl⟩ : (f = f' ∧ key = key' ∧ ty = ty' ∧ req = req') ∧ (g, v) = a := by
        simpa using h
      refine ⟨fun hv => by rw [toJsonA_cons hv]; simp, ?_⟩
      rintro rfl j hj
      simp only [toJsonA] at hj
      exact hn'.1 (sub (List.mem_map.mpr ⟨_, hj, rfl⟩))
    · have ih := toJsonA_get sc tagged fs as hn'.2 f key ty req g v h
      have hk : key ≠ key' := by
        rintro rfl
        exact hn'.1 (mem_allKeys.mpr ⟨f, ty, req, (List.of_mem_zip h).1⟩)
      by_cases hv : a.2 = .none
      · obtain ⟨x, y⟩ := a
        simp only at hv
        subst hv
        simpa [toJsonA] using ih
      · rw [toJsonA_cons hv]
        exact ⟨fun h => List.mem_cons_of_mem _ (ih.1 h), fun h j hj => by
          rcases List.mem_cons.mp hj with e | hj
          · exact hk (Prod.mk.inj e).1
          · exact ih.2 h j hj⟩

theorem toJsonL_eq (sc : Schema C E S F) (tagged : C → Bool) (l : List (Val C E S F)) :
    toJsonL sc tagged l = l.map (toJson sc tagged) := by
  induction l with
  | nil => rfl
  | cons v l ih => simp [toJsonL, ih]

/-- classes whose discriminator is needed get it -/
def TagsNeeded (sc : Schema C E S F) (tagged : C → Bool) : Prop :=
  (∀ c, sc.needsModelType c = true → tagged c = true) ∧
  (∀ c c', sc.abstract c = true → c' ∈ sc.subclasses c → tagged c' = true)

theorem readF_serialised {sc : Schema C E S F} (obj : List (Str × JsonA)) (G : Val C E S F → JsonA → Prop)
    (hG : ∀ ty v a, HasType sc ty v → G v a → ∃ w, Read jsonOps sc ty a w ∧ strip w = strip v) :
    ∀ (fs : List (Field C E S F)) (as : List (F × Val C E S F)), FieldsOk sc fs as →
    (∀ f key ty req g v, (Field.mk f (.attr key ty req), g, v) ∈ fs.zip as →
      (v ≠ .none → ∃ a, dictGet key obj = some a ∧ G v a) ∧ (v = .none → dictGet key obj = none)) →
    ∃ ws, ReadF jsonOps sc obj fs ws ∧ strip.stripA ws = strip.stripA as
  | [], _, h, _ => by cases h; exact ⟨_, .nil, rfl⟩
  | ⟨f, .excluded⟩ :: fs, _, h, hz => by
    cases h with
    | @cons _ a _ as h hs =>
      obtain ⟨ws, h1, h2⟩ := readF_serialised obj G hG fs as hs (fun f key ty req g v h => hz f key ty req g v (by simp [h]))
      refine ⟨_, .excluded h1, ?_⟩
      obtain ⟨g, v⟩ := a
      obtain ⟨rfl, h⟩ := h
      rcases h with h | ⟨x, y, t, h⟩
      · simp only at h; subst h; simp [strip.stripA, h2]
      · simp only at h; subst h; simp [strip.stripA, h2, strip]
  | ⟨f, .attr key ty req⟩ :: fs, _, h, hz => by
    cases h with
    | @cons _ a _ as h hs =>
      obtain ⟨ws, h1, h2⟩ := readF_serialised obj G hG fs as hs (fun f key ty req g v h => hz f key ty req g v (by simp [h]))
      obtain ⟨g, v⟩ := a
      obtain ⟨rfl, h⟩ := h
      have hk := hz g key ty req g v (by simp)
      rcases h with ⟨hv, rfl⟩ | h
      · simp only at hv; subst hv
        exact ⟨_, .absent (hk.2 rfl) h1, by simp [strip.stripA, h2]⟩
      · obtain ⟨a, ha, hg⟩ := hk.1 (HasType.ne_none h)
        obtain ⟨w, hw, hst⟩ := hG ty v a h hg
        exact ⟨_, .present ha hw h1, by simp [strip.stripA, h2, hst]⟩

theorem HasType.post {sc : Schema C E S F} (hs : Sane sc) {c : C} {v : Val C E S F} (h : HasType sc (.cls c) v) :
    ∃ w, Post sc c v w ∧ strip w = strip v := by
  unfold Post
  cases hpp : sc.postParse c with
  | none => exact ⟨v, rfl, rfl⟩
  | some f =>
    obtain ⟨w, h1, -, h2⟩ := hs.post c f v hpp h
    exact ⟨w, h1, h2⟩

/-- the JSON form of a typed value can be read, and gives the same value -/
theorem HasType.read_json {sc : Schema C E S F} (hs : Sane sc) (hd : DistinctKeys sc) {tagged : C → Bool} (ht : TagsNeeded sc tagged) :
    ∀ {v : Val C E S F} {ty}, HasType sc ty v → ∀ p, ∃ w, Read jsonOps sc ty ⟨toJson sc tagged v, p⟩ w ∧ strip w = strip v
  | v, ty, h, p => by
    cases h with
    | str s => exact ⟨_, .str (by simp [toJson]; rfl), rfl⟩
    | bool s => exact ⟨_, .bool (by simp [toJson]; rfl), rfl⟩
    | any => exact ⟨_, .any, rfl⟩
    | enum h => exact ⟨_, .enum (by simp [toJson]; rfl) h, rfl⟩
    | sfv h => exact ⟨_, .sfv (by simp [toJson]; rfl) h, rfl⟩
    | @list it ae l hne h =>
      have hl : ∀ (l' : List (Val C E S F)) (hsub : ∀ v ∈ l', v ∈ l) (i : Nat),
          ∃ ws, ReadL jsonOps sc it (JsonA.items p i (l'.map (toJson sc tagged))) ws ∧ strip.stripL ws = strip.stripL l' := by
        intro l'
        induction l' with
        | nil => exact fun _ i => ⟨_, .nil, rfl⟩
        | cons v l' ih =>
          intro hsub i
          have hmem : v ∈ l := hsub v List.mem_cons_self
          obtain ⟨ws, h1, h2⟩ := ih (fun v hv => hsub v (List.mem_cons_of_mem _ hv)) (i + 1)
          obtain ⟨w, h3, h4⟩ := HasType.read_json hs hd ht (h v hmem) (p ++ [.idx i])
          exact ⟨_, .cons h3 h1, by simp [strip.stripL, h2, h4]⟩
      obtain ⟨ws, h1, h2⟩ := hl l (fun _ h => h) 0
      refine ⟨_, .list ?_ h1, by rw [strip_list, strip_list, h2]⟩
      simp only [toJson, toJsonL_eq, jsonOps, JsonA.asList]
      rw [if_neg]
      simp only [List.isEmpty_iff, List.map_eq_nil_iff, Bool.and_eq_true, Bool.not_eq_eq_eq_not, Bool.not_true]
      rintro ⟨e1, e2⟩
      rcases hne with h | h
      · exact h e1
      · simp [h] at e2
    | @obj c c' attrs isA names typed required excluded =>
      have hf := (hasType_obj.mp (HasType.obj isA names typed required excluded)).2
      clear names typed required excluded
      obtain ⟨kvs, hkvs⟩ : ∃ kvs, kvs = (if tagged c' then [(py!"modelType", Json.str (sc.className c'))] else []) ++
          toJsonA sc tagged (sc.fields c') attrs := ⟨_, rfl⟩
      have hj : toJson sc tagged (.obj c' attrs) = .obj kvs := by rw [hkvs]; simp [toJson]
      rw [hj]
      -- keys
      have hsubk := toJsonA_keys sc tagged (sc.fields c') attrs
      have hmt : py!"modelType" ∉ allKeys (sc.fields c') := by
        intro h
        obtain ⟨f, ty, req, h⟩ := mem_allKeys.mp h
        exact hs.keys _ _ _ _ h
      have hnd : (kvs.map (·.1)).Nodup := by
        rw [hkvs]
        split
        · simp only [List.map_append, List.map_cons, List.map_nil]
          rw [List.singleton_append, List.nodup_cons]
          exact ⟨fun h => hmt (hsubk.subset h), (hd c').sublist hsubk⟩
        · simpa using (hd c').sublist hsubk
      have hget : ∀ f key ty req g v, (Field.mk f (.attr key ty req), g, v) ∈ (sc.fields c').zip attrs →
          (v ≠ .none → ∃ a, dictGet key (JsonA.members p kvs) = some a ∧ a.value = toJson sc tagged v) ∧
          (v = .none → dictGet key (JsonA.members p kvs) = none) := by
        intro f key ty req g v hz
        have hkm : key ≠ py!"modelType" := by
          intro e
          exact hmt (e ▸ mem_allKeys.mpr ⟨f, ty, req, (List.of_mem_zip hz).1⟩)
        obtain ⟨g1, g2⟩ := toJsonA_get sc tagged (sc.fields c') attrs (hd c') f key ty req g v hz
        rw [JsonA.members_get _ _ _ hkm]
        refine ⟨fun hv => ?_, fun hv => ?_⟩
        · rw [dictGet_of_mem hnd (show (key, toJson sc tagged v) ∈ kvs by rw [hkvs]; exact List.mem_append_right _ (g1 hv))]
          exact ⟨_, rfl, rfl⟩
        · have : dictGet key kvs = none := by
            rw [dictGet_eq_none]
            intro j hj
            rw [hkvs] at hj
            rcases List.mem_append.mp hj with hj | hj
            · split at hj
              · simp only [List.mem_singleton] at hj
                exact hkm (congrArg Prod.fst hj)
              · simp at hj
            · exact g2 hv j hj
          rw [this]; rfl
      obtain ⟨ws, h1, h2⟩ : ∃ ws, ReadF jsonOps sc (JsonA.members p kvs) (sc.fields c') ws ∧ strip.stripA ws = strip.stripA attrs := by
        refine readF_serialised (JsonA.members p kvs)
          (fun v a => a.value = toJson sc tagged v ∧ ∃ x ∈ attrs, x.2 = v) ?_ (sc.fields c') attrs hf ?_
        · rintro ty v ⟨j, q⟩ hty ⟨hj, x, hx, rfl⟩
          simp only at hj
          subst hj
          have hmem : x ∈ attrs := hx
          obtain ⟨f', v⟩ := x
          exact HasType.read_json hs hd ht (v := v) hty q
        · intro f key ty req g v hz
          obtain ⟨g1, g2⟩ := hget f key ty req g v hz
          refine ⟨fun hv => ?_, g2⟩
          obtain ⟨a, ha, hav⟩ := g1 hv
          exact ⟨a, ha, hav, (g, v), (List.of_mem_zip hz).2, rfl⟩
      have htag : tagged c' = true → jsonOps.modelType ⟨.obj kvs, p⟩ = .ok (some (sc.className c')) := by
        intro h
        refine (modelType_json hnd p _).mpr ?_
        rw [hkvs, if_pos h]
        exact List.mem_append_left _ (List.mem_singleton.mpr rfl)
      have hobj : ReadObj jsonOps sc c' ⟨.obj kvs, p⟩ (.obj c' ws) := by
        refine .mk (obj := JsonA.members p kvs) rfl (fun h => htag (ht.1 c' h)) ?_ h1
        intro e he
        obtain ⟨k1, -, k2⟩ := (JsonA.mem_members _ _ _).mp he
        rw [hkvs] at k2
        rcases List.mem_append.mp k2 with k2 | k2
        · split at k2
          · simp only [List.mem_singleton] at k2
            exact absurd (congrArg Prod.fst k2) k1
          · simp at k2
        · exact hsubk.subset (List.mem_map.mpr ⟨_, k2, rfl⟩)
      rcases isA with ⟨hab, rfl⟩ | ⟨hab, hm⟩
      · obtain ⟨w, hw1, hw2⟩ := HasType.post hs (hasType_obj.mpr ⟨.inl ⟨hab, rfl⟩, ReadF.typed hs json_nonempty h1⟩)
        exact ⟨w, .concrete hab hobj hw1, by rw [hw2, strip_obj, strip_obj, h2]⟩
      · exact ⟨_, .abstract hab (htag (ht.2 c c' hab hm)) (find_subclass hs hm) hobj, by rw [strip_obj, strip_obj, h2]⟩
termination_by v => sizeOf v
decreasing_by
  · have := List.sizeOf_lt_of_mem hmem
    simp_wf
    omega
  · have := List.sizeOf_lt_of_mem hmem
    simp_wf
    simp at this
    omega

end
end Verif.Parse
