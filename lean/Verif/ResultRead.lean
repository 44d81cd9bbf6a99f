import Verif.ResultLemmas2

/-! # Lemmas about reading results back from arbitrary JSON -/

namespace Verif.Res
open Verif Spec

theorem entry_iff (k : Str) (v : Json) : ∀ kvs : List (Str × Json), Entry kvs k v ↔ dictGet k kvs = some v := by
  intro kvs
  induction kvs with
  | nil => simp [Entry, dictGet]
  | cons e kvs ih =>
    obtain ⟨k', v'⟩ := e
    rw [dictGet]
    by_cases h : k' = k
    · rw [if_pos h]
      constructor
      · rintro ⟨pre, post, e, hp⟩
        cases pre with
        | nil => cases e; rfl
        | cons x pre => cases e; exact absurd h (hp (k', v') (by simp))
      · intro e; cases e; subst h; exact ⟨[], kvs, rfl, by simp⟩
    · rw [if_neg h, ← ih]
      constructor
      · rintro ⟨pre, post, e, hp⟩
        cases pre with
        | nil => cases e; exact absurd rfl h
        | cons x pre => cases e; exact ⟨pre, post, rfl, fun e he => hp e (by simp [he])⟩
      · rintro ⟨pre, post, e, hp⟩
        refine ⟨(k', v') :: pre, post, by rw [e]; rfl, ?_⟩
        intro e he
        rcases List.mem_cons.mp he with rfl | he
        · exact h
        · exact hp e he

theorem levelNumber_iff (j : Json) (l : Level) : LevelNumber j l ↔ levelOfJson j = .ok l := by
  constructor
  · intro h; cases h <;> rfl
  · intro h
    unfold levelOfJson at h
    split at h
    · rename_i i
      split at h
      · rename_i hi
        obtain ⟨n, rfl⟩ : ∃ n : Nat, i = n := ⟨i.toNat, by omega⟩
        simp only [Int.toNat_natCast] at h
        match n, h with
        | 0, h => cases h; exact .info
        | 1, h => cases h; exact .warning
        | 2, h => cases h; exact .error
        | 3, h => cases h; exact .critical
        | n + 4, h => cases h
      · cases h
    · rename_i b; cases b <;> (cases h; constructor)
    · cases h

theorem isWorst_append (m : Json) (l level : Level) (rs : List (Res Json)) :
    (Res.new m l).appendAll rs = .mk m level rs ↔ IsWorst (l :: rs.map Res.level) level := by
  have h1 := appendAll_subs (Res.new m l) rs
  have h2 := appendAll_msg (Res.new m l) rs
  have h3 := le_appendAll_level (Res.new m l) rs
  have h4 := sub_le_appendAll_level (Res.new m l) rs
  have h5 := appendAll_level_mem (Res.new m l) rs
  generalize (Res.new m l).appendAll rs = x at *
  obtain ⟨xm, xl, xs⟩ := x
  simp only [Res.subs, Res.msg, Res.level, Res.new, List.nil_append] at h1 h2 h3 h4 h5
  subst h1 h2
  constructor
  · intro h
    cases h
    refine ⟨?_, ?_⟩
    · rcases h5 with h5 | ⟨s, hs, h5⟩
      · rw [h5]; simp
      · rw [h5]; simp only [List.mem_cons, List.mem_map]; exact .inr ⟨s, hs, rfl⟩
    · intro y hy
      rcases List.mem_cons.mp hy with rfl | hy
      · exact h3
      · obtain ⟨s, hs, rfl⟩ := List.mem_map.mp hy
        exact h4 s hs
  · rintro ⟨ha, hb⟩
    have : xl = level := by
      apply Level.value_inj
      apply Nat.le_antisymm
      · refine hb xl ?_
        rcases h5 with h5 | ⟨s, hs, h5⟩
        · rw [h5]; simp
        · rw [h5]; simp only [List.mem_cons, List.mem_map]; exact .inr ⟨s, hs, rfl⟩
      · rcases List.mem_cons.mp ha with rfl | ha
        · exact h3
        · obtain ⟨s, hs, rfl⟩ := List.mem_map.mp ha
          exact h4 s hs
    rw [this]

theorem size_mem : ∀ (l : List Json), ∀ j ∈ l, j.size ≤ Json.sizeL l := by
  intro l
  induction l with
  | nil => simp
  | cons x l ih =>
    intro j hj
    rw [Json.sizeL]
    rcases List.mem_cons.mp hj with rfl | hj
    · omega
    · have := ih j hj; omega

theorem sizeO_get (k : Str) (v : Json) : ∀ kvs : List (Str × Json), dictGet k kvs = some v → v.size ≤ Json.sizeO kvs := by
  intro kvs
  induction kvs with
  | nil => simp [dictGet]
  | cons e kvs ih =>
    obtain ⟨k', v'⟩ := e
    rw [dictGet, Json.sizeO]
    split
    · intro h; cases h; omega
    · intro h; have := ih h; omega

theorem foldlM_iff (f : Json → Except PyExc (Res Json)) : ∀ (items : List Json) (acc r : Res Json),
    (∀ j ∈ items, ∀ x, f j = .ok x ↔ Denotes j x) →
    (items.foldlM (fun v i => do let r ← f i; pure (v.append r)) acc = .ok r ↔ ∃ rs, DenotesL items rs ∧ r = acc.appendAll rs) := by
  intro items
  induction items with
  | nil =>
    intro acc r _
    simp only [List.foldlM_nil, pure, Except.pure, Except.ok.injEq]
    constructor
    · rintro rfl; exact ⟨[], .nil, rfl⟩
    · rintro ⟨rs, h, e⟩; cases h; exact e.symm
  | cons j items ih =>
    intro acc r hf
    have hj := hf j (by simp)
    rw [List.foldlM_cons]
    cases hfj : f j with
    | error e =>
      simp only [bind, Except.bind, reduceCtorEq, false_iff, not_exists, not_and]
      intro rs h
      cases h with
      | cons h _ => rw [(hj _).mpr h] at hfj; cases hfj
    | ok x =>
      have hx := (hj x).mp hfj
      have := ih (acc.append x) r (fun j' h' => hf j' (by simp [h']))
      simp only [bind, Except.bind, pure, Except.pure] at this ⊢
      rw [this]
      constructor
      · rintro ⟨rs, h, e⟩; exact ⟨x :: rs, .cons hx h, e⟩
      · rintro ⟨rs, h, e⟩
        cases h with
        | cons h h' =>
          have e1 := (hj _).mpr h
          rw [hfj] at e1; cases e1
          exact ⟨_, h', e⟩

theorem fromJsonF_iff : ∀ (n : Nat) (j : Json) (r : Res Json), j.size < n → (fromJsonF n j = .ok r ↔ Denotes j r) := by
  intro n
  induction n with
  | zero => intro j r h; omega
  | succ n ih =>
    intro j r hs
    cases j with
    | obj kvs =>
      rw [fromJsonF]
      constructor
      · intro h
        simp only [bind, Except.bind] at h
        cases hm : dictGet py!"m" kvs with
        | none => simp [hm, throw, throwThe, MonadExceptOf.throw] at h
        | some m =>
          cases hl : dictGet py!"l" kvs with
          | none => simp [hm, hl, throw, throwThe, MonadExceptOf.throw, pure, Except.pure] at h
          | some lj =>
            cases hll : levelOfJson lj with
            | error e => simp [hm, hl, hll, pure, Except.pure] at h
            | ok l =>
              cases hsj : dictGet py!"s" kvs with
              | none => simp [hm, hl, hll, hsj, throw, throwThe, MonadExceptOf.throw, pure, Except.pure] at h
              | some sj =>
                have hsz := sizeO_get _ _ _ hsj
                rw [Json.size] at hs
                have main : ∀ items, Items sj items → (∀ j ∈ items, j.size < n) →
                    items.foldlM (fun v i => do let r ← fromJsonF n i; pure (v.append r)) (Res.new m l) = .ok r → Denotes (.obj kvs) r := by
                  intro items hit hsi hf
                  obtain ⟨rs, hrs, e⟩ := (foldlM_iff (fromJsonF n) items (Res.new m l) r (fun j hj x => ih j x (hsi j hj))).mp hf
                  obtain ⟨xm, xl, xs⟩ := r
                  have h1 := appendAll_subs (Res.new m l) rs
                  have h2 := appendAll_msg (Res.new m l) rs
                  rw [← e] at h1 h2
                  simp only [Res.subs, Res.msg, Res.new, List.nil_append] at h1 h2
                  subst h1 h2
                  exact .obj ((entry_iff _ _ _).mpr hm) ((entry_iff _ _ _).mpr hl) ((levelNumber_iff _ _).mpr hll)
                    ((entry_iff _ _ _).mpr hsj) hit hrs ((isWorst_append _ _ _ _).mp e.symm)
                cases hit : iterJson sj with
                | error e => simp [hm, hl, hll, hsj, hit, pure, Except.pure] at h
                | ok items =>
                  simp only [hm, hl, hll, hsj, hit, pure, Except.pure] at h
                  cases sj with
                  | arr l =>
                    cases hit
                    rw [Json.size] at hsz
                    exact main _ (.arr _) (fun j hj => by have := size_mem _ j hj; omega) h
                  | str s =>
                    cases s with
                    | nil => cases hit; exact main _ .str (by simp) h
                    | cons c s =>
                      cases hit
                      rw [List.map_cons, List.foldlM_cons] at h
                      cases n <;> simp [fromJsonF, bind, Except.bind] at h
                  | obj s =>
                    cases s with
                    | nil => cases hit; exact main _ .obj (by simp) h
                    | cons c s =>
                      cases hit
                      rw [List.map_cons, List.foldlM_cons] at h
                      cases n <;> simp [fromJsonF, bind, Except.bind] at h
                  | null => cases hit
                  | bool b => cases hit
                  | num b => cases hit
                  | float b => cases hit
      · intro h
        cases h with
        | @obj _ m lj l sj items rs level hm hl hll hsj hit hrs hw =>
          rw [entry_iff] at hm hl hsj
          rw [levelNumber_iff] at hll
          have hsz := sizeO_get _ _ _ hsj
          rw [Json.size] at hs
          have hit' : iterJson sj = .ok items := by cases hit <;> rfl
          have hsi : ∀ j ∈ items, j.size < n := by
            cases hit with
            | arr => intro j hj; rw [Json.size] at hsz; have := size_mem _ j hj; omega
            | str => simp
            | obj => simp
          have := (foldlM_iff (fromJsonF n) items (Res.new m l) (.mk m level rs) (fun j hj x => ih j x (hsi j hj))).mpr
            ⟨rs, hrs, ((isWorst_append _ _ _ _).mpr hw).symm⟩
          simp only [hm, hl, hll, hsj, hit', bind, Except.bind, pure, Except.pure] at this ⊢
          exact this
    | _ =>
      constructor
      · intro h; rw [fromJsonF] at h; cases h; intro _ h; cases h
      · intro h; cases h

end Verif.Res
