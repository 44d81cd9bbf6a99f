import Verif.ResultLemmas

/-! # Helper lemmas about result trees: consistency, serialisation, text and HTML report -/

namespace Verif
open Spec

namespace Res
variable {μ ν : Type}

theorem nodeAt_append (r : Res μ) (a b : List Nat) :
    nodeAt r (a ++ b) = (nodeAt r a).bind fun s => nodeAt s b := by
  induction a generalizing r with
  | nil => simp [nodeAt]
  | cons i is ih =>
    cases r with
    | mk m l ss =>
      simp only [List.cons_append, nodeAt]
      cases ss[i]? with
      | none => rfl
      | some s => exact ih s

theorem consistent_mk (m : μ) (l : Level) (ss : List (Res μ)) :
    Consistent (.mk m l ss) ↔
      (∀ s ∈ ss, s.level.value ≤ l.value) ∧ ∀ s ∈ ss, Consistent s := by
  constructor
  · intro h
    constructor
    · intro s hs
      obtain ⟨i, hi⟩ := List.mem_iff_getElem?.mp hs
      exact h [] i (.mk m l ss) s rfl (by simp [nodeAt, hi])
    · intro s hs a i t u h1 h2
      obtain ⟨j, hj⟩ := List.mem_iff_getElem?.mp hs
      exact h (j :: a) i t u (by simp [nodeAt, hj, h1]) (by simp [nodeAt, hj, h2])
  · rintro ⟨h1, h2⟩ a i t u ht hu
    cases a with
    | nil =>
      simp only [nodeAt, Option.some.injEq] at ht
      subst ht
      simp only [List.nil_append, nodeAt] at hu
      split at hu
      · rename_i s hs
        simp only [Option.some.injEq] at hu
        subst hu
        exact h1 _ (List.mem_of_getElem? hs)
      · cases hu
    | cons j a =>
      simp only [List.cons_append, nodeAt] at ht hu
      split at ht
      · rename_i s hs
        rw [hs] at hu
        exact h2 s (List.mem_of_getElem? hs) a i t u ht hu
      · cases ht

theorem consistent_appendAll (m : μ) (l : Level) (ss : List (Res μ))
    (h : ∀ s ∈ ss, Consistent s) : Consistent ((Res.new m l).appendAll ss) := by
  rw [new_appendAll_eq, consistent_mk]
  exact ⟨fun s hs => sub_le_appendAll_level _ _ s hs, h⟩

mutual
theorem build_consistent : ∀ b : Build μ, Consistent b.run
  | .node m l bs => by
    rw [Build.run_eq]
    apply consistent_appendAll
    intro s hs
    obtain ⟨b, hb, rfl⟩ := List.mem_map.mp hs
    exact build_consistentL bs b hb
theorem build_consistentL : ∀ bs : List (Build μ), ∀ b ∈ bs, Consistent b.run
  | [] => by intro b hb; cases hb
  | b :: bs => by
    intro c hc
    rcases List.mem_cons.mp hc with h | h
    · rw [h]; exact build_consistent b
    · exact build_consistentL bs c h
end

mutual
/-- every consistent tree can be built through the API -/
def toBuild : Res μ → Build μ
  | .mk m l ss => .node m l (toBuildL ss)
def toBuildL : List (Res μ) → List (Build μ)
  | [] => []
  | r :: rs => toBuild r :: toBuildL rs
end

/-! ## serialisation -/

mutual
/-- the tree that `from_json` makes of a serialised tree: levels are recomputed bottom-up -/
def relevel (f : μ → ν) : Res μ → Res ν
  | .mk m l ss => (Res.new (f m) l).appendAll (relevelL f ss)
def relevelL (f : μ → ν) : List (Res μ) → List (Res ν)
  | [] => []
  | r :: rs => relevel f r :: relevelL f rs
end

theorem toDictL_size_mem {ss : List (Res Str)} : ∀ s ∈ ss, (toDict s).size ≤ Json.sizeL (toDictL ss) := by
  induction ss with
  | nil => intro s hs; cases hs
  | cons r rs ih =>
    intro s hs
    simp only [toDictL, Json.sizeL]
    rcases List.mem_cons.mp hs with rfl | hs
    · omega
    · have := ih s hs; omega

theorem levelOfJson_value (l : Level) : levelOfJson (.num l.value) = .ok l := by
  cases l <;> rfl

theorem fromJsonF_obj (n : Nat) (m : Json) (l : Level) (s : List Json) :
    fromJsonF (n + 1) (.obj [(py!"m", m), (py!"l", .num l.value), (py!"s", .arr s)]) =
      s.foldlM (fun v i => do
        let r ← fromJsonF n i
        pure (v.append r)) (Res.new m l) := by
  have hl := levelOfJson_value l
  have h1 : dictGet py!"m" [(py!"m", m), (py!"l", Json.num l.value), (py!"s", Json.arr s)] = some m := rfl
  have h2 : dictGet py!"l" [(py!"m", m), (py!"l", Json.num l.value), (py!"s", Json.arr s)]
      = some (.num l.value) := rfl
  have h3 : dictGet py!"s" [(py!"m", m), (py!"l", Json.num l.value), (py!"s", Json.arr s)]
      = some (.arr s) := rfl
  simp only [fromJsonF, h1, h2, h3, hl, iterJson]
  rfl

mutual
theorem fromJsonF_toDict : ∀ (r : Res Str) (n : Nat), (toDict r).size ≤ n →
    fromJsonF n (toDict r) = .ok (relevel Json.str r)
  | .mk m l ss, 0, h => by simp [toDict, Json.size] at h
  | .mk m l ss, n + 1, h => by
    rw [toDict, fromJsonF_obj, relevel]
    apply fromJsonF_toDictL
    simp [toDict, Json.size, Json.sizeO] at h
    omega
theorem fromJsonF_toDictL : ∀ (ss : List (Res Str)) (n : Nat) (v : Res Json),
    Json.sizeL (toDictL ss) ≤ n →
    (toDictL ss).foldlM (fun v i => do
        let r ← fromJsonF n i
        pure (v.append r)) v = .ok (v.appendAll (relevelL Json.str ss))
  | [], n, v, h => rfl
  | s :: ss, n, v, h => by
    simp only [toDictL, Json.sizeL] at h
    simp only [toDictL, List.foldlM_cons, relevelL, appendAll_cons]
    rw [fromJsonF_toDict s n (by omega)]
    exact fromJsonF_toDictL ss n (v.append (relevel Json.str s)) (by omega)
end

theorem mapMsg_level (f : μ → ν) (r : Res μ) : (r.mapMsg f).level = r.level := by
  cases r; rfl

theorem mem_mapMsgL {f : μ → ν} {rs : List (Res μ)} {x : Res ν} :
    x ∈ mapMsgL f rs ↔ ∃ r ∈ rs, x = r.mapMsg f := by
  induction rs with
  | nil => simp [mapMsgL]
  | cons r rs ih => simp [mapMsgL, ih]

mutual
theorem relevel_of_consistent (f : μ → ν) : ∀ r : Res μ, Consistent r → relevel f r = r.mapMsg f
  | .mk m l ss, h => by
    rw [consistent_mk] at h
    rw [relevel, mapMsg, relevelL_of_consistent f ss h.2, new_appendAll_eq]
    congr 1
    apply Level.value_inj
    apply Nat.le_antisymm
    · rw [appendAll_level_le_iff]
      refine ⟨Nat.le_refl _, ?_⟩
      intro s hs
      obtain ⟨r, hr, rfl⟩ := mem_mapMsgL.mp hs
      rw [mapMsg_level]
      exact h.1 r hr
    · exact le_appendAll_level (Res.new (f m) l) _
theorem relevelL_of_consistent (f : μ → ν) : ∀ rs : List (Res μ), (∀ r ∈ rs, Consistent r) →
    relevelL f rs = mapMsgL f rs
  | [], _ => rfl
  | r :: rs, h => by
    rw [relevelL, mapMsgL, relevel_of_consistent f r (h r List.mem_cons_self),
      relevelL_of_consistent f rs (fun x hx => h x (List.mem_cons_of_mem _ hx))]
end

mutual
theorem consistent_of_relevel (f : μ → ν) : ∀ r : Res μ, relevel f r = r.mapMsg f → Consistent r
  | .mk m l ss, h => by
    rw [relevel, mapMsg, new_appendAll_eq] at h
    injection h with _ hl hs
    rw [consistent_mk]
    have hc := consistent_of_relevelL f ss hs
    refine ⟨?_, hc⟩
    intro s hs'
    have : (s.mapMsg f) ∈ relevelL f ss := by
      rw [hs]; exact mem_mapMsgL.mpr ⟨s, hs', rfl⟩
    have := sub_le_appendAll_level (Res.new (f m) l) _ _ this
    rw [hl, mapMsg_level] at this
    exact this
theorem consistent_of_relevelL (f : μ → ν) : ∀ rs : List (Res μ), relevelL f rs = mapMsgL f rs →
    ∀ r ∈ rs, Consistent r
  | [], _ => by intro r hr; cases hr
  | r :: rs, h => by
    rw [relevelL, mapMsgL] at h
    injection h with h1 h2
    intro x hx
    rcases List.mem_cons.mp hx with h' | h'
    · rw [h']; exact consistent_of_relevel f r h1
    · exact consistent_of_relevelL f rs h2 x h'
end

/-! ## text report -/

mutual
/-- addresses of all nodes, in pre-order -/
def addrs : Res μ → List (List Nat)
  | .mk _ _ ss => [] :: addrsL 0 ss
def addrsL (i : Nat) : List (Res μ) → List (List Nat)
  | [] => []
  | r :: rs => (addrs r).map (i :: ·) ++ addrsL (i + 1) rs
end

mutual
theorem mem_addrs : ∀ (r : Res μ) (a : List Nat), a ∈ addrs r ↔ ∃ s, nodeAt r a = some s
  | .mk m l ss, [] => by simp [addrs, nodeAt]
  | .mk m l ss, i :: is => by
    rw [addrs, List.mem_cons]
    have := mem_addrsL ss 0 (i :: is)
    simp only [reduceCtorEq, false_or]
    rw [this]
    simp only [nodeAt]
    constructor
    · rintro ⟨j, js, s, t, h, _, h1, h2⟩
      injection h with h3 h4
      subst h3 h4
      simp only [Nat.sub_zero] at h1
      exact ⟨t, by simp [h1, h2]⟩
    · rintro ⟨t, h⟩
      split at h
      · rename_i s hs
        exact ⟨i, is, s, t, rfl, Nat.zero_le _, by simpa using hs, h⟩
      · cases h
theorem mem_addrsL : ∀ (rs : List (Res μ)) (k : Nat) (a : List Nat), a ∈ addrsL k rs ↔
    ∃ i is s t, a = i :: is ∧ k ≤ i ∧ rs[i - k]? = some s ∧ nodeAt s is = some t
  | [], k, a => by simp [addrsL]
  | r :: rs, k, a => by
    rw [addrsL, List.mem_append, List.mem_map, mem_addrsL rs (k + 1) a]
    constructor
    · rintro (⟨is, h, rfl⟩ | ⟨i, is, s, t, rfl, hk, h1, h2⟩)
      · obtain ⟨t, ht⟩ := (mem_addrs r is).mp h
        exact ⟨k, is, r, t, rfl, Nat.le_refl _, by simp, ht⟩
      · refine ⟨i, is, s, t, rfl, by omega, ?_, h2⟩
        have : i - k = (i - (k + 1)) + 1 := by omega
        rw [this]; simpa using h1
    · rintro ⟨i, is, s, t, rfl, hk, h1, h2⟩
      by_cases h : i = k
      · subst h
        simp at h1
        subst h1
        exact Or.inl ⟨is, (mem_addrs r is).mpr ⟨t, h2⟩, rfl⟩
      · right
        refine ⟨i, is, s, t, rfl, by omega, ?_, h2⟩
        have : i - k = (i - (k + 1)) + 1 := by omega
        rw [this] at h1
        simpa using h1
end

theorem addrsL_head_ge {rs : List (Res μ)} {k : Nat} {a : List Nat} (h : a ∈ addrsL k rs) :
    ∃ i is, a = i :: is ∧ k ≤ i := by
  obtain ⟨i, is, _, _, h1, h2, _⟩ := (mem_addrsL rs k a).mp h
  exact ⟨i, is, h1, h2⟩

mutual
theorem addrs_sorted : ∀ r : Res μ, (addrs r).Pairwise (· < ·)
  | .mk m l ss => by
    rw [addrs, List.pairwise_cons]
    refine ⟨?_, addrsL_sorted ss 0⟩
    intro a ha
    obtain ⟨i, is, rfl, _⟩ := addrsL_head_ge ha
    exact List.nil_lt_cons i is
theorem addrsL_sorted : ∀ (rs : List (Res μ)) (k : Nat), (addrsL k rs).Pairwise (· < ·)
  | [], k => List.Pairwise.nil
  | r :: rs, k => by
    rw [addrsL, List.pairwise_append]
    refine ⟨?_, addrsL_sorted rs (k + 1), ?_⟩
    · rw [List.pairwise_map]
      exact (addrs_sorted r).imp (fun h => List.cons_lt_cons_iff.mpr (Or.inr ⟨rfl, h⟩))
    · intro a ha b hb
      obtain ⟨x, _, rfl⟩ := List.mem_map.mp ha
      obtain ⟨i, is, rfl, hi⟩ := addrsL_head_ge hb
      exact List.cons_lt_cons_iff.mpr (Or.inl (by omega))
end

theorem indentStr_eq (n : Nat) : indentStr n = blanks (3 * n) := by
  induction n with
  | zero => rfl
  | succ n ih =>
    rw [indentStr, ih, blanks, blanks]
    have : 3 * (n + 1) = 3 + 3 * n := by omega
    rw [this, ← List.replicate_append_replicate]
    rfl

theorem line_eq (d : Nat) (l : Level) (m : Str) :
    indentStr d ++ l.color ++ m ++ endc = expectedLine d l m := by
  rw [indentStr_eq]
  cases l <;> simp [expectedLine, Level.color, Level.value, ansi, endc]

/-- rendering of the node at an address -/
def lineAt (d : Nat) (r : Res Str) (a : List Nat) : Str :=
  match nodeAt r a with
  | some s => expectedLine (d + a.length) s.level s.msg
  | none => []

mutual
theorem toLines_eq : ∀ (r : Res Str) (d : Nat), toLines d r = (addrs r).map (lineAt d r)
  | .mk m l ss, d => by
    rw [toLines, addrs, List.map_cons, line_eq]
    congr 1
    rw [toLinesL_eq ss (d + 1) 0]
    apply List.map_congr_left
    intro a ha
    obtain ⟨i, is, rfl, _⟩ := addrsL_head_ge ha
    simp only [lineAt, nodeAt, Nat.sub_zero, List.length_cons]
    cases ss[i]? with
    | none => rfl
    | some s =>
      simp only
      cases nodeAt s is with
      | none => rfl
      | some t => simp only; congr 1; omega
theorem toLinesL_eq : ∀ (rs : List (Res Str)) (d k : Nat), toLinesL d rs =
    (addrsL k rs).map (fun a => match a with
      | [] => []
      | i :: is => match rs[i - k]? with
        | some s => lineAt d s is
        | none => [])
  | [], d, k => rfl
  | r :: rs, d, k => by
    rw [toLinesL, addrsL, List.map_append, toLines_eq r d, toLinesL_eq rs d (k + 1), List.map_map]
    congr 1
    · apply List.map_congr_left
      intro a _
      simp
    · apply List.map_congr_left
      intro a ha
      obtain ⟨i, is, rfl, hi⟩ := addrsL_head_ge ha
      simp only
      have : i - k = (i - (k + 1)) + 1 := by omega
      rw [this]; simp
end

end Res
end Verif
