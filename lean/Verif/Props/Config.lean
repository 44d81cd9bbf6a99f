import Verif.ConfigLemmas

/-! # C10, C11: test case filters -/

namespace Verif.Props
open Verif Spec Config

/-- What a filter text `INC~EXC` (or `INC` alone) means: the non-blank patterns of both parts. -/
def FilterText (s : Str) (incs excs : List Str) : Prop :=
  ∃ inc exc, (Parts (pc! '~') s [inc] ∧ exc = [] ∨ Parts (pc! '~') s [inc, exc]) ∧
    (∃ ts, Parts (pc! ':') inc ts ∧ ∀ p, p ∈ incs ↔ p ∈ ts ∧ ¬ Blank p) ∧
    (∃ ts, Parts (pc! ':') exc ts ∧ ∀ p, p ∈ excs ↔ p ∈ ts ∧ ¬ Blank p)

theorem mem_nonblank (ts : List Str) (p : Str) :
    p ∈ ts.filter (fun i => !(Py.strip i).isEmpty) ↔ p ∈ ts ∧ ¬ Blank p := by
  rw [List.mem_filter, ← strip_isEmpty]
  simp

theorem mkFilter_text {s : Str} {f : Filter} (h : mkFilter s = some f) :
    FilterText s f.includes f.excludes := by
  unfold mkFilter at h
  have hp := splitOn_parts (pc! '~') s
  split at h
  · rename_i inc hs
    injection h with h
    subst h
    rw [hs] at hp
    exact ⟨inc, [], Or.inl ⟨hp, rfl⟩, ⟨_, splitOn_parts _ inc, mem_nonblank _⟩, ⟨_, splitOn_parts _ [], mem_nonblank _⟩⟩
  · rename_i inc exc hs
    injection h with h
    subst h
    rw [hs] at hp
    exact ⟨inc, exc, Or.inr hp, ⟨_, splitOn_parts _ inc, mem_nonblank _⟩, ⟨_, splitOn_parts _ exc, mem_nonblank _⟩⟩
  · cases h

/-- the pattern lists are determined by the text -/
theorem filterText_unique {s : Str} {incs excs incs' excs' : List Str} (ht : FilterText s incs excs)
    (ht' : FilterText s incs' excs') : (∀ p, p ∈ incs ↔ p ∈ incs') ∧ (∀ p, p ∈ excs ↔ p ∈ excs') := by
  obtain ⟨inc, exc, hp, ⟨ts, hts, hi⟩, ⟨us, hus, he⟩⟩ := ht
  obtain ⟨inc', exc', hp', ⟨ts', hts', hi'⟩, ⟨us', hus', he'⟩⟩ := ht'
  have : inc = inc' ∧ exc = exc' := by
    rcases hp with ⟨hp, rfl⟩ | hp <;> rcases hp' with ⟨hp', rfl⟩ | hp'
    · have := parts_unique _ _ _ _ hp hp'
      injection this with h1 _
      exact ⟨h1, rfl⟩
    · have := parts_unique _ _ _ _ hp hp'
      simp at this
    · have := parts_unique _ _ _ _ hp hp'
      simp at this
    · have := parts_unique _ _ _ _ hp hp'
      injection this with h1 h2
      injection h2 with h2 _
      exact ⟨h1, h2⟩
  obtain ⟨rfl, rfl⟩ := this
  have e1 := parts_unique _ _ _ _ hts hts'
  have e2 := parts_unique _ _ _ _ hus hus'
  subst e1 e2
  exact ⟨fun p => by rw [hi, hi'], fun p => by rw [he, he']⟩

theorem selects_iff (f : Filter) (name : Str) : f.selects name = true ↔
    (f.includes = [] ∨ ∃ p ∈ f.includes, matchPat p name = true) ∧ ¬ ∃ p ∈ f.excludes, matchPat p name = true := by
  unfold Filter.selects
  cases hi : f.includes with
  | nil =>
    cases he : f.excludes with
    | nil => simp
    | cons e es => simp
  | cons i is =>
    cases he : f.excludes with
    | nil => simp
    | cons e es =>
      by_cases h : (i :: is).any (fun i => matchPat i name) = true
      · rw [h]
        have h' := List.any_eq_true.mp h
        simp only [List.isEmpty_cons, Bool.not_false, Bool.not_true, Bool.and_false, Bool.false_eq_true, if_false,
          Bool.true_and]
        cases ha : (e :: es).any (fun i => matchPat i name) with
        | true =>
          have := List.any_eq_true.mp ha
          simp only [if_true, Bool.false_eq_true, false_iff]
          intro ⟨_, h2⟩
          exact h2 this
        | false =>
          simp only [Bool.false_eq_true, if_false, true_iff]
          refine ⟨Or.inr h', ?_⟩
          intro h2
          rw [List.any_eq_true.mpr h2] at ha
          cases ha
      · have hf : (i :: is).any (fun i => matchPat i name) = false := by
          cases hh : (i :: is).any (fun i => matchPat i name) with
          | true => exact absurd hh h
          | false => rfl
        rw [hf]
        simp only [List.isEmpty_cons, Bool.not_false, Bool.and_true, if_true, Bool.false_eq_true, false_iff]
        rintro ⟨h1 | h1, _⟩
        · cases h1
        · exact h (List.any_eq_true.mpr h1)

/-- C10: an operation is selected by `INC~EXC` iff (there is no include pattern or one of them matches
the whole name) and no exclude pattern matches it. Patterns are shell patterns in the sense of
`Spec.Glob`. Partial: sets that begin with a reversed range followed by `!` (like `[b-a!x]`) are
excluded, see `C10_reversed_range_violated`. -/
theorem C10_selects_partial (s : Str) (f : Filter) (h : mkFilter s = some f) (incs excs : List Str)
    (ht : FilterText s incs excs) (htame : ∀ p, p ∈ incs ∨ p ∈ excs → TamePattern p) (name : Str) :
    f.selects name = true ↔ (incs = [] ∨ ∃ p ∈ incs, Glob p name) ∧ ¬ ∃ p ∈ excs, Glob p name := by
  have hsame := filterText_unique ht (mkFilter_text h)
  have hnil : incs = [] ↔ f.includes = [] := by
    rw [List.eq_nil_iff_forall_not_mem, List.eq_nil_iff_forall_not_mem]
    exact forall_congr' fun p => by rw [hsame.1]
  rw [selects_iff, hnil]
  have hinc : (∃ p ∈ f.includes, matchPat p name = true) ↔ ∃ p ∈ incs, Glob p name := by
    constructor
    · rintro ⟨p, hp, hm⟩
      have hp' := (hsame.1 p).mpr hp
      exact ⟨p, hp', (matchPat_spec (htame p (Or.inl hp')) name).mp hm⟩
    · rintro ⟨p, hp, hm⟩
      exact ⟨p, (hsame.1 p).mp hp, (matchPat_spec (htame p (Or.inl hp)) name).mpr hm⟩
  have hexc : (∃ p ∈ f.excludes, matchPat p name = true) ↔ ∃ p ∈ excs, Glob p name := by
    constructor
    · rintro ⟨p, hp, hm⟩
      have hp' := (hsame.2 p).mpr hp
      exact ⟨p, hp', (matchPat_spec (htame p (Or.inr hp')) name).mp hm⟩
    · rintro ⟨p, hp, hm⟩
      exact ⟨p, (hsame.2 p).mp hp, (matchPat_spec (htame p (Or.inr hp)) name).mpr hm⟩
  rw [hinc, hexc]

/-- patterns without brackets are always fine -/
theorem C10_no_brackets_tame (p : Str) (h : pc! '[' ∉ p) : TamePattern p := by
  intro pre q stuff rest e _
  exact absurd (by rw [e]; simp) h

/-- The filter `[b-a!x]` selects `q` and does not select `x`, although `x` is in the set and `q` is
not: `fnmatch` removes the empty range `b-a`, then takes the `!` for a negation. -/
theorem C10_reversed_range_violated :
    ∃ f, mkFilter py!"[b-a!x]" = some f ∧ f.selects py!"q" = true ∧ ¬ Glob py!"[b-a!x]" py!"q" ∧
      f.selects py!"x" = false ∧ Glob py!"[b-a!x]" py!"x" := by
  have hset : IsSet py!"b-a!x]" py!"b-a!x" [] :=
    ⟨[], pc! 'b', py!"-a!x", rfl, rfl, by decide, Or.inr ⟨rfl, by decide⟩⟩
  have hitems : ∀ c, InSet py!"b-a!x" c ↔ c = 33 ∨ c = 120 := by
    intro c
    simp [InSet, InItems, items]
    omega
  refine ⟨_, rfl, by decide, ?_, by decide, ?_⟩
  · intro h
    cases h with
    | set c hs hin _ =>
      have h1 := (takeSet_iff _ _ _).mpr hs
      have h2 := (takeSet_iff _ _ _).mpr hset
      rw [h1] at h2
      injection h2 with h2
      injection h2 with h2 _
      subst h2
      rw [hitems] at hin
      omega
  · exact .set _ hset ((hitems _).mpr (Or.inr rfl)) .nil

/-- C11: a filter is rejected iff there is more than one `~`. -/
theorem C11_malformed (s : Str) : mkFilter s = none ↔ 2 ≤ s.count (pc! '~') := by
  have hlen : ∀ s : Str, (Py.splitOn (pc! '~') s).length = s.count (pc! '~') + 1 := by
    intro s
    induction s with
    | nil => simp [Py.splitOn]
    | cons c s ih =>
      simp only [Py.splitOn]
      split
      · rename_i hc; subst hc; simp [ih]
      · rename_i hc
        obtain ⟨t, ts, hts⟩ := List.exists_cons_of_ne_nil (splitOn_ne_nil (pc! '~') s)
        rw [hts] at ih ⊢
        rw [List.count_cons]
        have hc' : (c == 126) = false := by simp [hc]
        rw [hc']
        simpa using ih
  have h := hlen s
  unfold mkFilter
  match hs : Py.splitOn (pc! '~') s with
  | [] => exact absurd hs (splitOn_ne_nil _ _)
  | [a] => rw [hs] at h; simp at h ⊢; omega
  | [a, b] => rw [hs] at h; simp at h ⊢; omega
  | a :: b :: c :: d => rw [hs] at h; simp at h ⊢; omega

/-- C11: a filter without any pattern, in particular the empty filter, selects everything. -/
theorem C11_blank_selects_all (s : Str) (f : Filter) (h : mkFilter s = some f)
    (hb : ∀ c ∈ s, Py.isSpace c = true ∨ c = pc! '~' ∨ c = pc! ':') (name : Str) : f.selects name = true := by
  obtain ⟨inc, exc, hp, ⟨ts, hts, hi⟩, ⟨us, hus, he⟩⟩ := mkFilter_text h
  have mem_join : ∀ (sep : Nat) (ts : List Str) (t : Str) (c : Nat), t ∈ ts → c ∈ t → c ∈ Py.join [sep] ts := by
    intro sep ts
    induction ts with
    | nil => intro t c ht; cases ht
    | cons u us ih =>
      intro t c ht hc
      cases us with
      | nil => simp at ht; subst ht; simpa [Py.join] using hc
      | cons v vs =>
        simp only [Py.join]
        rcases List.mem_cons.mp ht with rfl | ht
        · simp [hc]
        · have := ih t c ht hc
          simp [this]
  have hsub : (∀ c ∈ inc, c ∈ s) ∧ (∀ c ∈ exc, c ∈ s) := by
    rcases hp with ⟨hp, rfl⟩ | hp
    · refine ⟨?_, by intro c hc; cases hc⟩
      intro c hc
      rw [hp.2.2]
      exact mem_join _ _ _ _ List.mem_cons_self hc
    · constructor
      · intro c hc; rw [hp.2.2]; exact mem_join _ _ _ _ List.mem_cons_self hc
      · intro c hc; rw [hp.2.2]; exact mem_join _ _ exc _ (by simp) hc
  have hblank : ∀ x ts, Parts (pc! ':') x ts → (∀ c ∈ x, c ∈ s) → (∀ c ∈ x, c ≠ pc! '~') → ∀ p ∈ ts, Blank p := by
    intro x ts hx hs hn p hp c hc
    have hcx : c ∈ x := by rw [hx.2.2]; exact mem_join _ _ p _ hp hc
    rcases hb c (hs c hcx) with h | h | h
    · exact h
    · exact absurd h (hn c hcx)
    · subst h; exact absurd hc (hx.2.1 p hp)
  have hn : (∀ c ∈ inc, c ≠ pc! '~') ∧ (∀ c ∈ exc, c ≠ pc! '~') := by
    rcases hp with ⟨hp, rfl⟩ | hp
    · exact ⟨fun c hc e => hp.2.1 inc (by simp) (e ▸ hc), fun c hc => by cases hc⟩
    · exact ⟨fun c hc e => hp.2.1 inc (by simp) (e ▸ hc), fun c hc e => hp.2.1 exc (by simp) (e ▸ hc)⟩
  have h1 : f.includes = [] := by
    rw [List.eq_nil_iff_forall_not_mem]
    intro p hpm
    rw [hi] at hpm
    exact hpm.2 (hblank inc ts hts hsub.1 hn.1 p hpm.1)
  have h2 : f.excludes = [] := by
    rw [List.eq_nil_iff_forall_not_mem]
    intro p hpm
    rw [he] at hpm
    exact hpm.2 (hblank exc us hus hsub.2 hn.2 p hpm.1)
  rw [selects_iff, h1, h2]
  simp

/-- C11: adding an include pattern to a filter that has one never deselects an operation, adding an
exclude pattern never selects one. -/
theorem C11_monotone (s₁ s₂ : Str) (f₁ f₂ : Filter) (h₁ : mkFilter s₁ = some f₁) (h₂ : mkFilter s₂ = some f₂)
    (i₁ e₁ i₂ e₂ : List Str) (t₁ : FilterText s₁ i₁ e₁) (t₂ : FilterText s₂ i₂ e₂)
    (hi : i₁ ≠ [] ∧ (∀ p ∈ i₁, p ∈ i₂) ∨ i₂ = []) (he : ∀ p ∈ e₂, p ∈ e₁) (name : Str)
    (hs : f₁.selects name = true) : f₂.selects name = true := by
  rw [selects_iff] at hs ⊢
  have m₁ := filterText_unique t₁ (mkFilter_text h₁)
  have m₂ := filterText_unique t₂ (mkFilter_text h₂)
  constructor
  · rcases hi with ⟨hne, hsub⟩ | rfl
    · rcases hs.1 with h | ⟨p, hp, hm⟩
      · exfalso
        rw [List.eq_nil_iff_forall_not_mem] at h
        exact hne (List.eq_nil_iff_forall_not_mem.mpr fun p hp => h p ((m₁.1 p).mp hp))
      · exact Or.inr ⟨p, (m₂.1 p).mp (hsub p ((m₁.1 p).mpr hp)), hm⟩
    · left
      rw [List.eq_nil_iff_forall_not_mem]
      intro p hp
      have := (m₂.1 p).mpr hp
      cases this
  · rintro ⟨p, hp, hm⟩
    exact hs.2 ⟨p, (m₁.2 p).mp (he p ((m₂.2 p).mpr hp)), hm⟩

/-! ## concrete cases -/

/-- the hypotheses of the theorems above are satisfiable -/
theorem filterText_example : FilterText py!"Get*: ~GetA?l" [py!"Get*"] [py!"GetA?l"] := by
  have h : mkFilter py!"Get*: ~GetA?l" = some ⟨[py!"Get*"], [py!"GetA?l"]⟩ := rfl
  exact mkFilter_text h

example : ∃ f, mkFilter py!"Get*: ~GetA?l" = some f ∧ f.selects py!"GetOne" = true ∧ f.selects py!"GetAll" = false ∧
    f.selects py!"PutOne" = false := ⟨_, rfl, by decide, by decide, by decide⟩
example : ∀ p, p ∈ [py!"Get*"] ∨ p ∈ [py!"GetA?l"] → TamePattern p := by
  intro p hp
  simp only [List.mem_singleton] at hp
  rcases hp with rfl | rfl <;> exact C10_no_brackets_tame _ (by decide)
example : mkFilter py!"a~b~c" = none := by decide
example : ∃ f, mkFilter py!" : ~:" = some f ∧ f.selects py!"x" = true := ⟨_, rfl, by decide⟩
example : ∃ f, mkFilter py!"[!a-c]x*" = some f ∧ f.selects py!"dxyz" = true ∧ f.selects py!"bx" = false :=
  ⟨_, rfl, by decide, by decide⟩

end Verif.Props
