import Verif.Spec.Cli

/-!
# Lemmas about the command line
-/

namespace Verif.Cli
open Verif Verif.Http Verif.Generate Verif.Api Verif.Spec Verif.Spec.Api Verif.Spec.Cli

theorem contains_iff : ∀ (s t : Str), Py.contains s t = true ↔ Contains s t
  | [], t => by
    unfold Py.contains Contains
    cases t with
    | nil => exact ⟨fun _ => ⟨[], [], rfl⟩, fun _ => rfl⟩
    | cons c t =>
      refine ⟨fun h => (by cases h), fun ⟨a, b, h⟩ => ?_⟩
      simp at h
  | c :: s, t => by
    unfold Py.contains
    rw [Bool.or_eq_true, contains_iff s t, List.isPrefixOf_iff_prefix]
    constructor
    · rintro (⟨b, h⟩ | ⟨a, b, h⟩)
      · exact ⟨[], b, by simpa using h.symm⟩
      · exact ⟨c :: a, b, by simp [h]⟩
    · rintro ⟨a, b, h⟩
      cases a with
      | nil => exact .inl ⟨b, by simpa using h.symm⟩
      | cons x a =>
        simp only [List.cons_append, List.cons.injEq] at h
        exact .inr ⟨a, b, h.2⟩

theorem output_iff (o : Option Str) (out : Output) : Output.ofText (o.getD py!"text") = some out ↔ ReadsOutput o out := by
  unfold Output.ofText
  constructor
  · intro h
    cases o with
    | none => cases h; exact .default
    | some s =>
      dsimp only [Option.getD] at h
      split at h
      · rename_i hs; subst hs; cases h; exact .text
      split at h
      · rename_i hs; subst hs; cases h; exact .json
      split at h
      · rename_i hs; subst hs; cases h; exact .html
      cases h
  · intro h
    cases h <;> rfl

theorem format_iff (o : Option Str) (f : Format) : Format.ofText (o.getD py!"aasx") = some f ↔ ReadsFormat o f := by
  unfold Format.ofText
  constructor
  · intro h
    cases o with
    | none => cases h; exact .default
    | some s =>
      dsimp only [Option.getD] at h
      split at h
      · rename_i hs; subst hs; cases h; exact .xml
      split at h
      · rename_i hs; subst hs; cases h; exact .json
      split at h
      · rename_i hs; subst hs; cases h; exact .aasx
      cases h
  · intro h
    cases h <;> rfl

theorem splitOnce_iff (sep : Nat) : ∀ (s : Str) (r : Str × Str), splitOnce sep s = some r ↔ s = r.1 ++ sep :: r.2 ∧ sep ∉ r.1
  | [], r => by simp [splitOnce]
  | c :: s, r => by
    unfold splitOnce
    split
    · rename_i hc
      subst hc
      constructor
      · intro h; cases h; exact ⟨rfl, by simp⟩
      · rintro ⟨h, hn⟩
        obtain ⟨a, b⟩ := r
        cases a with
        | nil => simp only [List.nil_append, List.cons.injEq, true_and] at h; rw [h]
        | cons x a =>
          simp only [List.cons_append, List.cons.injEq] at h
          exact absurd (List.mem_cons.mpr (.inl h.1)) hn
    · rename_i hc
      rw [Option.map_eq_some_iff]
      constructor
      · rintro ⟨r', h, rfl⟩
        obtain ⟨h1, h2⟩ := (splitOnce_iff sep s r').mp h
        refine ⟨by simp [h1], ?_⟩
        simp only [List.mem_cons, not_or]
        exact ⟨fun h => hc h.symm, h2⟩
      · rintro ⟨h, hn⟩
        obtain ⟨a, b⟩ := r
        cases a with
        | nil => simp only [List.nil_append, List.cons.injEq] at h; exact absurd h.1 hc
        | cons x a =>
          simp only [List.cons_append, List.cons.injEq] at h
          obtain ⟨rfl, rfl⟩ := h
          exact ⟨(a, b), (splitOnce_iff sep _ (a, b)).mpr ⟨rfl, fun h => hn (List.mem_cons_of_mem _ h)⟩, rfl⟩

theorem header_iff (s : Str) (h : Str × Str) : parseHeaderValue s = some h ↔ ReadsHeader s h := by
  unfold parseHeaderValue ReadsHeader
  rw [Option.map_eq_some_iff]
  constructor
  · rintro ⟨r, h1, rfl⟩
    obtain ⟨h2, h3⟩ := (splitOnce_iff _ _ _).mp h1
    exact ⟨r.1, r.2, h2, h3, rfl⟩
  · rintro ⟨a, b, h1, h2, rfl⟩
    exact ⟨(a, b), (splitOnce_iff _ _ _).mpr ⟨h1, h2⟩, rfl⟩

theorem headers_iff : ∀ (l : List Str) (hs : List (Str × Str)), parseHeaders l = some hs ↔ ReadsHeaders l hs
  | [], hs => by
    unfold parseHeaders
    exact ⟨fun h => by cases h; exact .nil, fun h => by cases h; rfl⟩
  | s :: l, hs => by
    unfold parseHeaders
    constructor
    · intro h
      split at h
      · rename_i h1 h2
        cases h
        exact .cons ((header_iff _ _).mp h1) ((headers_iff _ _).mp h2)
      · cases h
    · intro h
      cases h with
      | cons h1 h2 => rw [(header_iff _ _).mpr h1, (headers_iff _ _).mpr h2]

theorem filter_iff (o : Option Str) (f : Option Config.Filter) : filterOf o = some f ↔ ReadsFilter o f := by
  cases o with
  | none => exact ⟨fun h => by cases h; exact .default, fun h => by cases h; rfl⟩
  | some s =>
    show (Config.mkFilter s).map some = some f ↔ _
    rw [Option.map_eq_some_iff]
    constructor
    · rintro ⟨g, h, rfl⟩; exact .given h
    · intro h
      cases h with
      | given h => exact ⟨_, h, rfl⟩

theorem printAll_eq (c : Console) : ∀ ls, (∀ l ∈ ls, c.encodes l = true) → printAll c ls = (ls, none)
  | [], _ => rfl
  | l :: ls, h => by
    unfold printAll
    rw [if_pos (h l List.mem_cons_self), printAll_eq c ls fun x hx => h x (List.mem_cons_of_mem _ hx)]

theorem printAll_fails (c : Console) : ∀ ls, (¬ ∀ l ∈ ls, c.encodes l = true) → ∃ out, printAll c ls = (out, some (excOf .unicodeEncodeError))
  | [], h => absurd (by simp) h
  | l :: ls, h => by
    unfold printAll
    by_cases hl : c.encodes l = true
    · rw [if_pos hl]
      obtain ⟨out, ho⟩ := printAll_fails c ls fun hh => h (List.forall_mem_cons.mpr ⟨hl, hh⟩)
      exact ⟨l :: out, by rw [ho]⟩
    · rw [if_neg hl]; exact ⟨[], rfl⟩

theorem report_printable {c : Console} {output : Output} {r : Res Str} (h : Printable c output r) :
    report c output r = { out := linesOf c output r, ended := .exit (if r.ok then 0 else 1) } := by
  unfold report
  rw [printAll_eq c _ h]

theorem report_fails {c : Console} {output : Output} {r : Res Str} (h : ¬ Printable c output r) : ((report c output r).ended).code = 1 := by
  unfold report
  obtain ⟨out, ho⟩ := printAll_fails c _ h
  rw [ho]
  rfl

theorem report_code (c : Console) (output : Output) (r : Res Str) : ((report c output r).ended).code = 0 ↔ r.ok = true ∧ Printable c output r := by
  by_cases h : Printable c output r
  · rw [report_printable h]
    show (if r.ok then 0 else 1) = 0 ↔ _
    cases r.ok <;> simp [h]
  · rw [report_fails h]
    simp [h]

/-- the names that contain the text -/
theorem filter_cases (names : List Str) (hn : names.Nodup) (t : Str) :
    (∃ s, names.filter (fun i => Py.contains i t) = [s] ∧ Only names t s) ∨
    ((∀ s, names.filter (fun i => Py.contains i t) ≠ [s]) ∧ ¬ ∃ s, Only names t s) := by
  have hmem : ∀ s, s ∈ names.filter (fun i => Py.contains i t) ↔ s ∈ names ∧ Contains s t := by
    intro s; rw [List.mem_filter, contains_iff]
  have hnd := hn.filter (fun i => Py.contains i t)
  cases hf : names.filter (fun i => Py.contains i t) with
  | nil =>
    rw [hf] at hmem
    refine .inr ⟨fun s h => (by cases h), fun ⟨s, h1, h2, _⟩ => ?_⟩
    exact absurd ((hmem s).mpr ⟨h1, h2⟩) (by simp)
  | cons s l =>
    rw [hf] at hmem hnd
    cases l with
    | nil =>
      obtain ⟨h1, h2⟩ := (hmem s).mp List.mem_cons_self
      exact .inl ⟨s, rfl, h1, h2, fun s' h3 h4 => by simpa using (hmem s').mpr ⟨h3, h4⟩⟩
    | cons s2 l =>
      refine .inr ⟨fun s h => (by cases h), fun ⟨x, _, _, hx⟩ => ?_⟩
      obtain ⟨a1, a2⟩ := (hmem s).mp List.mem_cons_self
      obtain ⟨b1, b2⟩ := (hmem s2).mp (List.mem_cons_of_mem _ List.mem_cons_self)
      have := (hx s a1 a2).trans (hx s2 b1 b2).symm
      subst this
      simp at hnd

/-! ## dictionaries -/

theorem setKey_mem (k v : Str) : ∀ (d : List (Str × Str)), (d.map (·.1)).Nodup → ∀ e, e ∈ setKey k v d ↔ e = (k, v) ∨ (e ∈ d ∧ e.1 ≠ k)
  | [], _, e => by simp [setKey]
  | x :: d, hn, e => by
    simp only [List.map_cons, List.nodup_cons] at hn
    unfold setKey
    split
    · rename_i hk
      constructor
      · intro h
        rcases List.mem_cons.mp h with rfl | h
        · exact .inl rfl
        · refine .inr ⟨List.mem_cons_of_mem _ h, fun hek => hn.1 ?_⟩
          rw [hk, ← hek]
          exact List.mem_map_of_mem h
      · rintro (rfl | ⟨h, hne⟩)
        · exact List.mem_cons_self
        · rcases List.mem_cons.mp h with rfl | h
          · exact absurd hk hne
          · exact List.mem_cons_of_mem _ h
    · rename_i hk
      rw [List.mem_cons, setKey_mem k v d hn.2 e]
      constructor
      · rintro (rfl | rfl | ⟨h, hne⟩)
        · exact .inr ⟨List.mem_cons_self, hk⟩
        · exact .inl rfl
        · exact .inr ⟨List.mem_cons_of_mem _ h, hne⟩
      · rintro (rfl | ⟨h, hne⟩)
        · exact .inr (.inl rfl)
        · rcases List.mem_cons.mp h with rfl | h
          · exact .inl rfl
          · exact .inr (.inr ⟨h, hne⟩)

theorem setKey_keys (k v : Str) : ∀ (d : List (Str × Str)), (setKey k v d).map (·.1) = if k ∈ d.map (·.1) then d.map (·.1) else d.map (·.1) ++ [k]
  | [] => by simp [setKey]
  | x :: d => by
    unfold setKey
    split
    · rename_i hk
      simp [hk]
    · rename_i hk
      have hk' : ¬ k = x.1 := fun h => hk h.symm
      simp only [List.map_cons, setKey_keys k v d, List.mem_cons, hk', false_or]
      split <;> simp

theorem setKey_nodup (k v : Str) {d : List (Str × Str)} (h : (d.map (·.1)).Nodup) : ((setKey k v d).map (·.1)).Nodup := by
  rw [setKey_keys]
  split
  · exact h
  · rename_i hk
    rw [List.nodup_append]
    exact ⟨h, by simp, fun a ha b hb => by simp at hb; subst hb; exact fun h => hk (h ▸ ha)⟩

theorem dict_from : ∀ (l d : List (Str × Str)), (d.map (·.1)).Nodup →
    ((l.foldl (fun d e => setKey e.1 e.2 d) d).map (·.1)).Nodup ∧
    ∀ k v, (k, v) ∈ l.foldl (fun d e => setKey e.1 e.2 d) d ↔ LastValue l k v ∨ ((k, v) ∈ d ∧ ∀ e ∈ l, e.1 ≠ k)
  | [], d, hd => by
    refine ⟨hd, fun k v => ?_⟩
    constructor
    · intro h; exact .inr ⟨h, by simp⟩
    · rintro (⟨a, b, h, _⟩ | ⟨h, _⟩)
      · simp at h
      · exact h
  | x :: l, d, hd => by
    obtain ⟨h1, h2⟩ := dict_from l (setKey x.1 x.2 d) (setKey_nodup x.1 x.2 hd)
    refine ⟨h1, fun k v => (h2 k v).trans ?_⟩
    rw [setKey_mem _ _ _ hd]
    constructor
    · rintro (⟨a, b, rfl, hb⟩ | ⟨h | ⟨h, hk⟩, hl⟩)
      · exact .inl ⟨x :: a, b, rfl, hb⟩
      · refine .inl ⟨[], l, ?_, hl⟩
        rw [h]; rfl
      · exact .inr ⟨h, List.forall_mem_cons.mpr ⟨fun h => hk h.symm, hl⟩⟩
    · rintro (⟨a, b, h, hb⟩ | ⟨h, hl⟩)
      · cases a with
        | nil =>
          simp only [List.nil_append, List.cons.injEq] at h
          obtain ⟨rfl, rfl⟩ := h
          exact .inr ⟨.inl rfl, hb⟩
        | cons y a =>
          simp only [List.cons_append, List.cons.injEq] at h
          exact .inl ⟨a, b, h.2, hb⟩
      · obtain ⟨hx, hl⟩ := List.forall_mem_cons.mp hl
        exact .inr ⟨.inr ⟨h, fun hk => hx hk.symm⟩, hl⟩

end Verif.Cli
