import Verif.Spec.Bin
import Verif.RegexLemmas

/-!
# C95, C96: the scripts in `bin`
-/

namespace Verif.Props
open Verif Verif.Bin Verif.DataTypes Verif.Spec.Bin

/-! ## C95 -/

theorem fence_iff (l : Str) : Py.startsWith l fence = true ↔ Fence l := by
  rw [Py.startsWith, List.isPrefixOf_iff_prefix]
  exact ⟨fun ⟨t, h⟩ => ⟨t, h.symm⟩, fun ⟨t, h⟩ => ⟨t, h.symm⟩⟩

theorem marker_iff (l : Str) : Py.startsWith l disableCheck = true ↔ Marker l := by
  rw [Py.startsWith, List.isPrefixOf_iff_prefix]
  exact ⟨fun ⟨t, h⟩ => ⟨t, h.symm⟩, fun ⟨t, h⟩ => ⟨t, h.symm⟩⟩

theorem not_both {l : Str} (h : Fence l) : ¬ Marker l := by
  rintro ⟨t, rfl⟩
  obtain ⟨u, h⟩ := h
  injection h with h1
  exact absurd h1 (by decide)

/-- the step, by the kind of the line -/
theorem step_fence {l : Str} (h : Fence l) (st : Found) : step st l =
    match st.lastBlock with
    | none => some { st with lastBlock := some { lang := Py.strip (l.drop 3), check := st.checkNext }, checkNext := true }
    | some b => some { st with blocks := st.blocks ++ [b], lastBlock := none } := by
  rw [step, if_pos ((fence_iff l).mpr h)]
  cases st.lastBlock <;> rfl

theorem step_marker {l : Str} (h : Marker l) (st : Found) : step st l =
    match st.lastBlock with
    | some _ => none
    | none => some { st with checkNext := false } := by
  rw [step, if_neg fun hf => not_both ((fence_iff l).mp hf) h, if_pos ((marker_iff l).mpr h)]
  cases st.lastBlock <;> rfl

theorem step_plain {l : Str} (h : Plain l) (st : Found) : step st l =
    match st.lastBlock with
    | some b => some { st with lastBlock := some { b with content := b.content ++ l } }
    | none => some st := by
  rw [step, if_neg fun hf => h.1 ((fence_iff l).mp hf), if_neg fun hm => h.2 ((marker_iff l).mp hm)]
  cases st.lastBlock <;> rfl

theorem kinds (l : Str) : Fence l ∨ Marker l ∨ Plain l := by
  by_cases h1 : Fence l
  · exact .inl h1
  · by_cases h2 : Marker l
    · exact .inr (.inl h2)
    · exact .inr (.inr ⟨h1, h2⟩)

/-- inside a block: the next fence or marker decides -/
theorem scan_body : ∀ (body : List Str) (_ : ∀ x ∈ body, Plain x) (bs : List Block) (b : Block) (c : Bool) (rest : List Str),
    scan ⟨bs, some b, c⟩ (body ++ rest) = scan ⟨bs, some { b with content := b.content ++ body.flatten }, c⟩ rest
  | [], _, bs, b, c, rest => by simp
  | l :: body, h, bs, b, c, rest => by
    rw [List.cons_append, scan, step_plain (h l (by simp))]
    simp only
    rw [scan_body body (fun x hx => h x (by simp [hx]))]
    simp

theorem split_body : ∀ ls : List Str, (∀ x ∈ ls, Plain x) ∨
    ∃ body l rest, ls = body ++ l :: rest ∧ (∀ x ∈ body, Plain x) ∧ (Fence l ∨ Marker l)
  | [] => .inl (by simp)
  | l :: ls => by
    rcases kinds l with h | h | h
    · exact .inr ⟨[], l, ls, rfl, by simp, .inl h⟩
    · exact .inr ⟨[], l, ls, rfl, by simp, .inr h⟩
    · rcases split_body ls with h' | ⟨body, m, rest, rfl, h1, h2⟩
      · exact .inl (by
          intro x hx
          rcases List.mem_cons.mp hx with rfl | hx
          · exact h
          · exact h' x hx)
      · exact .inr ⟨l :: body, m, rest, rfl, by
          intro x hx
          rcases List.mem_cons.mp hx with rfl | hx
          · exact h
          · exact h1 x hx, h2⟩

theorem scan_blocks {c : Bool} {ls : List Str} {bs : List Block} (h : Blocks c ls bs) (tail : List Str) : ∀ bs0 : List Block,
    ∃ c', scan ⟨bs0, none, c⟩ (ls ++ tail) = scan ⟨bs0 ++ bs, none, c'⟩ tail := by
  induction h with
  | @nil c => exact fun bs0 => ⟨c, by simp⟩
  | text hp _ ih =>
    intro bs0
    obtain ⟨c', h⟩ := ih bs0
    exact ⟨c', by rw [List.cons_append, scan, step_plain hp]; exact h⟩
  | marker hm _ ih =>
    intro bs0
    obtain ⟨c', h⟩ := ih bs0
    exact ⟨c', by rw [List.cons_append, scan, step_marker hm]; exact h⟩
  | @block c lang body l ls bs hp hl _ ih =>
    intro bs0
    obtain ⟨c', h⟩ := ih (bs0 ++ [⟨Py.strip lang, c, body.flatten⟩])
    refine ⟨c', ?_⟩
    rw [List.cons_append, List.cons_append, scan, step_fence ⟨lang, rfl⟩]
    simp only [List.append_assoc, List.cons_append]
    rw [scan_body body hp, scan, step_fence hl]
    simp only [List.nil_append]
    simpa using h

/-- every list of lines consists of closed blocks and other lines, and maybe a block that is not closed, or a marker in a block -/
theorem three_cases : ∀ (n : Nat) (ls : List Str), ls.length ≤ n → ∀ c, ∃ a tail bs, ls = a ++ tail ∧ Blocks c a bs ∧ (tail = [] ∨ Open tail ∨ Misplaced tail)
  | _, [], _, c => ⟨[], [], [], rfl, .nil, .inl rfl⟩
  | 0, l :: ls, h, c => by simp at h
  | n + 1, l :: ls, h, c => by
    have hn : ls.length ≤ n := by simpa using h
    rcases kinds l with hl | hl | hl
    · rcases split_body ls with hb | ⟨body, m, rest, rfl, hb, hm⟩
      · exact ⟨[], l :: ls, [], rfl, .nil, .inr (.inl (.mk hl hb))⟩
      · rcases hm with hm | hm
        · obtain ⟨a, tail, bs, rfl, h1, h2⟩ := three_cases n rest (by simp at hn; omega) true
          obtain ⟨lang, rfl⟩ := hl
          exact ⟨_, tail, _, by simp, .block (c := c) (lang := lang) hb hm h1, h2⟩
        · exact ⟨[], l :: (body ++ m :: rest), [], rfl, .nil, .inr (.inr (.mk hl hb hm))⟩
    · obtain ⟨a, tail, bs, rfl, h1, h2⟩ := three_cases n ls hn false
      exact ⟨l :: a, tail, bs, rfl, .marker hl h1, h2⟩
    · obtain ⟨a, tail, bs, rfl, h1, h2⟩ := three_cases n ls hn c
      exact ⟨l :: a, tail, bs, rfl, .text hl h1, h2⟩

theorem read_closed {ls : List Str} {bs : List Block} (h : Blocks true ls bs) : readmeBlocks ls = some bs := by
  obtain ⟨c, h⟩ := scan_blocks h [] []
  rw [List.append_nil] at h
  rw [readmeBlocks, show ({} : Found) = ⟨[], none, true⟩ from rfl, h]
  rfl

theorem read_open {a tail : List Str} {bs : List Block} (h : Blocks true a bs) (ht : Open tail) : readmeBlocks (a ++ tail) = some bs := by
  obtain ⟨c, h⟩ := scan_blocks h tail []
  rw [readmeBlocks, show ({} : Found) = ⟨[], none, true⟩ from rfl, h]
  cases ht with
  | @mk l body hl hb =>
    rw [scan, step_fence hl]
    simp only
    have := scan_body body hb ([] ++ bs) { lang := Py.strip (l.drop 3), check := c } true []
    rw [List.append_nil] at this
    rw [this]
    simp [scan]

theorem read_misplaced {a tail : List Str} {bs : List Block} (h : Blocks true a bs) (ht : Misplaced tail) : readmeBlocks (a ++ tail) = none := by
  obtain ⟨c, h⟩ := scan_blocks h tail []
  rw [readmeBlocks, show ({} : Found) = ⟨[], none, true⟩ from rfl, h]
  cases ht with
  | @mk l body m rest hl hb hm =>
    rw [List.cons_append, scan, step_fence hl]
    simp only
    rw [scan_body body hb, scan, step_marker hm]
    rfl

/-- C95: of a README whose blocks are closed exactly the blocks are found, in order, with their contents; the markers belong to the next
block each. Missing: a last block that is not closed. -/
theorem C95_blocks_partial (lines : List Str) (hc : ¬ ∃ a tail bs, lines = a ++ tail ∧ Blocks true a bs ∧ Open tail) (bs : List Block) :
    readmeBlocks lines = some bs ↔ Blocks true lines bs := by
  refine ⟨fun h => ?_, read_closed⟩
  obtain ⟨a, tail, bs', rfl, h1, h2 | h2 | h2⟩ := three_cases _ lines (Nat.le_refl _) true
  · subst h2
    rw [List.append_nil] at h ⊢
    rw [read_closed h1] at h
    cases h
    exact h1
  · exact absurd ⟨a, tail, bs', rfl, h1, h2⟩ hc
  · rw [read_misplaced h1 h2] at h; cases h

/-- C95: an exception is raised iff there is a marker in a block. -/
theorem C95_raises (lines : List Str) : readmeBlocks lines = none ↔ ∃ a tail bs, lines = a ++ tail ∧ Blocks true a bs ∧ Misplaced tail := by
  refine ⟨fun h => ?_, fun ⟨a, tail, bs, e, h1, h2⟩ => e ▸ read_misplaced h1 h2⟩
  obtain ⟨a, tail, bs, rfl, h1, h2 | h2 | h2⟩ := three_cases _ lines (Nat.le_refl _) true
  · subst h2
    rw [List.append_nil, read_closed h1] at h
    cases h
  · rw [read_open h1 h2] at h; cases h
  · exact ⟨a, tail, bs, rfl, h1, h2⟩

/-- C95 fails for a last block that is not closed: whatever it contains, it is left out, and nothing is said. -/
theorem C95_open_violated (lines tail : List Str) (bs : List Block) (h : Blocks true lines bs) (ht : Open tail) :
    readmeBlocks (lines ++ tail) = some bs := read_open h ht

/-- C95: exactly the blocks without a marker are run, as they are. -/
theorem C95_executed (bs : List Block) (s : Str) : s ∈ executed bs ↔ ∃ b ∈ bs, b.check = true ∧ b.content = s := by
  simp only [executed, List.mem_map, List.mem_filter, and_assoc]

example : Blocks true [py!"text\n", py!"<!-- no-check -->\n", py!"\n", py!"```sh\n", py!"ls\n", py!"```\n", py!"```python\n", py!"a\n", py!"b\n", py!"```"]
    [⟨py!"sh", false, py!"ls\n"⟩, ⟨py!"python", true, py!"a\nb\n"⟩] := by
  have plain : ∀ l : Str, Py.startsWith l fence = false → Py.startsWith l disableCheck = false → Plain l := fun l h1 h2 =>
    ⟨fun h => (by rw [(fence_iff l).mpr h] at h1; cases h1), fun h => (by rw [(marker_iff l).mpr h] at h2; cases h2)⟩
  refine .text (plain _ (by decide) (by decide)) (.marker ⟨_, rfl⟩ (.text (plain _ (by decide) (by decide)) ?_))
  refine Blocks.block (lang := py!"sh\n") (body := [py!"ls\n"]) (l := py!"```\n") (fun x hx => ?_) ⟨_, rfl⟩ ?_
  · rw [List.mem_singleton.mp hx]; exact plain _ (by decide) (by decide)
  · refine Blocks.block (lang := py!"python\n") (body := [py!"a\n", py!"b\n"]) (l := py!"```") (fun x hx => ?_) ⟨[], rfl⟩ .nil
    rcases List.mem_cons.mp hx with rfl | hx
    · exact plain _ (by decide) (by decide)
    · rw [List.mem_singleton.mp hx]; exact plain _ (by decide) (by decide)
example : readmeBlocks [py!"```python\n", py!"raise Exception()\n"] = some [] := by decide
example : readmeBlocks [py!"```python\n", py!"<!-- no-check -->\n", py!"```\n"] = none := by decide

/-! ## C96 -/

theorem matches_digits (s : Str) : Re.Matches (Re.plus anyDigit) s ↔ s ≠ [] ∧ ∀ x ∈ s, Digit x := by
  rw [anyDigit, Re.matches_plus_cls]
  refine and_congr Iff.rfl (forall_congr' fun x => imp_congr_right fun _ => ?_)
  simp [Re.inCls, Digit]

theorem tag_iff (s : Str) : Re.fullmatch tagPattern s = true ↔ ∃ v, s = py!"v" ++ v ∧ Version Digit v := by
  rw [Re.fullmatch_iff, tagPattern]
  simp only [Re.matches_seqs_cons, Re.matches_seqs_one, Re.matches_lit, matches_digits]
  constructor
  · rintro ⟨_, _, rfl, rfl, a, _, rfl, ha, _, _, rfl, rfl, b, _, rfl, hb, _, c, rfl, rfl, hc⟩
    exact ⟨_, rfl, a, b, c, by simp, by simp only [List.mem_cons, List.not_mem_nil, or_false]; rintro n (rfl | rfl | rfl) <;> assumption⟩
  · rintro ⟨_, rfl, a, b, c, rfl, h⟩
    exact ⟨_, _, rfl, rfl, a, py!"." ++ (b ++ (py!"." ++ c)), by simp, h a (by simp), _, _, rfl, rfl, b, _, rfl, h b (by simp), _, c, rfl, rfl, h c (by simp)⟩

/-- C96: the script passes iff the output of git, without white space around it, is `v` and a version (of digits of any script), and both
files have the line with this version. -/
theorem C96_release_partial (output : Str) (pyproject init : List Str) : versionsOk output pyproject init = true ↔
    ∃ v, Py.strip output = py!"v" ++ v ∧ Version Digit v ∧ py!"version = \"" ++ v ++ py!"\"\n" ∈ pyproject ∧ py!"    return \"" ++ v ++ py!"\"\n" ∈ init := by
  have hl : ∀ (e : Str) (lines : List Str), lineInFile e lines = true ↔ e ++ [10] ∈ lines := by
    intro e lines
    simp [lineInFile]
  unfold versionsOk
  dsimp only
  by_cases h1 : (Py.strip output).isEmpty = true
  · rw [if_pos h1]
    refine ⟨fun h => (by cases h), fun ⟨v, h, _⟩ => ?_⟩
    rw [h] at h1; cases h1
  · rw [if_neg h1]
    by_cases h2 : Re.fullmatch tagPattern (Py.strip output) = true
    · rw [if_neg (by rw [h2]; decide)]
      obtain ⟨v, hv, hver⟩ := (tag_iff _).mp h2
      rw [hv, Bool.and_eq_true, hl, hl]
      simp only [List.cons_append, List.nil_append, List.drop_succ_cons, List.drop_zero, List.append_assoc]
      constructor
      · rintro ⟨h3, h4⟩
        exact ⟨v, rfl, hver, h3, h4⟩
      · rintro ⟨w, hw, _, h3, h4⟩
        injection hw with _ hw
        subst hw
        exact ⟨h3, h4⟩
    · rw [if_pos (by rw [Bool.not_eq_true] at h2; rw [h2]; rfl)]
      refine ⟨fun h => (by cases h), fun ⟨v, h, hver, _⟩ => absurd ((tag_iff _).mpr ⟨v, h, hver⟩) h2⟩

/-- the files as they are: pyproject.toml 5-8 (the other lines do not begin with `version`) and aas_test_engines/\_\_init\_\_.py -/
def pyprojectLines : List Str :=
  [py!"[project]\n", py!"name = \"aas_test_engines\"\n", py!"version = \"1.0.2\"\n", py!"description = \"Official test tooling for the Asset Administration Shell\"\n"]
def initLines : List Str := [py!"def version() -> str:\n", py!"    return \"1.0.2\"\n"]

/-- C96: with these files the script passes for one tag only. -/
theorem C96_current (output : Str) : versionsOk output pyprojectLines initLines = true ↔ Py.strip output = py!"v1.0.2" := by
  rw [C96_release_partial]
  constructor
  · rintro ⟨v, hv, _, _, h⟩
    simp only [initLines, List.mem_cons, List.not_mem_nil, or_false] at h
    rcases h with h | h
    · injection h with h; cases h
    · rw [hv]
      have e : ∀ x : Str, py!"    return \"" ++ x ++ py!"\"\n" = py!"    return \"1.0.2\"\n" → x = py!"1.0.2" := fun x h => by
        have h' : py!"    return \"" ++ (x ++ py!"\"\n") = py!"    return \"" ++ (py!"1.0.2" ++ py!"\"\n") := by
          rw [← List.append_assoc]; exact h
        exact List.append_cancel_right (List.append_cancel_left h')
      rw [e v h]
      rfl
  · intro h
    refine ⟨py!"1.0.2", h, ⟨py!"1", py!"0", py!"2", rfl, ?_⟩, by decide, by decide⟩
    have one : ∀ c, 48 ≤ c → c ≤ 57 → Digit c := fun c h1 h2 => ⟨48, by decide, h1, h2⟩
    simp only [List.mem_cons, List.not_mem_nil, or_false]
    rintro n (rfl | rfl | rfl) <;> refine ⟨by decide, fun x hx => ?_⟩ <;> rw [List.mem_singleton.mp hx] <;> exact one _ (by decide) (by decide)

/-- C96 fails for digits of other scripts: they are accepted. -/
theorem C96_digits_violated : versionsOk ([pc! 'v', 0x661, pc! '.', 0x660, pc! '.', 0x662, 10]) [py!"version = \"" ++ [0x661, pc! '.', 0x660, pc! '.', 0x662] ++ py!"\"\n"]
    [py!"    return \"" ++ [0x661, pc! '.', 0x660, pc! '.', 0x662] ++ py!"\"\n"] = true ∧ ¬ Version (fun c => 48 ≤ c ∧ c ≤ 57) [0x661, pc! '.', 0x660, pc! '.', 0x662] := by
  refine ⟨by decide +kernel, ?_⟩
  rintro ⟨a, b, c, h, hd⟩
  obtain ⟨hne, ha⟩ := hd a (by simp)
  cases a with
  | nil => exact hne rfl
  | cons x a =>
    injection h with h1
    have := (ha x (by simp)).2
    rw [← h1] at this
    exact absurd this (by decide)

example : versionsOk py!"v1.0.2\n" pyprojectLines initLines = true := by decide +kernel
example : versionsOk py!"v1.0.2\nv1.0.3\n" pyprojectLines initLines = false := by decide +kernel

end Verif.Props
