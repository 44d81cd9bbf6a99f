import Verif.JsonDumpsLemmas
import Verif.Props.JsonText
import Verif.Props.Result
import Verif.Props.Cli

/-!
# C79: writing JSON

`json.dumps`, and the output of the command line with `--output json`.
-/

namespace Verif.Props
open Verif.Parse (Xml)
open Verif Verif.JsonText Verif.Spec.JsonText Verif.Cli Verif.Spec.Cli

/-- What is written is read again as the same value. -/
theorem C79_round_trip {p : Nums} {real : Nat → Str} {j : Json} (h : Plainly p real j) : loads p (dumps real j) = .ok j :=
  (C77_reads _ _ _).mpr (dumps_denotes h)

/-- Texts: two surrogates in a row that are a pair become one character; everything else is kept. -/
theorem C79_strings (p : Nums) (real : Nat → Str) {s : Str} (hs : ∀ c ∈ s, c < 0x110000) (t : Str) :
    loads p (dumps real (.str s)) = .ok (.str t) ↔ Joined s t := by
  have key : ∀ {t}, Joined s t → loads p (dumps real (.str s)) = .ok (.str t) := fun h =>
    (C77_reads _ _ _).mpr ⟨[], _, [], by simp [dumps, Generate.dumpsStr], ws_nil, ws_nil, .string (dumps_chars h hs)⟩
  refine ⟨fun h => ?_, key⟩
  obtain ⟨t', ht'⟩ := joined_total s
  rw [key ht'] at h
  cases h
  exact ht'

/-- Exactly the texts without such pairs are read again as the same text. -/
theorem C79_pairs (p : Nums) (real : Nat → Str) {s : Str} (hs : ∀ c ∈ s, c < 0x110000) :
    loads p (dumps real (.str s)) = .ok (.str s) ↔ ¬ ∃ a m n b, s = a ++ m :: n :: b ∧ High m ∧ Low n := by
  rw [C79_strings p real hs]
  exact ⟨fun h => joined_fixed h rfl, fun h => joined_self ⟨hs, h⟩⟩

/-- Only characters of ASCII that can be printed are written. -/
theorem C79_ascii {real : Nat → Str} (hr : ∀ n, ∀ c ∈ real n, 32 ≤ c ∧ c < 127) (j : Json) : ∀ c ∈ dumps real j, 32 ≤ c ∧ c < 127 :=
  dumps_ascii' hr j

/-! ## results -/

mutual
theorem dict_plainly {p : Nums} (hp : p.lim ≠ some 0) (real : Nat → Str) : ∀ r : Res Str, (∀ a s, Spec.nodeAt r a = some s → Unpaired s.msg) →
    Plainly p real (Res.toDict r)
  | .mk m l ss, h => by
    have hkey : ∀ c, c < 127 → Unpaired [c] := by
      refine fun c hc => ⟨fun x hx => by simp at hx; omega, ?_⟩
      rintro ⟨a, m, n, b, he, -⟩
      have := congrArg List.length he
      simp at this
      omega
    have hm : Unpaired m := h [] _ rfl
    have hl : Plainly p real (.num l.value) := by
      refine .num _ fun k hk => ?_
      have h0 : 0 < k := by
        refine Nat.pos_of_ne_zero ?_
        rintro rfl
        exact hp hk
      have h1 : 10 ^ 1 ≤ 10 ^ k := Nat.pow_le_pow_right (by decide) h0
      refine ⟨h0, ?_⟩
      have h2 : l.value < 4 := by cases l <;> decide
      show l.value < 10 ^ k
      omega
    have hs : Plainly p real (.arr (Res.toDictL ss)) := .arr (dictL_plainly hp real ss fun i r hi a s ha => h (i :: a) s (by
      rw [Spec.nodeAt, hi]
      exact ha))
    unfold Res.toDict
    refine .obj ?_ ?_ (show List.Nodup [py!"m", py!"l", py!"s"] by decide)
    · intro e he
      simp only [List.mem_cons, List.not_mem_nil, or_false] at he
      rcases he with rfl | rfl | rfl <;> exact hkey _ (by decide)
    · intro e he
      simp only [List.mem_cons, List.not_mem_nil, or_false] at he
      rcases he with rfl | rfl | rfl
      · exact .str hm
      · exact hl
      · exact hs
theorem dictL_plainly {p : Nums} (hp : p.lim ≠ some 0) (real : Nat → Str) : ∀ l : List (Res Str),
    (∀ (i : Nat) r, l[i]? = some r → ∀ a s, Spec.nodeAt r a = some s → Unpaired s.msg) → ∀ j ∈ Res.toDictL l, Plainly p real j
  | [], _ => by simp [Res.toDictL]
  | r :: rs, h => by
    intro j hj
    simp only [Res.toDictL, List.mem_cons] at hj
    rcases hj with rfl | hj
    · exact dict_plainly hp real r (h 0 r rfl)
    · exact dictL_plainly hp real rs (fun i r hi => h (i + 1) r (by simpa using hi)) j hj
end

/-- a console that can print ASCII -/
def PrintsAscii (c : Console) : Prop := ∀ l : Str, (∀ x ∈ l, 32 ≤ x ∧ x < 127) → c.encodes l = true

/-- `check_file --output json` prints one line of ASCII, whatever the messages of the result, and ends with the code for the result. If the levels of the
result are consistent, as those of all results made by the engine (C01), and no message has a pair of separate surrogates, then this line can be
read by `json.loads` and `AasTestResult.from_json`, which gives the result back. -/
theorem C79_output (c : Console) (hc : PrintsAscii c) (g : File.Engine Json Xml) (args : FileArgs) (format : Format) (r : Res Str)
    (hf : ReadsFormat args.format format) (ho : args.output = some py!"json")
    (h : checkFile g args.file (args.modelType.getD py!"Environment") format = .ok r) :
    ∃ line, runFileTest c g args = { out := [line], ended := .exit (if r.ok then 0 else 1) } ∧ (∀ x ∈ line, 32 ≤ x ∧ x < 127) ∧
      ∀ p : Nums, p.lim ≠ some 0 → (∀ a s, Spec.nodeAt r a = some s → Unpaired s.msg) → Spec.Consistent r →
        ∃ j, loads p line = .ok j ∧ Res.fromJson j = .ok (r.mapMsg Json.str) := by
  have ha : ∀ x ∈ dumps (fun _ => []) (Res.toDict r), 32 ≤ x ∧ x < 127 := C79_ascii (by simp) _
  refine ⟨dumps (fun _ => []) (Res.toDict r), ?_, ha, fun p hp hm hr => ⟨_, C79_round_trip (dict_plainly hp _ r hm), (C03_iff_consistent r).2.mpr hr⟩⟩
  exact C58_printed c g args format .json r hf (by rw [ho]; exact .json) h fun l hl => by
    simp only [linesOf, List.mem_cons, List.not_mem_nil, or_false] at hl
    subst hl
    exact hc _ ha

/-! ## examples -/

namespace JsonSamples
/-- one number with a fraction -/
def halves : Nums := ⟨some 100, fun t => if t = py!"0.5" then .inr 0 else .inl 0⟩
def written : Json := .obj [(py!"a\"", .arr [.null, .num (-12), .float 0, .str [0xe9, 10, 0x1f600, 0xd83d]]), (py!"b", .obj [])]
end JsonSamples
open JsonSamples

example : dumps (fun _ => py!"0.5") written = py!"{\"a\\\"\": [null, -12, 0.5, \"\\u00e9\\n\\ud83d\\ude00\\ud83d\"], \"b\": {}}" := by decide +kernel
theorem written_plain : Plainly halves (fun _ => py!"0.5") written := by
  have hu : ∀ s : Str, (∀ c ∈ s, c < 0x110000) → (∀ c ∈ s, ¬ (0xdc00 ≤ c ∧ c < 0xe000)) → Unpaired s := by
    rintro s h1 h2
    refine ⟨h1, ?_⟩
    rintro ⟨a, m, n, b, rfl, -, hn⟩
    exact h2 n (by simp) hn
  refine .obj ?_ ?_ (show List.Nodup [py!"a\"", py!"b"] by decide)
  · intro e he
    simp only [List.mem_cons, List.not_mem_nil, or_false] at he
    rcases he with rfl | rfl
    · exact hu _ (by decide) (by decide)
    · exact hu _ (by decide) (by decide)
  · intro e he
    simp only [List.mem_cons, List.not_mem_nil, or_false] at he
    rcases he with rfl | rfl
    · refine .arr fun j hj => ?_
      simp only [List.mem_cons, List.not_mem_nil, or_false] at hj
      rcases hj with rfl | rfl | rfl | rfl
      · exact .null
      · refine .num _ fun l hl => ?_
        cases hl
        exact ⟨by decide, Nat.lt_of_lt_of_le (m := 10 ^ 2) (by decide) (Nat.pow_le_pow_right (by decide) (by decide))⟩
      · refine .float _ (.inr (.inr (.inr ⟨[], py!"0", py!".5", [], .inl rfl, .inl rfl, .inr ⟨_, _, rfl, ?_⟩, .inl rfl, by decide, rfl⟩))) rfl
        intro c hc
        simp at hc
        subst hc
        exact ⟨by decide, by decide⟩
      · exact .str (hu _ (by decide) (by decide))
    · exact .obj (by simp) (by simp) (by simp)
example : loads halves (dumps (fun _ => py!"0.5") written) = .ok written := C79_round_trip written_plain
/-- two surrogates, one character -/
example : loads halves (dumps (fun _ => []) (.str [0xd83d, 0xde00])) = .ok (.str [0x1f600]) :=
  (C79_strings _ _ (by decide) _).mpr (.pair ⟨by decide, by decide⟩ ⟨by decide, by decide⟩ .nil)
/-- text that is no JSON, reported as JSON -/
example (g : File.Engine Json Xml) : ∃ line, runFileTest utf8Console g (jsonFile (.error (.malformed [0xdc00])) (some py!"json")) = { out := [line], ended := .exit 1 } ∧
    (∀ x ∈ line, 32 ≤ x ∧ x < 127) := by
  obtain ⟨line, h1, h2, -⟩ := C79_output utf8Console (fun l hl => by
    simp only [utf8Console, List.all_eq_true]
    intro x hx
    have := hl x hx
    simp; omega) g (jsonFile (.error (.malformed [0xdc00])) (some py!"json")) .json _ .json rfl rfl
  exact ⟨line, h1, h2⟩

end Verif.Props
