import Verif.SdksLemmas

/-!
# C99: the comparison of libraries counts every sample once

Names in the directory of results that are no names of samples are counted, too (`C99_other_files_violated`), and samples can not be
generated (`C99_generate_violated`).
-/

namespace Verif.Props
open Verif Verif.Sdks Verif.Spec.Sdks

/-- The script ends with a table iff there are samples and every library has results. -/
theorem C99_ends (generate : Except Err (List Bool)) (docker : Str → Option Dir) (testData : Dir) (out : Str → Dir) :
    (∃ rows, main generate docker testData out = .ok rows) ↔
      ((∃ f fs, testData = some (f :: fs)) ∨ (testData = none ∧ ∃ l, generate = .ok l)) ∧ ∀ sdk ∈ sdks, ∃ files, HasResults docker out sdk files := by
  have hs : (∃ p, samples generate testData = .ok p) ↔ (∃ f fs, testData = some (f :: fs)) ∨ (testData = none ∧ ∃ l, generate = .ok l) := by
    rw [samples]
    match testData with
    | none =>
      cases generate with
      | error e => simp [isNonEmpty, bind, Except.bind]
      | ok l => simp [isNonEmpty, bind, Except.bind, pure, Except.pure]
    | some [] => simp [isNonEmpty]
    | some (f :: fs) => simp [isNonEmpty]
  rw [← hs, main]
  simp only [bind, Except.bind]
  cases hp : samples generate testData with
  | error e => simp
  | ok p =>
    obtain ⟨nv, ni⟩ := p
    have he := execute_ok (docker := docker) sdks out (by decide)
    simp only [Except.ok.injEq, exists_eq', true_and]
    cases hr : execute docker sdks out with
    | error e =>
      rw [hr] at he
      obtain ⟨s, h1, h2, h3⟩ := he
      refine ⟨fun ⟨_, h⟩ => (by cases h), fun h => ?_⟩
      obtain ⟨files, hf⟩ := h s h1
      rw [HasResults, if_pos h2, h3] at hf
      cases hf
    | ok out' =>
      rw [hr] at he
      have ha := analyse_ok (nv := nv) (ni := ni) (out := out') sdks
      have hh : ∀ s ∈ sdks, ∀ files, HasResults docker out s files ↔ out' s = some files := by
        intro s hs files
        have := he.2 s hs
        rw [HasResults]
        split at this
        · rename_i h
          rw [if_pos h, this, Option.some.injEq]
        · rename_i h
          rw [if_neg h, this]
      dsimp only
      cases hr2 : analyse nv ni out' sdks with
      | error e =>
        rw [hr2] at ha
        obtain ⟨s, h1, h2⟩ := ha
        refine ⟨fun ⟨_, h⟩ => (by cases h), fun h => ?_⟩
        obtain ⟨files, hf⟩ := h s h1
        rw [hh s h1, h2] at hf
        cases hf
      | ok rows =>
        rw [hr2] at ha
        refine ⟨fun _ s hs => ?_, fun _ => ⟨rows, rfl⟩⟩
        obtain ⟨files, hf⟩ := ha.2.1 s hs
        exact ⟨files, (hh s hs files).mpr hf⟩

/-- The table has one row for each library, in order. The row counts the names in the results of this library, whatever happens to the
others; accepted and rejected samples together are all samples, so the accuracy is defined. -/
theorem C99_rows (generate : Except Err (List Bool)) (docker : Str → Option Dir) (names : List Str) (out : Str → Dir) (rows : List (Str × Mat))
    (h : main generate docker (some names) out = .ok rows) :
    rows.map Prod.fst = sdks ∧ ∀ sdk m, (sdk, m) ∈ rows →
      (∃ files, HasResults docker out sdk files ∧ m.validAccepted = number files (!invalid ·) ∧ m.invalidAccepted = number files invalid) ∧
      m.validAccepted + m.validRejected = number names (!invalid ·) ∧ m.invalidAccepted + m.invalidRejected = number names invalid ∧
      m.validAccepted + m.validRejected + m.invalidAccepted + m.invalidRejected = names.length ∧ names ≠ [] := by
  rw [main] at h
  simp only [bind, Except.bind] at h
  cases names with
  | nil => cases h
  | cons f fs =>
    rw [show samples generate (some (f :: fs)) = .ok (countSamples (f :: fs) 0 0) from rfl, countSamples_eq] at h
    dsimp only at h
    have he := execute_ok (docker := docker) sdks out (by decide)
    cases hr : execute docker sdks out with
    | error e => rw [hr] at h; cases h
    | ok out' =>
      rw [hr] at h he
      dsimp only at h
      have ha := analyse_ok (nv := 0 + number (f :: fs) (!invalid ·)) (ni := 0 + number (f :: fs) invalid) (out := out') sdks
      rw [h] at ha
      obtain ⟨h1, -, h3⟩ := ha
      refine ⟨h1, fun sdk m hm => ?_⟩
      have hsdk : sdk ∈ sdks := h1 ▸ List.mem_map_of_mem (f := Prod.fst) hm
      obtain ⟨files, g1, g2⟩ := h3 _ hm
      dsimp only at g1 g2
      have hres : HasResults docker out sdk files := by
        have := he.2 sdk hsdk
        rw [HasResults]
        split at this
        · rename_i hc
          rw [if_pos hc, this, g1]
        · rename_i hc
          rw [if_neg hc, ← this, g1]
      have hall : ∀ l : List Str, number l (!invalid ·) + number l invalid = l.length := by
        intro l
        induction l with
        | nil => rfl
        | cons a l ih =>
          simp only [number, List.filter_cons] at ih ⊢
          cases invalid a <;> simp at ih ⊢ <;> omega
      have := hall (f :: fs)
      rw [g2]
      dsimp only
      exact ⟨⟨files, hres, rfl, rfl⟩, by omega, by omega, by omega, by simp⟩

/-- If the results of a library are names of samples, every sample is counted exactly once: as accepted if its name is among the results,
otherwise as rejected. (Missing for the full claim: other names, see below.) -/
theorem C99_counts_partial (generate : Except Err (List Bool)) (docker : Str → Option Dir) (names : List Str) (hn : names.Nodup) (out : Str → Dir)
    (rows : List (Str × Mat)) (h : main generate docker (some names) out = .ok rows) (sdk : Str) (m : Mat) (hm : (sdk, m) ∈ rows) (files : List Str)
    (hf : HasResults docker out sdk files) (hd : files.Nodup) (hsub : ∀ f ∈ files, f ∈ names) :
    m = ⟨number names (fun s => !invalid s && decide (s ∈ files)), number names (fun s => !invalid s && decide (s ∉ files)),
      number names (fun s => invalid s && decide (s ∈ files)), number names (fun s => invalid s && decide (s ∉ files))⟩ := by
  obtain ⟨-, h2⟩ := C99_rows generate docker names out rows h
  obtain ⟨⟨files', g1, g2, g3⟩, g4, g5, -⟩ := h2 sdk m hm
  have : files' = files := by
    rw [HasResults] at hf g1
    split at hf
    · rename_i hc
      rw [if_pos hc, hf] at g1
      simpa using g1.symm
    · rename_i hc
      rw [if_neg hc, hf] at g1
      simpa using g1.symm
  subst this
  have e1 := number_split hn hd hsub (!invalid ·)
  have e2 := number_split hn hd hsub invalid
  obtain ⟨va, vr, ia, ir⟩ := m
  dsimp only at g2 g3 g4 g5
  rw [← e1.1, ← e1.2, ← e2.1, ← e2.2, ← g2, ← g3, Mat.mk.injEq]
  exact ⟨rfl, by omega, rfl, by omega⟩

/-- The samples of a generator would have different names, and a second run, which reads the names, would count the same. -/
theorem C99_names (l : List Bool) : (writeSamples l 0 0 []).2.2.Nodup ∧ (writeSamples l 0 0 []).2.2.length = l.length ∧
    ∀ p, samples (.ok l) none = .ok p → (p = ((l.count true : Int), (l.count false : Int)) ∧ (l ≠ [] → samples (.ok l) (some (writeSamples l 0 0 []).2.2) = .ok p)) := by
  obtain ⟨h1, h2, h3, h4, h5⟩ := writeSamples_spec l 0 0 [] ⟨List.nodup_nil, by simp⟩ rfl rfl
  have hc := countSamples_eq (writeSamples l 0 0 []).2.2 0 0
  have hall : ∀ l : List Str, number l (!invalid ·) + number l invalid = l.length := by
    intro l
    induction l with
    | nil => rfl
    | cons a l ih =>
      simp only [number, List.filter_cons] at ih ⊢
      cases invalid a <;> simp at ih ⊢ <;> omega
  have hlen : l.length = l.count true + l.count false := by
    clear h1 h2 h3 h4 h5 hc hall
    induction l with
    | nil => rfl
    | cons b l ih => cases b <;> simp <;> omega
  have ha := hall (writeSamples l 0 0 []).2.2
  have hlen' : (writeSamples l 0 0 []).2.2.length = l.length := by omega
  refine ⟨h3, hlen', fun p hp => ?_⟩
  have hp' : p = (((writeSamples l 0 0 []).1 : Int), ((writeSamples l 0 0 []).2.1 : Int)) := by
    simp only [samples, isNonEmpty, bind, Except.bind, pure, Except.pure, Option.isSome_none, Bool.false_eq_true, if_false, Except.ok.injEq] at hp
    exact hp.symm
  subst hp'
  refine ⟨by rw [h1, h2]; simp, fun hl => ?_⟩
  cases hw : (writeSamples l 0 0 []).2.2 with
  | nil =>
    rw [hw] at hlen'
    exact absurd (List.length_eq_zero_iff.mp hlen'.symm) hl
  | cons n ns =>
    rw [hw] at hc h4 h5
    rw [show samples (.ok l) (some (n :: ns)) = .ok (countSamples (n :: ns) 0 0) from rfl, hc, h4, h5]
    simp

/-- Without samples the script always ends with an exception: there is no generator, and an empty directory is not filled. -/
theorem C99_generate_violated (docker : Str → Option Dir) (out : Str → Dir) :
    main noGenerator docker none out = .error .attributeError ∧ ∀ generate, main generate docker (some []) out = .error .fileExists :=
  ⟨rfl, fun _ => rfl⟩

/-- Names that are no samples are counted as accepted samples, so that a rejected sample does not show up or the number of rejected samples
is negative. -/
theorem C99_other_files_violated : ∃ (out : Str → Dir) (m : Mat),
    (∃ rows, main noGenerator (fun _ => none) (some [py!"v0.json", py!"i0.json"]) out = .ok rows ∧ (py!"aas4j", m) ∈ rows) ∧
    out py!"aas4j" = some [py!"v0.json.tmp", py!"log.txt"] ∧ m.validAccepted = 2 ∧ m.validRejected = -1 :=
  ⟨fun _ => some [py!"v0.json.tmp", py!"log.txt"], ⟨2, -1, 0, 1⟩, ⟨[(py!"aas_core_csharp", ⟨2, -1, 0, 1⟩), (py!"basyx_python", ⟨2, -1, 0, 1⟩),
    (py!"aas4j", ⟨2, -1, 0, 1⟩)], by decide +kernel, by decide⟩, rfl, rfl, rfl⟩

/-- three samples; one library has results, one accepts everything, one nothing -/
example : main noGenerator (fun s => if s = py!"aas4j" then some (some []) else some (some [py!"i0.json", py!"v0.json", py!"v1.json"]))
      (some [py!"v0.json", py!"v1.json", py!"i0.json"]) (fun s => if s = py!"basyx_python" then some [py!"v1.json"] else none) =
    .ok [(py!"aas_core_csharp", ⟨2, 0, 1, 0⟩), (py!"basyx_python", ⟨1, 1, 0, 1⟩), (py!"aas4j", ⟨0, 2, 0, 1⟩)] := by decide +kernel

example : writeSamples [true, false, true] 0 0 [] = (2, 1, [py!"v0.json", py!"i0.json", py!"v1.json"]) := by decide +kernel

end Verif.Props
