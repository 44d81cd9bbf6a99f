import Verif.Spec.Sdks
import Verif.PathLemmas3

/-!
# Helper lemmas: the check of the libraries
-/

namespace Verif.Sdks
open Verif Verif.Spec.Sdks

theorem startsWith_i (f : Str) : Py.startsWith f py!"i" = invalid f := by
  cases f with
  | nil => rfl
  | cons c cs =>
    rw [Bool.eq_iff_iff]
    simp only [Py.startsWith, invalid, List.isPrefixOf, List.head?_cons, Bool.and_true, beq_iff_eq, Option.some.injEq]
    exact ⟨Eq.symm, Eq.symm⟩

theorem countSamples_eq : ∀ (l : List Str) (v i : Int), countSamples l v i = (v + number l (!invalid ·), i + number l invalid)
  | [], v, i => by simp [countSamples, number]
  | f :: fs, v, i => by
    rw [countSamples, startsWith_i]
    cases h : invalid f <;> simp only [Bool.false_eq_true, if_false, if_true] <;> rw [countSamples_eq fs] <;>
      simp [number, h] <;> omega

theorem accepted_eq : ∀ (l : List Str) (m : Mat), accepted l m =
    { m with validAccepted := m.validAccepted + number l (!invalid ·), invalidAccepted := m.invalidAccepted + number l invalid }
  | [], m => by simp [accepted, number]
  | f :: fs, m => by
    rw [accepted, startsWith_i]
    cases h : invalid f <;> simp only [Bool.false_eq_true, if_false, if_true] <;> rw [accepted_eq fs] <;>
      simp [number, h] <;> omega

theorem isNonEmpty_iff (d : Dir) : isNonEmpty d = true ↔ ¬ (d = none ∨ d = some []) := by
  cases d with
  | none => simp [isNonEmpty]
  | some l => cases l <;> simp [isNonEmpty]

/-- the libraries are independent of each other -/
theorem execute_ok {docker : Str → Option Dir} : ∀ (l : List Str) (out : Str → Dir), l.Nodup →
    match execute docker l out with
    | .ok out' => (∀ s, s ∉ l → out' s = out s) ∧ ∀ s ∈ l, (if out s = none ∨ out s = some [] then docker s = some (out' s) else out' s = out s)
    | .error _ => ∃ s ∈ l, (out s = none ∨ out s = some []) ∧ docker s = none
  | [], out, _ => by simp [execute]
  | sdk :: rest, out, hn => by
    obtain ⟨hn1, hn2⟩ := List.nodup_cons.mp hn
    rw [execute]
    by_cases he : isNonEmpty (out sdk) = true
    · rw [if_pos he]
      have ih := execute_ok (docker := docker) rest out hn2
      have he' := (isNonEmpty_iff _).mp he
      cases hr : execute docker rest out with
      | error e =>
        rw [hr] at ih
        obtain ⟨s, hs, h⟩ := ih
        exact ⟨s, by simp [hs], h⟩
      | ok out' =>
        rw [hr] at ih
        refine ⟨fun s hs => ih.1 s (fun h => hs (by simp [h])), fun s hs => ?_⟩
        rcases List.mem_cons.mp hs with rfl | hs
        · rw [if_neg he']
          exact ih.1 s hn1
        · exact ih.2 s hs
    · rw [if_neg he]
      have he' : out sdk = none ∨ out sdk = some [] := Decidable.not_not.mp fun h => he ((isNonEmpty_iff _).mpr h)
      cases hd : docker sdk with
      | none => exact ⟨sdk, by simp, he', hd⟩
      | some d =>
        dsimp only
        have ih := execute_ok (docker := docker) rest (fun s => if s = sdk then d else out s) hn2
        cases hr : execute docker rest (fun s => if s = sdk then d else out s) with
        | error e =>
          rw [hr] at ih
          obtain ⟨s, hs, h⟩ := ih
          rw [if_neg (fun h : s = sdk => hn1 (h ▸ hs))] at h
          exact ⟨s, by simp [hs], h⟩
        | ok out' =>
          rw [hr] at ih
          refine ⟨fun s hs => ?_, fun s hs => ?_⟩
          · have := ih.1 s (fun h => hs (by simp [h]))
            rwa [if_neg (fun h : s = sdk => hs (by simp [h]))] at this
          · rcases List.mem_cons.mp hs with rfl | hs
            · rw [if_pos he', hd, ih.1 s hn1, if_pos rfl]
            · have := ih.2 s hs
              have hne : s ≠ sdk := fun h => hn1 (h ▸ hs)
              simp only [if_neg hne] at this
              exact this

theorem analyse_ok {nv ni : Int} {out : Str → Dir} : ∀ (l : List Str),
    match analyse nv ni out l with
    | .ok rows => rows.map Prod.fst = l ∧ (∀ s ∈ l, ∃ files, out s = some files) ∧ ∀ p ∈ rows, ∃ files, out p.1 = some files ∧
        p.2 = ⟨number files (!invalid ·), nv - number files (!invalid ·), number files invalid, ni - number files invalid⟩
    | .error _ => ∃ s ∈ l, out s = none
  | [] => by simp [analyse]
  | sdk :: rest => by
    rw [analyse]
    cases ho : out sdk with
    | none => exact ⟨sdk, by simp, ho⟩
    | some files =>
      have ih := analyse_ok (nv := nv) (ni := ni) (out := out) rest
      simp only [bind, Except.bind, pure, Except.pure]
      cases hr : analyse nv ni out rest with
      | error e =>
        rw [hr] at ih
        obtain ⟨s, hs, h⟩ := ih
        exact ⟨s, by simp [hs], h⟩
      | ok rows =>
        rw [hr] at ih
        obtain ⟨h1, h2, h3⟩ := ih
        refine ⟨by simp [h1], fun s hs => ?_, fun p hp => ?_⟩
        · rcases List.mem_cons.mp hs with rfl | hs
          · exact ⟨files, ho⟩
          · exact h2 s hs
        · rcases List.mem_cons.mp hp with rfl | hp
          · refine ⟨files, ho, ?_⟩
            rw [accepted_eq]
            simp
          · exact h3 p hp

/-- numbers of samples in a directory, of samples with a name in another list, and of those without -/
theorem number_split {samples files : List Str} (hs : samples.Nodup) (hf : files.Nodup) (hsub : ∀ f ∈ files, f ∈ samples) (p : Str → Bool) :
    number files p = number samples (fun s => p s && decide (s ∈ files)) ∧
    number samples p - number files p = number samples (fun s => p s && decide (s ∉ files)) := by
  have h1 : number files p = number samples (fun s => p s && decide (s ∈ files)) := by
    have hperm : (files.filter p).Perm (samples.filter fun s => p s && decide (s ∈ files)) := by
      rw [List.perm_ext_iff_of_nodup (hf.filter _) (hs.filter _)]
      intro a
      simp only [List.mem_filter, Bool.and_eq_true, decide_eq_true_eq]
      exact ⟨fun h => ⟨hsub a h.1, h.2, h.1⟩, fun h => ⟨h.2.2, h.2.1⟩⟩
    rw [number, number, hperm.length_eq]
  refine ⟨h1, ?_⟩
  rw [h1]
  have : ∀ l : List Str, number l p - number l (fun s => p s && decide (s ∈ files)) = number l (fun s => p s && decide (s ∉ files)) := by
    intro l
    induction l with
    | nil => rfl
    | cons a l ih =>
      simp only [number, List.filter_cons] at ih ⊢
      by_cases hp : p a = true <;> by_cases ha : a ∈ files <;> simp [hp, ha] at ih ⊢ <;> omega
  exact this samples

/-- the names of the samples written -/
theorem writeSamples_spec : ∀ (l : List Bool) (v i : Nat) (names : List Str),
    (names.Nodup ∧ ∀ n ∈ names, ∃ k, (n = py!"v" ++ (Py.natStr k ++ py!".json") ∧ k < v) ∨ (n = py!"i" ++ (Py.natStr k ++ py!".json") ∧ k < i)) →
    number names (!invalid ·) = v → number names invalid = i →
    (writeSamples l v i names).1 = v + l.count true ∧ (writeSamples l v i names).2.1 = i + l.count false ∧
    (writeSamples l v i names).2.2.Nodup ∧ number (writeSamples l v i names).2.2 (!invalid ·) = (writeSamples l v i names).1 ∧
    number (writeSamples l v i names).2.2 invalid = (writeSamples l v i names).2.1
  | [], v, i, names, h, hv, hi => ⟨by simp [writeSamples], by simp [writeSamples], h.1, hv, hi⟩
  | true :: rest, v, i, names, h, hv, hi => by
    rw [writeSamples]
    have := writeSamples_spec rest (v + 1) i (names ++ [py!"v" ++ (Py.natStr v ++ py!".json")]) ⟨?_, ?_⟩ ?_ ?_
    · simp only [List.count_cons, beq_self_eq_true, if_true, show (true == false) = false from rfl, Bool.false_eq_true, if_false] at this ⊢
      exact ⟨by omega, by omega, this.2.2⟩
    · rw [List.nodup_append]
      refine ⟨h.1, by simp, ?_⟩
      rintro a ha b hb rfl
      rw [List.mem_singleton] at hb
      obtain ⟨k, ⟨h1, h2⟩ | ⟨h1, h2⟩⟩ := h.2 a ha
      · rw [hb] at h1
        have := Verif.Aas.natStr_inj (List.append_cancel_right (List.append_cancel_left h1))
        omega
      · rw [hb] at h1
        exact absurd (congrArg List.head? h1) (by simp)
    · intro n hn
      rcases List.mem_append.mp hn with hn | hn
      · obtain ⟨k, ⟨h1, h2⟩ | h1⟩ := h.2 n hn
        · exact ⟨k, .inl ⟨h1, by omega⟩⟩
        · exact ⟨k, .inr h1⟩
      · exact ⟨v, .inl ⟨List.mem_singleton.mp hn, by omega⟩⟩
    · simp [number, List.filter_append, invalid] at hv ⊢
      exact hv
    · simp [number, List.filter_append, invalid] at hi ⊢
      exact hi
  | false :: rest, v, i, names, h, hv, hi => by
    rw [writeSamples]
    have := writeSamples_spec rest v (i + 1) (names ++ [py!"i" ++ (Py.natStr i ++ py!".json")]) ⟨?_, ?_⟩ ?_ ?_
    · simp only [List.count_cons, beq_self_eq_true, if_true, show (false == true) = false from rfl, Bool.false_eq_true, if_false] at this ⊢
      exact ⟨by omega, by omega, this.2.2⟩
    · rw [List.nodup_append]
      refine ⟨h.1, by simp, ?_⟩
      rintro a ha b hb rfl
      rw [List.mem_singleton] at hb
      obtain ⟨k, ⟨h1, h2⟩ | ⟨h1, h2⟩⟩ := h.2 a ha
      · rw [hb] at h1
        exact absurd (congrArg List.head? h1) (by simp)
      · rw [hb] at h1
        have := Verif.Aas.natStr_inj (List.append_cancel_right (List.append_cancel_left h1))
        omega
    · intro n hn
      rcases List.mem_append.mp hn with hn | hn
      · obtain ⟨k, h1 | ⟨h1, h2⟩⟩ := h.2 n hn
        · exact ⟨k, .inl h1⟩
        · exact ⟨k, .inr ⟨h1, by omega⟩⟩
      · exact ⟨i, .inr ⟨List.mem_singleton.mp hn, by omega⟩⟩
    · simp [number, List.filter_append, invalid] at hv ⊢
      exact hv
    · simp [number, List.filter_append, invalid] at hi ⊢
      exact hi

end Verif.Sdks
