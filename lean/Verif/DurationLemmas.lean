import Verif.DateLemmas

namespace Verif.DataTypes
open Verif Re Spec

def rFld (des : Nat) : Re := .seq (plus rDigit) (lit des)
def rSec : Re := seqs [plus rDigit, rFrac, lit 83]
def rTimePart : Re := .seq (lit 84) (alts [seqs [rFld 72, opt (rFld 77), opt rSec], seqs [rFld 77, opt rSec], rSec])
def rDatePart : Re := alts [seqs ([plus rDigit, lit 89] ++ [opt (rFld 77)] ++ [opt (rFld 68)]),
  seqs [rFld 77, opt (rFld 68)], rFld 68]

theorem durationRe_eq : durationRe =
    seqs [opt (lit 45), lit 80, .alt (.seq rDatePart (opt rTimePart)) rTimePart] := by decide +kernel

theorem m_optFld (des : Nat) (s : Str) : Matches (opt (rFld des)) s ↔ Field des s := by
  rw [matches_opt, rFld, matches_seq]
  simp only [m_digits, matches_lit, Field]
  apply or_congr Iff.rfl
  constructor
  · rintro ⟨n, _, rfl, h, rfl⟩; exact ⟨n, rfl, h⟩
  · rintro ⟨n, rfl, h⟩; exact ⟨n, _, rfl, h, rfl⟩

theorem fld_ne (des : Nat) (s : Str) : Matches (rFld des) s → s ≠ [] := by
  rw [rFld, matches_seq]
  simp only [matches_lit]
  rintro ⟨n, _, rfl, _, rfl⟩; simp

theorem m_fld (des : Nat) (s : Str) : Matches (rFld des) s ↔ Field des s ∧ s ≠ [] := by
  constructor
  · intro h; exact ⟨(m_optFld des s).mp ((matches_opt _ _).mpr (Or.inr h)), fld_ne des s h⟩
  · rintro ⟨h, hne⟩
    rcases (matches_opt _ _).mp ((m_optFld des s).mpr h) with h | h
    · exact absurd h hne
    · exact h

theorem m_sec_raw (s : Str) : Matches rSec s ↔ ∃ n f, s = n ++ f ++ [83] ∧ Numeral n ∧ Fraction f := by
  simp only [rSec, matches_seqs_cons, matches_seqs_one, m_digits, m_frac, matches_lit]
  constructor
  · rintro ⟨n, _, rfl, h, f, _, rfl, h', rfl⟩; exact ⟨n, f, by simp, h, h'⟩
  · rintro ⟨n, f, rfl, h, h'⟩; exact ⟨n, _, by simp, h, f, _, rfl, h', rfl⟩

theorem m_optSec (s : Str) : Matches (opt rSec) s ↔ SecondsField s := by
  rw [matches_opt, m_sec_raw, SecondsField]

theorem m_sec (s : Str) : Matches rSec s ↔ SecondsField s ∧ s ≠ [] := by
  rw [m_sec_raw, SecondsField]
  constructor
  · rintro ⟨n, f, rfl, h⟩; exact ⟨Or.inr ⟨n, f, rfl, h⟩, by simp⟩
  · rintro ⟨h | h, hne⟩
    · exact absurd h hne
    · exact h

theorem field_nil (des : Nat) : Field des [] := Or.inl rfl
theorem sec_nil : SecondsField [] := Or.inl rfl

theorem m_timePart (s : Str) : Matches rTimePart s ↔ TimePart s ∧ s ≠ [] := by
  simp only [rTimePart, matches_seq, matches_lit, matches_alts, List.mem_cons, List.not_mem_nil, or_false,
    exists_eq_or_imp, exists_eq_left, matches_seqs_cons, matches_seqs_one, m_optFld, m_optSec, m_fld, m_sec, TimePart]
  constructor
  · rintro ⟨_, t, rfl, rfl, ⟨h, _, rfl, ⟨h1, h1'⟩, m, s, rfl, h2, h3⟩ | ⟨m, s, rfl, ⟨h2, h2'⟩, h3⟩ | ⟨h3, h3'⟩⟩
    · exact ⟨Or.inr ⟨h, m, s, by simp, h1, h2, h3, fun e => h1' e.1⟩, by simp⟩
    · exact ⟨Or.inr ⟨[], m, s, by simp, field_nil _, h2, h3, fun e => h2' e.2.1⟩, by simp⟩
    · exact ⟨Or.inr ⟨[], [], t, by simp, field_nil _, field_nil _, h3, fun e => h3' e.2.2⟩, by simp⟩
  · rintro ⟨rfl | ⟨h, m, s, rfl, h1, h2, h3, hne⟩, hn⟩
    · exact absurd rfl hn
    · refine ⟨[84], h ++ m ++ s, by simp, rfl, ?_⟩
      by_cases e1 : h = []
      · subst e1
        by_cases e2 : m = []
        · subst e2
          refine Or.inr (Or.inr ⟨by simpa using h3, ?_⟩)
          intro e; exact hne ⟨rfl, rfl, by simpa using e⟩
        · exact Or.inr (Or.inl ⟨m, s, by simp, ⟨h2, e2⟩, h3⟩)
      · exact Or.inl ⟨h, m ++ s, by simp, ⟨h1, e1⟩, m, s, rfl, h2, h3⟩

theorem m_datePart (s : Str) : Matches rDatePart s ↔ s ≠ [] ∧ ∃ y m d, s = y ++ m ++ d ∧ Field 89 y ∧ Field 77 m ∧ Field 68 d := by
  have e : seqs [plus rDigit, lit 89] = rFld 89 := rfl
  simp only [rDatePart, matches_alts, List.mem_cons, List.not_mem_nil, or_false, exists_eq_or_imp, exists_eq_left]
  rw [matches_seqs_append, matches_seqs_cons]
  simp only [matches_seqs_append, matches_seqs_one, e, m_optFld, m_fld]
  constructor
  · rintro (⟨_, d, rfl, ⟨y, m, rfl, ⟨h1, h1'⟩, h2⟩, h3⟩ | ⟨m, d, rfl, ⟨h2, h2'⟩, h3⟩ | ⟨h3, h3'⟩)
    · exact ⟨by simp [h1'], y, m, d, rfl, h1, h2, h3⟩
    · exact ⟨by simp [h2'], [], m, d, rfl, field_nil _, h2, h3⟩
    · exact ⟨h3', [], [], s, rfl, field_nil _, field_nil _, h3⟩
  · rintro ⟨hne, y, m, d, rfl, h1, h2, h3⟩
    by_cases e1 : y = []
    · subst e1
      by_cases e2 : m = []
      · subst e2
        exact Or.inr (Or.inr ⟨by simpa using h3, hne⟩)
      · exact Or.inr (Or.inl ⟨m, d, by simp, ⟨h2, e2⟩, h3⟩)
    · exact Or.inl ⟨y ++ m, d, rfl, ⟨y, m, rfl, ⟨h1, e1⟩, h2⟩, h3⟩

theorem m_optTimePart (s : Str) : Matches (opt rTimePart) s ↔ TimePart s := by
  rw [matches_opt, m_timePart]
  constructor
  · rintro (rfl | h)
    · exact Or.inl rfl
    · exact h.1
  · intro h
    by_cases e : s = []
    · exact Or.inl e
    · exact Or.inr ⟨h, e⟩

theorem m_durationRe (s : Str) : Matches durationRe s ↔ DurationText s := by
  rw [durationRe_eq]
  simp only [matches_seqs_cons, matches_seqs_one, matches_opt (lit 45), matches_lit, matches_alt, m_timePart]
  rw [DurationText]
  simp only [matches_seq, m_datePart, m_optTimePart]
  constructor
  · rintro ⟨sign, _, rfl, hs, _, _, rfl, rfl, ⟨_, t, rfl, ⟨hne, y, m, d, rfl, h1, h2, h3⟩, h4⟩ | ⟨h4, hne⟩⟩
    · refine ⟨sign, y, m, d, t, by simp, hs, h1, h2, h3, h4, ?_⟩
      rintro ⟨rfl, rfl, rfl, _⟩; exact hne rfl
    · rename_i t
      refine ⟨sign, [], [], [], t, by simp, hs, field_nil _, field_nil _, field_nil _, h4, ?_⟩
      rintro ⟨_, _, _, e⟩; exact hne e
  · rintro ⟨sign, y, m, d, t, rfl, hs, h1, h2, h3, h4, hne⟩
    refine ⟨sign, 80 :: (y ++ m ++ d ++ t), by simp, hs, [80], y ++ m ++ d ++ t, rfl, rfl, ?_⟩
    by_cases e : y ++ m ++ d = []
    · right
      rw [e]
      refine ⟨by simpa using h4, ?_⟩
      intro e'
      simp at e e'
      exact hne ⟨e.1, e.2.1, e.2.2, e'⟩
    · exact Or.inl ⟨y ++ m ++ d, t, rfl, ⟨e, y, m, d, rfl, h1, h2, h3⟩, h4⟩

end Verif.DataTypes
