import Verif.Spec.Telling

/-! # Quoted strings can be read -/

namespace Verif.Parse
open Verif Verif.Spec.Parse

theorem hexDigit_reads {n : Nat} (h : n < 16) : HexDigit (Words.hexDigit n) n := by
  unfold Words.hexDigit
  split
  · exact .inl ⟨by omega, by omega, by omega⟩
  · exact .inr ⟨by omega, by omega, by omega⟩

theorem hex_length : ∀ n c, (Words.hex n c).length = n
  | 0, _ => rfl
  | n + 1, c => by rw [Words.hex, List.length_append, hex_length n]; rfl

theorem hex_reads : ∀ n c, c < 16 ^ n → HexNumber (Words.hex n c).reverse c
  | 0, c, h => by
    have : c = 0 := by simpa using h
    subst this
    exact .nil
  | n + 1, c, h => by
    rw [Words.hex, List.reverse_append]
    have := HexNumber.digit (hexDigit_reads (Nat.mod_lt c (by decide : 0 < 16))) (hex_reads n (c / 16) (by
      rw [Nat.pow_succ] at h; exact Nat.div_lt_of_lt_mul (by omega)))
    rw [Nat.div_add_mod] at this
    exact this

theorem char_reads (W : Words) {q c : Nat} (hc : c < 0x110000) : ReadsChar q (W.reprChar q c) c := by
  unfold Words.reprChar
  split
  · rename_i h
    rcases h with rfl | rfl
    · exact .quote
    · exact .backslash
  rename_i hne
  split
  · rename_i h; subst h; exact .tab
  split
  · rename_i h; subst h; exact .lineFeed
  split
  · rename_i h; subst h; exact .return_
  split
  · exact .plain (fun h => hne (.inl h)) (fun h => hne (.inr h))
  split
  · exact .plain (fun h => hne (.inl h)) (fun h => hne (.inr h))
  split
  · rename_i h
    exact .hex (.inl ⟨rfl, rfl⟩) (hex_length 2 c) (hex_reads 2 c (by simpa using h))
  split
  · rename_i h
    exact .hex (.inr (.inl ⟨rfl, rfl⟩)) (hex_length 4 c) (hex_reads 4 c (by simpa using h))
  · exact .hex (.inr (.inr ⟨rfl, rfl⟩)) (hex_length 8 c) (hex_reads 8 c (by omega))

theorem reads_repr (W : Words) {q : Nat} : ∀ {s : Str}, (∀ c ∈ s, c < 0x110000) → Reads q (s.flatMap (W.reprChar q)) s
  | [], _ => .nil
  | c :: s, h => by
    rw [List.flatMap_cons]
    exact .cons (char_reads W (h c (.head _))) (reads_repr W fun d hd => h d (.tail _ hd))

theorem repr_quoted (W : Words) {s : Str} (h : ∀ c ∈ s, c < 0x110000) : Quoted (W.repr s) s := by
  unfold Words.repr
  dsimp only
  split
  · exact ⟨_, _, .inr rfl, rfl, reads_repr W h⟩
  · exact ⟨_, _, .inl rfl, rfl, reads_repr W h⟩

theorem hexDigit_one {d n m : Nat} (h : HexDigit d n) (h' : HexDigit d m) : n = m := by
  rcases h with h | h <;> rcases h' with h' | h' <;> omega

theorem hexNumber_one {ds : Str} {n : Nat} (h : HexNumber ds n) : ∀ {m}, HexNumber ds m → n = m := by
  induction h with
  | nil => intro m h'; cases h'; rfl
  | digit hd _ ih =>
    intro m h'
    cases h' with
    | digit hd' h' => rw [hexDigit_one hd hd', ih h']

theorem hexLetter_one {l n m : Nat} (h : HexLetter l n) (h' : HexLetter l m) : n = m := by
  rcases h with h | h | h <;> rcases h' with h' | h' | h' <;> omega

/-- the first character is read in one way -/
theorem readsChar_one {q : Nat} (hq : q = pc! '\'' ∨ q = pc! '"') {t t' : Str} {c c' : Nat} {r r' : Str} (h : ReadsChar q t c) (h' : ReadsChar q t' c') (he : t ++ r = t' ++ r') :
    c = c' ∧ r = r' := by
  have hl : ∀ {l n}, HexLetter l n → l ≠ q ∧ l ≠ 92 ∧ l ≠ 110 ∧ l ≠ 114 ∧ l ≠ 116 := by
    intro l n hl
    rcases hl with ⟨rfl, -⟩ | ⟨rfl, -⟩ | ⟨rfl, -⟩ <;> refine ⟨?_, by decide, by decide, by decide, by decide⟩ <;> rintro rfl <;> revert hq <;> decide
  cases h with
  | plain h1 h2 =>
    cases h' with
    | plain => cases he; exact ⟨rfl, rfl⟩
    | _ => injection he with he _; exact absurd he h2
  | hex h1 h2 h3 =>
    cases h' with
    | plain _ g2 => injection he with he _; exact absurd he.symm g2
    | hex g1 g2 g3 =>
      injection he with _ he
      injection he with he1 he2
      subst he1
      obtain ⟨rfl, rfl⟩ := List.append_inj he2 (by rw [h2, g2, hexLetter_one h1 g1])
      exact ⟨hexNumber_one h3 g3, rfl⟩
    | quote => injection he with _ he; injection he with he _; exact absurd he (hl h1).1
    | backslash => injection he with _ he; injection he with he _; exact absurd he (hl h1).2.1
    | lineFeed => injection he with _ he; injection he with he _; exact absurd he (hl h1).2.2.1
    | return_ => injection he with _ he; injection he with he _; exact absurd he (hl h1).2.2.2.1
    | tab => injection he with _ he; injection he with he _; exact absurd he (hl h1).2.2.2.2
  | _ =>
    cases h' with
    | plain _ g2 => injection he with he _; exact absurd he.symm g2
    | hex g1 =>
      injection he with _ he
      injection he with he _
      have := hl g1
      first
        | exact absurd he.symm this.1
        | exact absurd he.symm this.2.1
        | exact absurd he.symm this.2.2.1
        | exact absurd he.symm this.2.2.2.1
        | exact absurd he.symm this.2.2.2.2
    | _ =>
      injection he with _ he
      injection he with he1 he2
      first
        | exact ⟨rfl, he2⟩
        | exact ⟨by first | exact he1 | exact he1.symm, he2⟩
        | (exfalso; revert he1; rcases hq with rfl | rfl <;> decide)
        | (exfalso; revert he1; decide)

theorem reads_one {q : Nat} (hq : q = pc! '\'' ∨ q = pc! '"') {t s : Str} (h : Reads q t s) : ∀ {s'}, Reads q t s' → s = s' := by
  induction h with
  | nil =>
    intro s' h'
    generalize ht : ([] : Str) = t at h'
    cases h' with
    | nil => rfl
    | cons hc => cases hc <;> cases ht
  | cons hc _ ih =>
    intro s' h'
    rename_i t' c r s _
    generalize ht : t' ++ r = t at h'
    cases h' with
    | nil => cases hc <;> cases ht
    | cons hc' h' =>
      obtain ⟨rfl, rfl⟩ := readsChar_one hq hc hc' ht
      rw [ih h']

theorem quoted_unique {t s s' : Str} (h : Quoted t s) (h' : Quoted t s') : s = s' := by
  obtain ⟨q, r, hq, rfl, h⟩ := h
  obtain ⟨q', r', -, he, h'⟩ := h'
  simp only [List.cons_append, List.cons.injEq] at he
  obtain ⟨rfl, he⟩ := he
  rw [List.append_cancel_right he] at h
  exact reads_one hq h h'

end Verif.Parse
