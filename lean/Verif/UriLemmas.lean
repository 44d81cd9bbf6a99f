import Verif.RegexLemmas
import Verif.DataTypes
import Verif.Spec.Text

/-! # What texts of the IRI pattern have in common, read off its syntax tree -/

namespace Verif.DataTypes
open Verif Re Spec

/-! ## characters and escapes -/

theorem inCls_pos (rs : List (Nat × Nat)) (c : Nat) : inCls false rs c = true ↔ ∃ r ∈ rs, r.1 ≤ c ∧ c ≤ r.2 := by
  simp [inCls]

/-- the ranges lie within the given ranges -/
def within (rs big : List (Nat × Nat)) : Bool := rs.all fun r => big.any fun b => b.1 ≤ r.1 && r.2 ≤ b.2

theorem within_sound {rs big : List (Nat × Nat)} (h : within rs big = true) {c : Nat} (hc : inCls false rs c = true) :
    inCls false big c = true := by
  simp only [within, List.all_eq_true, List.any_eq_true, Bool.and_eq_true, decide_eq_true_eq, inCls_pos] at *
  obtain ⟨r, hr, h1, h2⟩ := hc
  obtain ⟨b, hb, h3, h4⟩ := h r hr
  exact ⟨b, hb, by omega, by omega⟩

/-- ranges of `UriChar` -/
def uriRanges : List (Nat × Nat) :=
  [(33, 33), (35, 36), (38, 59), (61, 61), (63, 91), (93, 93), (95, 95), (97, 122), (126, 126),
   (0xa0, 0xd7ff), (0xe000, 0xf8ff), (0xf900, 0xfdcf), (0xfdf0, 0xffef), (0x10000, 0x1fffd), (0x20000, 0x2fffd),
   (0x30000, 0x3fffd), (0x40000, 0x4fffd), (0x50000, 0x5fffd), (0x60000, 0x6fffd), (0x70000, 0x7fffd),
   (0x80000, 0x8fffd), (0x90000, 0x9fffd), (0xa0000, 0xafffd), (0xb0000, 0xbfffd), (0xc0000, 0xcfffd),
   (0xd0000, 0xdfffd), (0xe1000, 0xefffd), (0xf0000, 0xffffd), (0x100000, 0x10fffd)]

theorem in_uriRanges {c : Nat} (h : inCls false uriRanges c = true) : UriChar c := by
  simp [inCls, uriRanges] at h
  unfold UriChar IsUnreserved IsSubDelim IsGenDelim IsAlnum IsAlpha IsUpper IsLower IsNum
  simp only [List.mem_cons, List.not_mem_nil, or_false]
  by_cases hs : c < 128
  · omega
  · have : IsUcs c ∨ IsPrivate c := by
      unfold IsUcs IsPrivate
      by_cases h1 : c < 0x10000
      · omega
      · by_cases h2 : c < 0xe0000
        · refine Or.inl (Or.inr (Or.inr (Or.inr (Or.inl ⟨c / 0x10000, ?_⟩))))
          omega
        · omega
    rcases this with h | h
    · exact Or.inl (Or.inr (Or.inr h))
    · exact Or.inr (Or.inr (Or.inr h))

def rHex : Re := .cls false [(48, 57), (65, 70), (97, 102)]
def rPct : Re := seqs [lit 37, rHex, rHex]

/-- built from `UriChar` classes and escapes only -/
def escRe : Re → Bool
  | .empty => true
  | .eps => true
  | .cls neg rs => !neg && within rs uriRanges
  | .seq a b => .seq a b == rPct || (escRe a && escRe b)
  | .alt a b => escRe a && escRe b
  | .star a => escRe a

/-- made of allowed characters and escapes -/
inductive EscText : Str → Prop
  | nil : EscText []
  | char {c s} : UriChar c → EscText s → EscText (c :: s)
  | pct {a b s} : IsHex a → IsHex b → EscText s → EscText (37 :: a :: b :: s)

theorem EscText.append {s t : Str} (hs : EscText s) (ht : EscText t) : EscText (s ++ t) := by
  induction hs with
  | nil => exact ht
  | char h _ ih => exact .char h ih
  | pct h1 h2 _ ih => exact .pct h1 h2 ih

theorem in_hex {c : Nat} : inCls false [(48, 57), (65, 70), (97, 102)] c = true ↔ IsHex c := by
  simp [inCls, IsHex, IsNum]

theorem m_pct (s : Str) : Matches rPct s ↔ ∃ a b, s = [37, a, b] ∧ IsHex a ∧ IsHex b := by
  rw [rPct]
  simp only [matches_seqs_cons, matches_seqs_one, rHex, matches_cls, in_hex, matches_lit]
  constructor
  · rintro ⟨_, _, rfl, rfl, _, _, rfl, ⟨a, rfl, ha⟩, b, rfl, hb⟩; exact ⟨a, b, rfl, ha, hb⟩
  · rintro ⟨a, b, rfl, ha, hb⟩; exact ⟨[37], [a, b], rfl, rfl, [a], [b], rfl, ⟨a, rfl, ha⟩, b, rfl, hb⟩

theorem escRe_sound (r : Re) (s : Str) (hm : Matches r s) (h : escRe r = true) : EscText s := by
  induction hm with
  | eps => exact .nil
  | cls hc =>
    simp only [escRe, Bool.and_eq_true, Bool.not_eq_true'] at h
    obtain ⟨rfl, h⟩ := h
    exact .char (in_uriRanges (within_sound h hc)) .nil
  | seq h1 h2 ih1 ih2 =>
    simp only [escRe, Bool.or_eq_true, beq_iff_eq, Bool.and_eq_true] at h
    rcases h with h | h
    · obtain ⟨a, b, e, ha, hb⟩ := (m_pct _).mp (h ▸ Matches.seq h1 h2)
      rw [e]; exact .pct ha hb .nil
    · exact (ih1 h.1).append (ih2 h.2)
  | altL _ ih => simp only [escRe, Bool.and_eq_true] at h; exact ih h.1
  | altR _ ih => simp only [escRe, Bool.and_eq_true] at h; exact ih h.2
  | starNil => exact .nil
  | starCons _ _ ih1 ih2 => exact (ih1 (by simpa [escRe] using h)).append (ih2 h)

theorem uriChar_ne_pct {c : Nat} (h : UriChar c) : c ≠ 37 := by
  rintro rfl
  revert h
  simp only [UriChar, IsUnreserved, IsSubDelim, IsGenDelim, IsAlnum, IsAlpha, IsUpper, IsLower, IsNum, IsUcs, IsPrivate]
  rintro ((h | h | h) | h | h | h)
  · omega
  · revert h; decide
  · rcases h with h | h | h | ⟨p, h⟩ | h <;> omega
  · revert h; decide
  · revert h; decide
  · omega

theorem hex_ne_pct {c : Nat} (h : IsHex c) : c ≠ 37 := by
  simp only [IsHex, IsNum] at h; omega

theorem hex_uriChar {c : Nat} (h : IsHex c) : UriChar c := by
  refine Or.inl (Or.inl ?_)
  simp only [IsHex, IsNum] at h
  simp only [IsAlnum, IsAlpha, IsUpper, IsLower, IsNum]; omega

theorem EscText.chars {s : Str} (h : EscText s) : ∀ c ∈ s, UriChar c ∨ c = 37 := by
  induction h with
  | nil => simp
  | char h _ ih =>
    intro d hd
    rcases List.mem_cons.mp hd with rfl | hd
    · exact Or.inl h
    · exact ih d hd
  | pct h1 h2 _ ih =>
    intro d hd
    simp only [List.mem_cons] at hd
    rcases hd with rfl | rfl | rfl | hd
    · exact Or.inr rfl
    · exact Or.inl (hex_uriChar h1)
    · exact Or.inl (hex_uriChar h2)
    · exact ih d hd

theorem EscText.escaped {s : Str} (h : EscText s) : Escaped s := by
  induction h with
  | nil => intro u v e; simp at e
  | @char c s h _ ih =>
    intro u v e
    cases u with
    | nil => simp at e; exact absurd e.1 (uriChar_ne_pct h)
    | cons d u => simp at e; exact ih u v e.2
  | @pct a b s h1 h2 _ ih =>
    intro u v e
    match u with
    | [] => simp at e; exact ⟨a, b, s, e.symm, h1, h2⟩
    | [d] => simp at e; exact absurd e.2.1 (hex_ne_pct h1)
    | [d, d'] => simp at e; exact absurd e.2.2.1 (hex_ne_pct h2)
    | d :: d' :: d'' :: u => simp at e; exact ih u v e.2.2.2

/-! ## occurrences of a character -/

/-- upper bound for the number of occurrences of a character; `none`: no bound found -/
def most (x : Nat) : Re → Option Nat
  | .empty => some 0
  | .eps => some 0
  | .cls neg rs => if inCls neg rs x then some 1 else some 0
  | .seq a b =>
    match most x a, most x b with
    | some m, some n => some (m + n)
    | _, _ => none
  | .alt a b =>
    match most x a, most x b with
    | some m, some n => some (max m n)
    | _, _ => none
  | .star a => if most x a = some 0 then some 0 else none

theorem most_sound (x : Nat) (r : Re) (s : Str) (hm : Matches r s) (n : Nat) (h : most x r = some n) :
    s.count x ≤ n := by
  induction hm generalizing n with
  | eps => simp
  | @cls _ _ c hc =>
    simp only [most] at h
    split at h
    · cases h
      exact Nat.le_trans List.count_le_length (by simp)
    · rename_i hx
      cases h
      have : c ≠ x := by rintro rfl; exact hx hc
      simp [this]
  | @seq a b u v _ _ ih1 ih2 =>
    simp only [most] at h
    split at h
    · rename_i m k hm hk
      cases h
      rw [List.count_append]
      have := ih1 m hm
      have := ih2 k hk
      omega
    · cases h
  | @altL a b _ _ ih =>
    simp only [most] at h
    split at h
    · rename_i m k hm hk; cases h; have := ih m hm; omega
    · cases h
  | @altR a b _ _ ih =>
    simp only [most] at h
    split at h
    · rename_i m k hm hk; cases h; have := ih k hk; omega
    · cases h
  | starNil => simp
  | @starCons a u v _ _ ih1 ih2 =>
    have h' := h
    simp only [most] at h'
    split at h'
    · rename_i h0
      cases h'
      rw [List.count_append]
      have := ih1 0 h0
      have := ih2 0 h
      omega
    · cases h'

end Verif.DataTypes
