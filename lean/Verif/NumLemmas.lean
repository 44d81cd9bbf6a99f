import Verif.DataTypes
import Verif.RegexLemmas
import Verif.Spec.DataTypes

namespace Verif.DataTypes
open Verif Re Spec

theorem digitVal_digit {c : Nat} (h : IsDigit c) : digitVal c = some (c - 48) := by
  unfold IsDigit at h
  have : (decide (0x30 ≤ c) && decide (c ≤ 0x30 + 9)) = true := by simp; omega
  rw [digitVal, digitZeros, List.find?_cons, this]

theorem isDigit_iff (c : Nat) : Re.isDigit c = true ↔ IsDigit c := by
  simp [Re.isDigit, IsDigit]

theorem intDigits_numeral : ∀ (t : Str), (∀ c ∈ t, IsDigit c) → ∀ first, (first = true → t ≠ []) →
    intDigits first t = some (t.map (· - 48)) := by
  intro t
  induction t with
  | nil =>
    intro _ first hf
    cases first with
    | true => exact absurd rfl (hf rfl)
    | false => rfl
  | cons c t ih =>
    intro h first _
    have hc := h c List.mem_cons_self
    have hne : c ≠ 95 := by unfold IsDigit at hc; omega
    rw [intDigits, if_neg hne, digitVal_digit hc]
    simp only
    rw [ih (fun c hc => h c (List.mem_cons_of_mem _ hc)) false (by simp)]
    rfl

theorem ofDigits_map (t : Str) : ofDigits (t.map (· - 48)) = decimalValue t := by
  rw [ofDigits, decimalValue, List.foldl_map]

theorem numSpace_digit {c : Nat} (h : IsDigit c) : numSpace c = false := by
  unfold IsDigit at h
  simp only [numSpace, asciiSpace, Py.isSpace, Bool.or_eq_false_iff, Bool.and_eq_false_iff, decide_eq_false_iff_not,
    beq_eq_false_iff_ne, ne_eq]
  omega

theorem stripBy_none {p : Nat → Bool} {s : Str} (h1 : ∀ c, s.head? = some c → p c = false)
    (h2 : ∀ c, s.getLast? = some c → p c = false) : stripBy p s = s := by
  have key : ∀ s : Str, (∀ c, s.head? = some c → p c = false) → s.dropWhile p = s := by
    intro s h
    cases s with
    | nil => rfl
    | cons c s =>
      rw [List.dropWhile_cons, h c rfl]; rfl
  rw [stripBy, key s h1, key s.reverse (by intro c; rw [List.head?_reverse]; exact h2 c), List.reverse_reverse]

/-- digits count towards the limit -/
def tooLong (lim : Option Nat) (n : Nat) : Bool := lim.any (fun l => l < n)

theorem pyInt_numeral (lim : Option Nat) {t : Str} (h : Numeral t) :
    pyInt lim t = if tooLong lim t.length then none else some (decimalValue t : Int) := by
  obtain ⟨hne, hd⟩ := h
  have hs : stripBy numSpace t = t := stripBy_none
    (fun c hc => numSpace_digit (hd c (List.mem_of_mem_head? hc)))
    (fun c hc => numSpace_digit (hd c (List.mem_of_getLast? hc)))
  have ht : takeSign t = (false, t) := by
    cases t with
    | nil => rfl
    | cons c t =>
      have := hd c List.mem_cons_self
      unfold IsDigit at this
      rw [takeSign, if_neg (by omega), if_neg (by omega)]
  rw [pyInt, hs, ht]
  simp only [intDigits_numeral t hd true (fun _ => hne), ofDigits_map, List.length_map, tooLong]
  rfl

theorem pyInt_neg_numeral (lim : Option Nat) {t : Str} (h : Numeral t) :
    pyInt lim (45 :: t) = if tooLong lim t.length then none else some (-(decimalValue t : Int)) := by
  obtain ⟨hne, hd⟩ := h
  have hs : stripBy numSpace (45 :: t) = 45 :: t := stripBy_none
    (fun c hc => by simp at hc; subst hc; decide)
    (fun c hc => by
      rw [List.getLast?_cons_of_ne_nil hne] at hc
      exact numSpace_digit (hd c (List.mem_of_getLast? hc)))
  have ht : takeSign (45 :: t) = (true, t) := rfl
  rw [pyInt, hs, ht]
  simp only [intDigits_numeral t hd true (fun _ => hne), ofDigits_map, List.length_map, tooLong]
  rfl

theorem pyInt_pos_numeral (lim : Option Nat) {t : Str} (h : Numeral t) :
    pyInt lim (43 :: t) = if tooLong lim t.length then none else some (decimalValue t : Int) := by
  obtain ⟨hne, hd⟩ := h
  have hs : stripBy numSpace (43 :: t) = 43 :: t := stripBy_none
    (fun c hc => by simp at hc; subst hc; decide)
    (fun c hc => by
      rw [List.getLast?_cons_of_ne_nil hne] at hc
      exact numSpace_digit (hd c (List.mem_of_getLast? hc)))
  have ht : takeSign (43 :: t) = (false, t) := rfl
  rw [pyInt, hs, ht]
  simp only [intDigits_numeral t hd true (fun _ => hne), ofDigits_map, List.length_map, tooLong]
  rfl

end Verif.DataTypes
