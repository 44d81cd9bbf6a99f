import Verif.DateLemmas
import Verif.NumLemmas

namespace Verif.DataTypes
open Verif Re Spec

instance (y : Int) (m d : Nat) : Decidable (DateExists y m d) := inferInstanceAs (Decidable (_ ∧ _))

theorem isLeapYear_iff (y : Int) : isLeapYear y = true ↔ Leap (astronomical y) := by
  unfold isLeapYear Leap astronomical
  simp only [Int.dvd_iff_emod_eq_zero]
  by_cases hy : y < 0
  · simp only [hy, if_true]
    split
    · simp; omega
    · split
      · simp; omega
      · split
        · simp; omega
        · simp; omega
  · simp only [hy, if_false]
    split
    · simp; omega
    · split
      · simp; omega
      · split
        · simp; omega
        · simp; omega

theorem monthLength_days (y : Int) (m : Nat) (h1 : 1 ≤ m) (h2 : m ≤ 12) (hne : m ≠ 2) :
    daysInMonth m = some (monthLength y m : Int) := by
  have : m = 1 ∨ m = 3 ∨ m = 4 ∨ m = 5 ∨ m = 6 ∨ m = 7 ∨ m = 8 ∨ m = 9 ∨ m = 10 ∨ m = 11 ∨ m = 12 := by omega
  rcases this with rfl | rfl | rfl | rfl | rfl | rfl | rfl | rfl | rfl | rfl | rfl <;> rfl

theorem spanDigits_append (t r : Str) (ht : ∀ c ∈ t, IsDigit c) (hr : ∀ c, r.head? = some c → ¬ IsDigit c) :
    spanDigits (t ++ r) = (t, r) := by
  induction t with
  | nil =>
    cases r with
    | nil => rfl
    | cons c r =>
      have := hr c rfl
      rw [List.nil_append, spanDigits, if_neg]
      rw [isDigit_iff]; exact this
  | cons c t ih =>
    rw [List.cons_append, spanDigits, if_pos ((isDigit_iff c).mpr (ht c List.mem_cons_self)),
      ih fun c hc => ht c (List.mem_cons_of_mem _ hc)]

/-- number of digits of the year -/
def yearDigits : Str → Nat
  | [] => 0
  | c :: s => if c = 45 then s.length else s.length + 1

theorem datePrefix_eq {ys : Str} {y : Int} {ms : Str} {m : Nat} {ds : Str} {d : Nat} (hy : SignedYear ys y)
    (hm : TwoDigit ms m) (hd : TwoDigit ds d) (rest : Str) :
    datePrefix (ys ++ 45 :: ms ++ 45 :: ds ++ rest) = some (ys, ms, ds) := by
  obtain ⟨a, b, rfl, ha, hb, _⟩ := (twoDigit_iff _ _).mp hm
  obtain ⟨a', b', rfl, ha', hb', _⟩ := (twoDigit_iff _ _).mp hd
  have hnd : ¬ IsDigit 45 := by simp [IsDigit]
  have tail : ∀ (sign u : Str), Numeral u → (match spanDigits (u ++ 45 :: a :: b :: 45 :: a' :: b' :: rest) with
      | ([], _) => none
      | (y, d1 :: m1 :: m2 :: d2 :: e1 :: e2 :: _) =>
        if d1 = pc! '-' ∧ Re.isDigit m1 ∧ Re.isDigit m2 ∧ d2 = pc! '-' ∧ Re.isDigit e1 ∧ Re.isDigit e2 then
          some (sign ++ y, [m1, m2], [e1, e2])
        else none
      | _ => none) = some (sign ++ u, [a, b], [a', b']) := by
    intro sign u hu
    rw [spanDigits_append u _ hu.2 (by intro c hc; simp at hc; subst hc; exact hnd)]
    cases u with
    | nil => exact absurd rfl hu.1
    | cons c u =>
      simp only [(isDigit_iff _).mpr ha, (isDigit_iff _).mpr hb, (isDigit_iff _).mpr ha', (isDigit_iff _).mpr hb', and_self,
        if_true]
  rcases hy with ⟨n, hn, _⟩ | ⟨u, n, rfl, hn, _⟩
  · cases ys with
    | nil => exact absurd rfl hn.1.1
    | cons c u =>
      have hc := hn.1.2 c List.mem_cons_self
      have hc' : c ≠ 45 := by unfold IsDigit at hc; omega
      have := tail [] (c :: u) hn.1
      simp only [List.cons_append, List.append_assoc, List.nil_append] at this ⊢
      rw [datePrefix]
      simp only [if_neg hc', List.nil_append]
      exact this
  · have := tail [45] u hn.1
    simp only [List.cons_append, List.append_assoc, List.nil_append] at this ⊢
    rw [datePrefix]
    simp only [if_true]
    exact this

theorem intE_signedYear (lim : Option Nat) {ys : Str} {y : Int} (h : SignedYear ys y) :
    intE lim ys = if tooLong lim (yearDigits ys) then .error .valueError else .ok y := by
  rcases h with ⟨n, hn, rfl⟩ | ⟨u, n, rfl, hn, rfl⟩
  · have hl : yearDigits ys = ys.length := by
      cases ys with
      | nil => rfl
      | cons c u =>
        have hc := hn.1.2 c List.mem_cons_self
        rw [yearDigits, if_neg (by unfold IsDigit at hc; omega)]; rfl
    rw [intE, pyInt_numeral lim hn.1, hl, hn.2.2.2]
    split <;> simp_all
  · have hl : yearDigits (45 :: u) = u.length := by rw [yearDigits, if_pos rfl]
    rw [intE, pyInt_neg_numeral lim hn.1, hl, hn.2.2.2]
    split <;> simp_all

theorem yearDigits_ge {ys : Str} {y : Int} (h : SignedYear ys y) : 4 ≤ yearDigits ys := by
  rcases h with ⟨n, hn, rfl⟩ | ⟨u, n, rfl, hn, rfl⟩
  · cases ys with
    | nil => exact absurd rfl hn.1.1
    | cons c u =>
      have hc := hn.1.2 c List.mem_cons_self
      rw [yearDigits, if_neg (by unfold IsDigit at hc; omega)]; exact hn.2.1
  · rw [yearDigits, if_pos rfl]; exact hn.2.1

theorem intE_two (lim : Option Nat) {t : Str} {n : Nat} (h : TwoDigit t n) (hl : tooLong lim 2 = false) :
    intE lim t = .ok (n : Int) := by
  rw [intE, pyInt_numeral lim h.1, h.2.1, h.2.2, hl]; rfl

theorem tooLong_mono {lim : Option Nat} {a b : Nat} (h : a ≤ b) (hb : tooLong lim b = false) : tooLong lim a = false := by
  cases lim with
  | none => rfl
  | some l => simp [tooLong] at hb ⊢; omega

/-- what `is_xs_date` computes once the pattern has matched -/
theorem isXsDate_shape (lim : Option Nat) {ys : Str} {y : Int} {ms : Str} {m : Nat} {ds : Str} {d : Nat}
    (hy : SignedYear ys y) (hm : TwoDigit ms m) (hd : TwoDigit ds d) (hm' : 1 ≤ m ∧ m ≤ 12) (hd' : 1 ≤ d ∧ d ≤ 31)
    (rest : Str) (hmatch : anchoredMatch dateRe (ys ++ 45 :: ms ++ 45 :: ds ++ rest) = true) :
    isXsDate lim (ys ++ 45 :: ms ++ 45 :: ds ++ rest) =
      if tooLong lim (yearDigits ys) then .error .valueError else .ok (decide (DateExists y m d)) := by
  rw [isXsDate, hmatch]
  simp only [Bool.not_true, Bool.false_eq_true, if_false]
  rw [datePrefix_eq hy hm hd]
  simp only [intE_signedYear lim hy]
  by_cases hl : tooLong lim (yearDigits ys) = true
  · rw [if_pos hl, if_pos hl]; rfl
  · have hl : tooLong lim (yearDigits ys) = false := by simpa using hl
    have h2 : tooLong lim 2 = false := tooLong_mono (by have := yearDigits_ge hy; omega) hl
    rw [hl]
    simp only [intE_two lim hm h2, intE_two lim hd h2, Bool.false_eq_true, if_false]
    simp only [bind, Except.bind, pure, Except.pure]
    by_cases hy0 : y = 0
    · rw [if_pos hy0]
      have : ¬ DateExists y m d := fun h => h.1 hy0
      simp [this]
    · rw [if_neg hy0, if_neg (by omega), if_neg (by omega)]
      by_cases hm2 : m = 2
      · subst hm2
        have e : monthLength y 2 = if Leap (astronomical y) then 29 else 28 := by simp [monthLength]
        simp only [Int.cast_ofNat_Int, if_true, DateExists, e, isLeapYear_iff y]
        split <;> split <;> simp [*] <;> omega
      · rw [if_neg (by omega), monthLength_days y m hm'.1 hm'.2 hm2]
        simp only [DateExists]
        split <;> simp [*] <;> omega

theorem isXsDate_noMatch (lim : Option Nat) {s : Str} (h : anchoredMatch dateRe s = false) : isXsDate lim s = .ok false := by
  rw [isXsDate, h]; rfl

end Verif.DataTypes
