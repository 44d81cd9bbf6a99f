import Verif.ScanLemmas
import Verif.Spec.Values

/-! # Scanning of numbers with digits of any script, white space and underscores -/

namespace Verif.DataTypes
open Verif Re Spec

theorem digitsOf_nil (dv : Nat → Option Nat) : DigitsOf dv [] [] := rfl

theorem digitsOf_cons {dv : Nat → Option Nat} {c v : Nat} {t : Str} {vs : List Nat} :
    DigitsOf dv (c :: t) (v :: vs) ↔ dv c = some v ∧ DigitsOf dv t vs := by
  simp [DigitsOf]

theorem digitsOf_length {dv : Nat → Option Nat} {t : Str} {vs : List Nat} (h : DigitsOf dv t vs) : t.length = vs.length := by
  have := congrArg List.length h
  simpa using this

theorem digitsOf_mem {dv : Nat → Option Nat} : ∀ {t : Str} {vs : List Nat}, DigitsOf dv t vs → ∀ c ∈ t, ∃ v, dv c = some v := by
  intro t
  induction t with
  | nil => intro _ _ c hc; cases hc
  | cons a t ih =>
    intro vs h c hc
    cases vs with
    | nil => simp [DigitsOf] at h
    | cons v vs =>
      rw [digitsOf_cons] at h
      rcases List.mem_cons.mp hc with rfl | hc
      · exact ⟨v, h.1⟩
      · exact ih h.2 c hc

theorem digitsOf_nil_iff {dv : Nat → Option Nat} {t : Str} {vs : List Nat} (h : DigitsOf dv t vs) : t = [] ↔ vs = [] := by
  rw [← List.length_eq_zero_iff, ← List.length_eq_zero_iff, digitsOf_length h]

theorem takeDigits_split : ∀ s : Str, ∃ is, s = is ++ (takeDigits s).2 ∧ DigitsOf digitVal is (takeDigits s).1 ∧
    NoDigitHead (takeDigits s).2 := by
  intro s
  induction s with
  | nil => exact ⟨[], rfl, rfl, by intro c hc; cases hc⟩
  | cons c s ih =>
    obtain ⟨is, e, hd, hn⟩ := ih
    rw [takeDigits]
    cases hc : digitVal c with
    | none => exact ⟨[], rfl, rfl, by intro x hx; simp at hx; rw [← hx]; exact hc⟩
    | some v => exact ⟨c :: is, by simpa using e, by simpa [DigitsOf, hc] using hd, hn⟩

theorem takeDigits_digits : ∀ {is : Str} {vs : List Nat} {r : Str}, DigitsOf digitVal is vs → NoDigitHead r →
    takeDigits (is ++ r) = (vs, r) := by
  intro is
  induction is with
  | nil =>
    intro vs r h hr
    obtain rfl : vs = [] := (digitsOf_nil_iff h).mp rfl
    cases r with
    | nil => rfl
    | cons c r => rw [List.nil_append, takeDigits, hr c rfl]
  | cons c is ih =>
    intro vs r h hr
    cases vs with
    | nil => simp [DigitsOf] at h
    | cons v vs =>
      rw [digitsOf_cons] at h
      rw [List.cons_append, takeDigits, h.1]
      simp only [ih h.2 hr]

theorem ofDigits_number (vs : List Nat) : ofDigits vs = number vs := rfl

theorem digit_not_sign {c v : Nat} (h : digitVal c = some v) : c ≠ 43 ∧ c ≠ 45 := by
  have := digitVal_ok h; exact ⟨this.2.2.2.1, this.2.2.2.2.1⟩

theorem takeSign_digits {sign t : Str} {vs : List Nat} (hs : Sign sign) (h : DigitsOf digitVal t vs) (r : Str)
    (hne : t ≠ []) : takeSign (sign ++ (t ++ r)) = (decide (sign = [45]), t ++ r) := by
  apply takeSign_unsigned hs
  intro c hc
  cases t with
  | nil => exact absurd rfl hne
  | cons a t =>
    simp at hc; subst hc
    obtain ⟨v, hv⟩ := digitsOf_mem h a (by simp)
    exact digit_not_sign hv

/-- exponent part with digits of any script -/
def ExpOf (x : Str) (n : Int) : Prop :=
  (x = [] ∧ n = 0) ∨ ∃ E y, x = E :: y ∧ (E = 101 ∨ E = 69) ∧ SignedDigits digitVal y n

theorem scanExp_iff (x : Str) (n : Int) : scanExp x = some n ↔ ExpOf x n := by
  cases x with
  | nil =>
    rw [scanExp]
    constructor
    · intro h; injection h with h; exact Or.inl ⟨rfl, h.symm⟩
    · rintro (⟨_, rfl⟩ | ⟨E, y, h, _⟩)
      · rfl
      · cases h
  | cons E y =>
    rw [scanExp]
    by_cases hE : lower E = 101
    · rw [if_pos hE]
      constructor
      · intro h
        right
        refine ⟨E, y, rfl, (lower_e E).mp hE, ?_⟩
        obtain ⟨sign, e, hs⟩ := takeSign_spec y
        generalize takeSign y = ts at h e hs
        obtain ⟨neg, body⟩ := ts
        simp only at h e hs
        obtain ⟨is, e2, hd, _⟩ := takeDigits_split body
        generalize takeDigits body = td at h e2 hd
        obtain ⟨vs, r⟩ := td
        simp only at h e2 hd
        split at h
        · rename_i d ds heq
          injection heq with h1 h2
          subst h1 h2
          rw [List.append_nil] at e2
          subst e2
          injection h with h
          refine ⟨sign, body, d :: ds, e, ?_, ?_, hd, ?_⟩
          · rcases hs with ⟨_, rfl | rfl⟩ | ⟨_, rfl⟩ <;> simp [Sign]
          · intro e0; exact absurd ((digitsOf_nil_iff hd).mp e0) (by simp)
          · rcases hs with ⟨rfl, rfl | rfl⟩ | ⟨rfl, rfl⟩ <;> simpa [ofDigits_number] using h.symm
        · cases h
      · rintro (⟨h, _⟩ | ⟨E', y', e, hE', sign, t, vs, rfl, hs, hne, hd, rfl⟩)
        · cases h
        · injection e with e1 e2
          subst e1 e2
          have h1 := takeSign_digits hs hd [] hne
          have h2 := takeDigits_digits hd (r := []) (by intro c hc; cases hc)
          rw [List.append_nil] at h1 h2
          simp only [h1, h2]
          cases vs with
          | nil => exact absurd ((digitsOf_nil_iff hd).mpr rfl) hne
          | cons v vs => simp only [ofDigits_number, decide_eq_true_eq]
    · rw [if_neg hE]
      constructor
      · intro h; cases h
      · rintro (⟨h, _⟩ | ⟨E', y', e, hE', _⟩)
        · cases h
        · injection e with e1 e2
          subst e1
          exact absurd ((lower_e _).mpr hE') hE

theorem expOf_head {x : Str} {n : Int} (h : ExpOf x n) : NoDigitHead x ∧ x.head? ≠ some 46 := by
  rcases h with ⟨rfl, _⟩ | ⟨E, y, rfl, hE, _⟩
  · exact ⟨(by intro c hc; cases hc), by simp⟩
  · refine ⟨?_, ?_⟩
    · intro c hc
      simp at hc; subst hc
      exact digitVal_none (by omega) (by omega)
    · simp; omega

theorem scanFinite_iff (neg : Bool) (s : Str) (num : Num) : scanFinite neg s = some num ↔
    ∃ i m f x is fs n, s = i ++ m ++ x ∧ DigitsOf digitVal i is ∧ DigitsOf digitVal f fs ∧ is ++ fs ≠ [] ∧
      ((m = [] ∧ fs = []) ∨ m = 46 :: f) ∧ ExpOf x n ∧ num = ⟨neg, is, fs, n⟩ := by
  have h46 : digitVal 46 = none := digitVal_none (by omega) (by omega)
  constructor
  · intro h
    rw [scanFinite] at h
    obtain ⟨i, e1, hi, hn1⟩ := takeDigits_split s
    generalize takeDigits s = td at h e1 hi hn1
    obtain ⟨is, s1⟩ := td
    simp only at h e1 hi hn1
    obtain ⟨m, f, e2, hf, hm⟩ : ∃ m f, s1 = m ++ (scanFrac s1).2 ∧ DigitsOf digitVal f (scanFrac s1).1 ∧
        ((m = [] ∧ (scanFrac s1).1 = []) ∨ m = 46 :: f) := by
      cases s1 with
      | nil => exact ⟨[], [], rfl, rfl, Or.inl ⟨rfl, rfl⟩⟩
      | cons c r =>
        rw [scanFrac]
        by_cases hc : c = 46
        · subst hc
          rw [if_pos rfl]
          obtain ⟨f, e, hf, _⟩ := takeDigits_split r
          exact ⟨46 :: f, f, by rw [List.cons_append, ← e], hf, Or.inr rfl⟩
        · rw [if_neg hc]
          exact ⟨[], [], rfl, rfl, Or.inl ⟨rfl, rfl⟩⟩
    generalize scanFrac s1 = sf at h e2 hf hm
    obtain ⟨fs, s2⟩ := sf
    simp only at h e2 hf hm
    split at h
    · cases h
    · rename_i hne
      cases hx : scanExp s2 with
      | none => rw [hx] at h; cases h
      | some n =>
        rw [hx] at h
        injection h with h
        refine ⟨i, m, f, s2, is, fs, n, by rw [e1, e2]; simp, hi, hf, ?_, hm, (scanExp_iff _ _).mp hx, h.symm⟩
        intro h0
        have := List.append_eq_nil_iff.mp h0
        exact hne (by simp [this.1, this.2])
  · rintro ⟨i, m, f, x, is, fs, n, rfl, hi, hf, hne, hm, hx, rfl⟩
    obtain ⟨hx1, hx2⟩ := expOf_head hx
    have hemp : ¬ (is.isEmpty && fs.isEmpty) = true := by
      intro h0
      simp at h0
      exact hne (by simp [h0.1, h0.2])
    rw [scanFinite]
    rcases hm with ⟨rfl, rfl⟩ | rfl
    · rw [List.append_nil, takeDigits_digits hi hx1]
      simp only
      have : scanFrac x = (([] : List Nat), x) := by
        cases x with
        | nil => rfl
        | cons c r => simp at hx2; simp [scanFrac, hx2]
      rw [this]
      simp only [(scanExp_iff _ _).mpr hx, Option.map_some]
      rw [if_neg hemp]
    · rw [List.append_assoc, takeDigits_digits hi (by intro c hc; simp at hc; subst hc; exact h46)]
      simp only [List.cons_append, scanFrac, if_true]
      rw [takeDigits_digits hf hx1]
      simp only [(scanExp_iff _ _).mpr hx, Option.map_some]
      rw [if_neg hemp]

/-- the unsigned part begins with a digit or a point -/
theorem real_head {i m f x : Str} {is fs : List Nat} (hi : DigitsOf digitVal i is) (hne : is ++ fs ≠ [])
    (hm : (m = [] ∧ fs = []) ∨ m = 46 :: f) : ∃ c r, i ++ m ++ x = c :: r ∧ ((digitVal c).isSome = true ∨ c = 46) := by
  cases i with
  | nil =>
    have : is = [] := (digitsOf_nil_iff hi).mp rfl
    subst this
    rcases hm with ⟨rfl, rfl⟩ | rfl
    · exact absurd rfl hne
    · exact ⟨46, f ++ x, by simp, Or.inr rfl⟩
  | cons c i =>
    obtain ⟨v, hv⟩ := digitsOf_mem hi c (by simp)
    exact ⟨c, i ++ m ++ x, by simp, Or.inl (by simp [hv])⟩

theorem digit_or_point {c : Nat} (h : (digitVal c).isSome = true ∨ c = 46) :
    c ≠ 43 ∧ c ≠ 45 ∧ c ≠ 95 ∧ numSpace c = false ∧ Py.isSpace c = false ∧ lower c = c ∧ ¬ (97 ≤ c ∧ c ≤ 122) := by
  rcases h with h | rfl
  · cases hv : digitVal c with
    | none => simp [hv] at h
    | some v =>
      obtain ⟨h1, h2, h3, h4, h5, h6⟩ := digitVal_ok hv
      have : ¬ (65 ≤ c ∧ c ≤ 122) := by
        intro hr
        have := (digitVal_ascii hv (by omega)).1
        unfold IsDigit at this; omega
      refine ⟨h4, h5, h3, h1, h2, ?_, by omega⟩
      unfold lower
      rw [if_neg]
      simp only [Bool.and_eq_true, decide_eq_true_eq]
      omega
  · decide

theorem word_ne {c : Nat} {r w : Str} {x : Nat} (h : (digitVal c).isSome = true ∨ c = 46) (hx : 97 ≤ x ∧ x ≤ 122) :
    (c :: r).map lower ≠ x :: w := by
  have := digit_or_point h
  intro e
  rw [List.map_cons] at e
  injection e with e1 _
  rw [this.2.2.2.2.2.1] at e1
  omega

theorem word_not_prefix {c : Nat} {r w : Str} {x : Nat} (h : (digitVal c).isSome = true ∨ c = 46) (hx : 97 ≤ x ∧ x ≤ 122) :
    (x :: w).isPrefixOf ((c :: r).map lower) = false := by
  have := digit_or_point h
  rw [List.map_cons, List.isPrefixOf_cons_cons, this.2.2.2.2.2.1]
  have : (x == c) = false := by rw [beq_eq_false_iff_ne]; omega
  rw [this]; rfl

/-- a signed real number as the scanner reads it -/
theorem pyReal_iff (s : Str) (D : Nat) (e : Int) : PyReal digitVal s D e ↔
    ∃ num, scanFinite (takeSign s).1 (takeSign s).2 = some num ∧ number (num.int ++ num.frac) = D ∧
      num.exp - num.frac.length = e := by
  constructor
  · rintro ⟨sign, i, m, f, x, is, fs, rfl, hs, hi, hf, hne, hm, rfl, hx⟩
    obtain ⟨n, hn, he⟩ : ∃ n, ExpOf x n ∧ n - fs.length = e := by
      rcases hx with ⟨rfl, rfl⟩ | ⟨E, y, n, rfl, hE, hy, rfl⟩
      · exact ⟨0, Or.inl ⟨rfl, rfl⟩, by simp⟩
      · exact ⟨n, Or.inr ⟨E, y, rfl, hE, hy⟩, rfl⟩
    have hts : takeSign (sign ++ (i ++ m ++ x)) = (decide (sign = [45]), i ++ m ++ x) := by
      apply takeSign_unsigned hs
      intro c hc
      obtain ⟨c', r, e, hc'⟩ := real_head (x := x) hi hne hm
      rw [e] at hc
      simp at hc; subst hc
      have := digit_or_point hc'
      exact ⟨this.1, this.2.1⟩
    rw [show sign ++ i ++ m ++ x = sign ++ (i ++ m ++ x) by simp, hts]
    exact ⟨⟨decide (sign = [45]), is, fs, n⟩, (scanFinite_iff _ _ _).mpr ⟨i, m, f, x, is, fs, n, rfl, hi, hf, hne, hm, hn, rfl⟩,
      rfl, he⟩
  · rintro ⟨num, hsc, rfl, rfl⟩
    obtain ⟨sign, e, hs⟩ := takeSign_spec s
    generalize takeSign s = ts at hsc e hs
    obtain ⟨neg, body⟩ := ts
    simp only at hsc e hs
    obtain ⟨i, m, f, x, is, fs, n, rfl, hi, hf, hne, hm, hn, rfl⟩ := (scanFinite_iff _ _ _).mp hsc
    refine ⟨sign, i, m, f, x, is, fs, by rw [e]; simp, ?_, hi, hf, hne, hm, rfl, ?_⟩
    · rcases hs with ⟨_, rfl | rfl⟩ | ⟨_, rfl⟩ <;> simp [Sign]
    · rcases hn with ⟨rfl, rfl⟩ | ⟨E, y, rfl, hE, hy⟩
      · exact Or.inl ⟨rfl, by simp⟩
      · exact Or.inr ⟨E, y, n, rfl, hE, hy, rfl⟩

def EndsInDigit (s : Str) : Prop := ∃ c v, s.getLast? = some c ∧ digitVal c = some v
def StartsWithDigit (s : Str) : Prop := ∃ c v, s.head? = some c ∧ digitVal c = some v

theorem dropUnderscores_gen : ∀ (s : Str) (prev : Option Nat) (t : Str), dropUnderscores prev s = some t ↔
    t = withoutUnderscores s ∧ (∀ a b, s = a ++ 95 :: b → EndsInDigit (prev.toList ++ a) ∧ StartsWithDigit b) ∧
      (prev = some 95 → StartsWithDigit s) := by
  have h95 : digitVal 95 = none := digitVal_none (by omega) (by omega)
  intro s
  induction s with
  | nil =>
    intro prev t
    rw [dropUnderscores]
    by_cases hp : prev = some 95
    · rw [if_pos hp]
      constructor
      · intro h; cases h
      · rintro ⟨_, _, h⟩
        obtain ⟨c, v, hc, _⟩ := h hp
        cases hc
    · rw [if_neg hp]
      constructor
      · intro h; injection h with h
        exact ⟨h.symm, by intro a b e; simp at e, fun h => absurd h hp⟩
      · rintro ⟨rfl, _⟩; rfl
  | cons c s ih =>
    intro prev t
    rw [dropUnderscores]
    by_cases hc : c = 95
    · subst hc
      rw [if_pos rfl]
      by_cases hp : (prev.bind digitVal).isSome = true
      · rw [if_pos hp, ih]
        cases prev with
        | none => simp at hp
        | some p =>
          obtain ⟨v, hv⟩ : ∃ v, digitVal p = some v := Option.isSome_iff_exists.mp hp
          have hp95 : p ≠ 95 := by rintro rfl; rw [h95] at hv; cases hv
          constructor
          · rintro ⟨rfl, h1, h2⟩
            refine ⟨by simp [withoutUnderscores], ?_, fun h => absurd (by simpa using h) hp95⟩
            intro a b e
            cases a with
            | nil =>
              simp at e; subst e
              exact ⟨⟨p, v, rfl, hv⟩, h2 rfl⟩
            | cons x a =>
              simp at e
              obtain ⟨rfl, e⟩ := e
              have := h1 a b e
              refine ⟨?_, this.2⟩
              obtain ⟨y, w, hy, hw⟩ := this.1
              refine ⟨y, w, ?_, hw⟩
              simp at hy ⊢
              exact hy
          · rintro ⟨rfl, h1, _⟩
            refine ⟨by simp [withoutUnderscores], ?_, fun _ => (h1 [] s rfl).2⟩
            intro a b e
            have := h1 (95 :: a) b (by rw [e]; rfl)
            refine ⟨?_, this.2⟩
            obtain ⟨y, w, hy, hw⟩ := this.1
            refine ⟨y, w, ?_, hw⟩
            simp at hy ⊢
            exact hy
      · rw [if_neg hp]
        constructor
        · intro h; cases h
        · rintro ⟨_, h1, _⟩
          obtain ⟨⟨y, w, hy, hw⟩, _⟩ := h1 [] s rfl
          cases prev with
          | none => simp at hy
          | some p =>
            simp at hy; subst hy
            simp [hw] at hp
    · rw [if_neg hc]
      have hlast : ∀ a : Str, EndsInDigit (prev.toList ++ c :: a) ↔ EndsInDigit ((some c).toList ++ a) := by
        intro a
        cases prev with
        | none => rfl
        | some p => unfold EndsInDigit; simp [List.getLast?_cons_cons]
      by_cases hp : prev = some 95 ∧ ¬ (digitVal c).isSome = true
      · rw [if_pos (by simpa using hp)]
        constructor
        · intro h; cases h
        · rintro ⟨_, _, h⟩
          obtain ⟨y, v, hy, hv⟩ := h hp.1
          simp at hy; subst hy
          simp [hv] at hp
      · rw [if_neg (by simpa using hp)]
        have hrec : (∃ u, dropUnderscores (some c) s = some u ∧ c :: u = t) ↔ t = withoutUnderscores (c :: s) ∧
            (∀ a b, s = a ++ 95 :: b → EndsInDigit ((some c).toList ++ a) ∧ StartsWithDigit b) := by
          constructor
          · rintro ⟨u, hu, rfl⟩
            obtain ⟨rfl, h1, _⟩ := (ih _ _).mp hu
            exact ⟨by simp [withoutUnderscores, hc], h1⟩
          · rintro ⟨rfl, h1⟩
            refine ⟨withoutUnderscores s, (ih _ _).mpr ⟨rfl, h1, fun h => absurd (by simpa using h) hc⟩, ?_⟩
            simp [withoutUnderscores, hc]
        rw [Option.map_eq_some_iff, hrec]
        constructor
        · rintro ⟨rfl, h1⟩
          refine ⟨rfl, ?_, ?_⟩
          · intro a b e
            cases a with
            | nil => simp at e; exact absurd e.1 hc
            | cons x a =>
              simp at e
              obtain ⟨rfl, e⟩ := e
              rw [hlast]
              exact h1 a b e
          · intro h
            have : (digitVal c).isSome = true := Classical.byContradiction fun h' => hp ⟨h, h'⟩
            obtain ⟨v, hv⟩ := Option.isSome_iff_exists.mp this
            exact ⟨c, v, rfl, hv⟩
        · rintro ⟨rfl, h1, _⟩
          refine ⟨rfl, ?_⟩
          intro a b e
          have := h1 (c :: a) b (by rw [e]; rfl)
          rwa [hlast] at this

theorem dropUnderscores_iff (s t : Str) : dropUnderscores none s = some t ↔
    t = withoutUnderscores s ∧ Separated digitVal s := by
  rw [dropUnderscores_gen]
  constructor
  · rintro ⟨rfl, h, _⟩
    exact ⟨rfl, h⟩
  · rintro ⟨rfl, h⟩
    exact ⟨rfl, h, fun h => by cases h⟩

/-! ## white space around the number -/

theorem head_filter {t : Str} {c : Nat} (h : t.head? = some c) (hc : c ≠ 95) : (withoutUnderscores t).head? = some c := by
  cases t with
  | nil => cases h
  | cons a t => simp at h; subst h; simp [withoutUnderscores, hc]

theorem last_filter {t : Str} {c : Nat} (h : t.getLast? = some c) (hc : c ≠ 95) :
    (withoutUnderscores t).getLast? = some c := by
  have h' : t.reverse.head? = some c := by rw [List.head?_reverse]; exact h
  have := head_filter h' hc
  rw [withoutUnderscores, List.filter_reverse, List.head?_reverse] at this
  exact this

theorem spaced_strip (ws : Nat → Bool) (s : Str) : Spaced ws s (stripBy ws s) := by
  obtain ⟨a, b, e, ha, hb⟩ := stripBy_split ws s
  exact ⟨a, b, e, ha, hb⟩

/-- the core is determined if it does not begin or end with white space -/
theorem strip_spaced {ws : Nat → Bool} {s t : Str} (h : Spaced ws s t) (h95 : ws 95 = false)
    (h1 : ∀ c, (withoutUnderscores t).head? = some c → ws c = false)
    (h2 : ∀ c, (withoutUnderscores t).getLast? = some c → ws c = false) (hne : withoutUnderscores t ≠ []) :
    stripBy ws s = t := by
  obtain ⟨a, b, rfl, ha, hb⟩ := h
  have hne' : t ≠ [] := by rintro rfl; exact hne rfl
  have g1 : ∀ c, t.head? = some c → ws c = false := by
    intro c hc
    by_cases h : c = 95
    · rw [h, h95]
    · exact h1 c (head_filter hc h)
  have g2 : ∀ c, t.getLast? = some c → ws c = false := by
    intro c hc
    by_cases h : c = 95
    · rw [h, h95]
    · exact h2 c (last_filter hc h)
  exact stripBy_eq ha hb hne' g1 g2

/-- no white space inside -/
def Solid (s : Str) : Prop := ∀ c ∈ s, numSpace c = false ∧ Py.isSpace c = false

theorem solid_append {s t : Str} (hs : Solid s) (ht : Solid t) : Solid (s ++ t) := by
  intro c hc
  rcases List.mem_append.mp hc with h | h
  · exact hs c h
  · exact ht c h

theorem solid_sign {s : Str} (h : Sign s) : Solid s := by
  intro c hc
  rcases h with rfl | rfl | rfl
  · cases hc
  · simp at hc; subst hc; decide
  · simp at hc; subst hc; decide

theorem solid_digits {t : Str} {vs : List Nat} (h : DigitsOf digitVal t vs) : Solid t := by
  intro c hc
  obtain ⟨v, hv⟩ := digitsOf_mem h c hc
  have := digitVal_ok hv
  exact ⟨this.1, this.2.1⟩

theorem solid_real {s : Str} {D : Nat} {e : Int} (h : PyReal digitVal s D e) : Solid s := by
  obtain ⟨sign, i, m, f, x, is, fs, rfl, hs, hi, hf, hne, hm, _, hx⟩ := h
  refine solid_append (solid_append (solid_append (solid_sign hs) (solid_digits hi)) ?_) ?_
  · rcases hm with ⟨rfl, _⟩ | rfl
    · intro c hc; cases hc
    · intro c hc
      rcases List.mem_cons.mp hc with rfl | hc
      · decide
      · exact solid_digits hf c hc
  · rcases hx with ⟨rfl, _⟩ | ⟨E, y, n, rfl, hE, ⟨sg, t, vs, rfl, hsg, _, ht, _⟩, _⟩
    · intro c hc; cases hc
    · intro c hc
      rcases List.mem_cons.mp hc with rfl | hc
      · rcases hE with rfl | rfl <;> decide
      · exact solid_append (solid_sign hsg) (solid_digits ht) c hc

theorem real_ne_nil {s : Str} {D : Nat} {e : Int} (h : PyReal digitVal s D e) : s ≠ [] := by
  obtain ⟨sign, i, m, f, x, is, fs, rfl, hs, hi, hf, hne, hm, _⟩ := h
  obtain ⟨c, r, e, _⟩ := real_head (x := x) hi hne hm
  intro h0
  rw [show sign ++ i ++ m ++ x = sign ++ (i ++ m ++ x) by simp, e] at h0
  simp at h0

theorem lower_ascii (c : Nat) : lower c = asciiLower c := by
  unfold lower asciiLower
  simp only [Bool.and_eq_true, decide_eq_true_eq]

theorem map_lower (w : Str) : w.map lower = w.map asciiLower := List.map_congr_left fun c _ => lower_ascii c

theorem letter_of_lower {c : Nat} (h : 97 ≤ asciiLower c ∧ asciiLower c ≤ 122) : (65 ≤ c ∧ c ≤ 90) ∨ (97 ≤ c ∧ c ≤ 122) := by
  unfold asciiLower at h
  split at h <;> omega

theorem solid_letter {c : Nat} (h : (65 ≤ c ∧ c ≤ 90) ∨ (97 ≤ c ∧ c ≤ 122)) : numSpace c = false ∧ Py.isSpace c = false := by
  simp only [numSpace, asciiSpace, Py.isSpace, Bool.or_eq_false_iff, Bool.and_eq_false_iff, decide_eq_false_iff_not,
    beq_eq_false_iff_ne, ne_eq]
  omega

theorem word_letters {w : Str} (h : w.map asciiLower ∈ [py!"inf", py!"infinity", py!"nan", py!"snan"]) :
    ∀ c ∈ w, (65 ≤ c ∧ c ≤ 90) ∨ (97 ≤ c ∧ c ≤ 122) := by
  intro c hc
  have h1 : asciiLower c ∈ w.map asciiLower := List.mem_map.mpr ⟨c, hc, rfl⟩
  have h2 : ∀ u ∈ [py!"inf", py!"infinity", py!"nan", py!"snan"], ∀ x ∈ u, 97 ≤ x ∧ x ≤ 122 := by decide
  exact letter_of_lower (h2 _ h _ h1)

theorem solid_special {s : Str} (h : PySpecial digitVal s) : Solid s ∧ s ≠ [] := by
  obtain ⟨sign, w, ds, rfl, hs, hw⟩ := h
  have hl : ∀ c ∈ w, (65 ≤ c ∧ c ≤ 90) ∨ (97 ≤ c ∧ c ≤ 122) := by
    apply word_letters
    rcases hw with ⟨hw, _⟩ | ⟨hw, _⟩
    · simp at hw; rcases hw with h | h <;> simp [h]
    · simp at hw; rcases hw with h | h <;> simp [h]
  have hd : ∀ c ∈ ds, digitVal c ≠ none := by
    rcases hw with ⟨_, rfl⟩ | ⟨_, h⟩
    · intro c hc; cases hc
    · exact h
  refine ⟨solid_append (solid_append (solid_sign hs) fun c hc => solid_letter (hl c hc)) ?_, ?_⟩
  · intro c hc
    cases hv : digitVal c with
    | none => exact absurd hv (hd c hc)
    | some v => have := digitVal_ok hv; exact ⟨this.1, this.2.1⟩
  · intro h0
    have : w = [] := by simp at h0; exact h0.2.1
    subst this
    simp at hw

theorem strip_core {s t : Str} (hn : withoutUnderscores t ≠ []) (hs : Solid (withoutUnderscores t)) :
    (Spaced numSpace s t → stripBy numSpace s = t) ∧ (Spaced Py.isSpace s t → stripBy Py.isSpace s = t) := by
  constructor
  · intro h
    exact strip_spaced h (by decide) (fun c hc => (hs c (List.mem_of_mem_head? hc)).1)
      (fun c hc => (hs c (List.mem_of_getLast? hc)).1) hn
  · intro h
    exact strip_spaced h (by decide) (fun c hc => (hs c (List.mem_of_mem_head? hc)).2)
      (fun c hc => (hs c (List.mem_of_getLast? hc)).2) hn

/-- the unsigned part of a finite number is no word -/
theorem finite_head {neg : Bool} {s : Str} {num : Num} (h : scanFinite neg s = some num) :
    ∃ c r, s = c :: r ∧ ((digitVal c).isSome = true ∨ c = 46) := by
  obtain ⟨i, m, f, x, is, fs, n, rfl, hi, hf, hne, hm, hn, rfl⟩ := (scanFinite_iff _ _ _).mp h
  exact real_head hi hne hm

/-- exactly the texts that `float` reads as finite numbers -/
theorem scanFloat_iff (s : Str) (D : Nat) (e : Int) :
    (∃ num, scanFloat s = some (.num num) ∧ number (num.int ++ num.frac) = D ∧ num.exp - num.frac.length = e) ↔
      PyFloatText digitVal numSpace s D e := by
  constructor
  · rintro ⟨num, h, hD, he⟩
    refine ⟨stripBy numSpace s, spaced_strip _ _, ?_⟩
    rw [scanFloat] at h
    cases hu : dropUnderscores none (stripBy numSpace s) with
    | none => rw [hu] at h; cases h
    | some t =>
      rw [hu] at h
      obtain ⟨ht, hsep⟩ := (dropUnderscores_iff _ _).mp hu
      refine ⟨hsep, ?_⟩
      rw [← ht, pyReal_iff]
      simp only at h
      split at h
      · cases h
      · split at h
        · cases h
        · cases hsc : scanFinite (takeSign t).1 (takeSign t).2 with
          | none => rw [hsc] at h; cases h
          | some n =>
            rw [hsc] at h
            injection h with h
            injection h with h
            subst h
            exact ⟨n, rfl, hD, he⟩
  · rintro ⟨t, hsp, hsep, hr⟩
    have hst := (strip_core (real_ne_nil hr) (solid_real hr)).1 hsp
    obtain ⟨num, hsc, hD, he⟩ := (pyReal_iff _ _ _).mp hr
    obtain ⟨c, r, ec, hc⟩ := finite_head hsc
    refine ⟨num, ?_, hD, he⟩
    rw [scanFloat, hst, (dropUnderscores_iff _ _).mpr ⟨rfl, hsep⟩]
    simp only
    rw [if_neg, if_neg, hsc]
    · rfl
    · rw [ec]; exact word_ne hc (by omega)
    · rw [ec]
      rintro (h | h)
      · exact word_ne hc (by omega) h
      · exact word_ne hc (by omega) h

/-! ## exponents of `Decimal` -/

theorem digitVal_lt {c v : Nat} (h : digitVal c = some v) : v < 10 := by
  rw [digitVal] at h
  split at h
  · rename_i z hz
    have h1 := List.find?_some hz
    simp only [Bool.and_eq_true, decide_eq_true_eq] at h1
    injection h with h
    omega
  · cases h

theorem digitsOf_lt : ∀ {t : Str} {vs : List Nat}, DigitsOf digitVal t vs → ∀ v ∈ vs, v < 10 := by
  intro t
  induction t with
  | nil =>
    intro vs h v hv
    rw [(digitsOf_nil_iff h).mp rfl] at hv
    cases hv
  | cons a t ih =>
    intro vs h v hv
    cases vs with
    | nil => cases hv
    | cons w vs =>
      rw [digitsOf_cons] at h
      rcases List.mem_cons.mp hv with rfl | hv
      · exact digitVal_lt h.1
      · exact ih h.2 v hv

theorem foldl_bounds : ∀ (r : List Nat) (n : Nat), (∀ v ∈ r, v < 10) →
    n * 10 ^ r.length ≤ r.foldl (fun n d => n * 10 + d) n ∧ r.foldl (fun n d => n * 10 + d) n < (n + 1) * 10 ^ r.length := by
  intro r
  induction r with
  | nil => intro n _; simp
  | cons d r ih =>
    intro n h
    have hd := h d (by simp)
    obtain ⟨h1, h2⟩ := ih (n * 10 + d) (fun v hv => h v (List.mem_cons_of_mem _ hv))
    rw [List.foldl_cons, List.length_cons, Nat.pow_succ]
    generalize 10 ^ r.length = p at h1 h2 ⊢
    refine ⟨Nat.le_trans ?_ h1, Nat.lt_of_lt_of_le h2 ?_⟩
    · rw [Nat.mul_comm p 10, ← Nat.mul_assoc]
      exact Nat.mul_le_mul_right _ (by omega)
    · rw [Nat.mul_comm p 10, ← Nat.mul_assoc]
      exact Nat.mul_le_mul_right _ (by omega)

theorem number_drop (ds : List Nat) : number (ds.dropWhile (· == 0)) = number ds := by
  induction ds with
  | nil => rfl
  | cons d ds ih =>
    rw [List.dropWhile_cons]
    by_cases hd : d = 0
    · subst hd
      rw [if_pos (by rfl), ih]
      rfl
    · rw [if_neg (by simpa using hd)]

theorem sigDigits_count (ds : List Nat) (h : ∀ v ∈ ds, v < 10) : DigitCount (number ds) (sigDigits ds) := by
  rw [← number_drop, sigDigits]
  cases e : ds.dropWhile (· == 0) with
  | nil => left; exact ⟨rfl, rfl⟩
  | cons d r =>
    right
    have hsub : (d :: r).Sublist ds := e ▸ List.dropWhile_sublist _
    have hd : d ≠ 0 := by
      intro h0
      have := List.head?_dropWhile_not (· == 0) ds
      rw [e] at this
      simp [h0] at this
    obtain ⟨h1, h2⟩ := foldl_bounds r d (fun v hv => h v (hsub.subset (List.mem_cons_of_mem _ hv)))
    have h10 : d < 10 := h d (hsub.subset (by simp))
    have en : number (d :: r) = r.foldl (fun n d => n * 10 + d) d := by simp [number]
    rw [en, List.length_cons, show max 1 (r.length + 1) = r.length + 1 by omega, Nat.pow_succ]
    simp only [Nat.add_sub_cancel]
    refine ⟨Nat.le_trans ?_ h1, Nat.lt_of_lt_of_le h2 ?_⟩
    · exact Nat.le_mul_of_pos_left _ (by omega)
    · rw [Nat.mul_comm]; exact Nat.mul_le_mul_left _ (by omega)

theorem digitCount_unique {D a b : Nat} (h1 : DigitCount D a) (h2 : DigitCount D b) : a = b := by
  have key : ∀ {a b : Nat}, 10 ^ (a - 1) ≤ D → D < 10 ^ b → a - 1 < b := by
    intro a b h1 h2
    exact (Nat.pow_lt_pow_iff_right (by omega)).mp (Nat.lt_of_le_of_lt h1 h2)
  rcases h1 with ⟨rfl, rfl⟩ | ⟨h1, h1'⟩
  · rcases h2 with ⟨_, rfl⟩ | ⟨h2, _⟩
    · rfl
    · have := Nat.pow_pos (n := b - 1) (show 0 < 10 by omega); omega
  · rcases h2 with ⟨rfl, rfl⟩ | ⟨h2, h2'⟩
    · have := Nat.pow_pos (n := a - 1) (show 0 < 10 by omega); omega
    · have k1 := key h1 h2'
      have k2 := key h2 h1'
      have ha : a ≠ 0 := by rintro rfl; simp at h1 h1'; omega
      have hb : b ≠ 0 := by rintro rfl; simp at h2 h2'; omega
      omega

theorem decimalRange_iff (num : Num) (h : ∀ v ∈ num.int ++ num.frac, v < 10) : decimalRange num = true ↔
    DecimalExponent (number (num.int ++ num.frac)) (num.exp - num.frac.length) := by
  have hc := sigDigits_count _ h
  rw [decimalRange]
  simp only [Bool.and_eq_true, decide_eq_true_eq]
  constructor
  · rintro ⟨h1, h2⟩
    exact ⟨_, hc, h1, h2⟩
  · rintro ⟨k, hk, h1, h2⟩
    rw [digitCount_unique hk hc] at h1
    exact ⟨h1, h2⟩

/-! ## `Decimal` -/

/-- `drop` after a prefix of the lower case text -/
theorem prefix_split {p body : Str} (h : p.isPrefixOf (body.map lower) = true) :
    ∃ w, body = w ++ body.drop p.length ∧ w.map asciiLower = p := by
  rw [List.isPrefixOf_iff_prefix] at h
  obtain ⟨r, hr⟩ := h
  refine ⟨body.take p.length, (List.take_append_drop _ _).symm, ?_⟩
  rw [← map_lower, List.map_take, ← hr, List.take_left]

theorem word_head {w : Str} {x : Nat} {p : Str} (h : w.map asciiLower = x :: p) (hx : 97 ≤ x ∧ x ≤ 122) :
    ∃ c r, w = c :: r ∧ c ≠ 43 ∧ c ≠ 45 := by
  cases w with
  | nil => cases h
  | cons c r =>
    rw [List.map_cons] at h
    injection h with h1 _
    have := letter_of_lower (c := c) (by omega)
    exact ⟨c, r, rfl, by omega, by omega⟩

theorem takeSign_word {sign w ds : Str} {x : Nat} {p : Str} (hs : Sign sign) (h : w.map asciiLower = x :: p)
    (hx : 97 ≤ x ∧ x ≤ 122) : takeSign (sign ++ w ++ ds) = (decide (sign = [45]), w ++ ds) := by
  obtain ⟨c, r, rfl, h1, h2⟩ := word_head h hx
  rw [List.append_assoc]
  apply takeSign_unsigned hs
  intro a ha
  simp at ha; subst ha
  exact ⟨h1, h2⟩

theorem takeSign_sign (s : Str) : ∃ sign, Sign sign ∧ s = sign ++ (takeSign s).2 := by
  obtain ⟨sign, e, hs⟩ := takeSign_spec s
  refine ⟨sign, ?_, e⟩
  rcases hs with ⟨_, rfl | rfl⟩ | ⟨_, rfl⟩ <;> simp [Sign]

/-- what `Decimal` does with the text between the white space, underscores removed -/
def decimalCore (t : Str) : Bool :=
  let (neg, body) := takeSign t
  let low := body.map lower
  if low = py!"inf" ∨ low = py!"infinity" then true
  else
    let nan := if py!"nan".isPrefixOf low then some (body.drop 3)
      else if py!"snan".isPrefixOf low then some (body.drop 4) else none
    match nan with
    | some payload => payload.all (fun c => (digitVal c).isSome)
    | none =>
      match scanFinite neg body with
      | none => false
      | some n => decimalRange n

theorem isDecimal_core (s : Str) : isDecimal s = decimalCore (withoutUnderscores (stripBy Py.isSpace s)) := rfl

theorem some_digits {ds : Str} (h : ds.all (fun c => (digitVal c).isSome) = true) : ∀ c ∈ ds, digitVal c ≠ none := by
  intro c hc h0
  have := List.all_eq_true.mp h c hc
  rw [h0] at this
  cases this

theorem decimalCore_iff (t : Str) : decimalCore t = true ↔
    PySpecial digitVal t ∨ ∃ D e, PyReal digitVal t D e ∧ DecimalExponent D e := by
  constructor
  · intro h
    obtain ⟨sign, hs, e⟩ := takeSign_sign t
    rw [decimalCore] at h
    simp only at h
    by_cases h1 : (takeSign t).2.map lower = py!"inf" ∨ (takeSign t).2.map lower = py!"infinity"
    · left
      refine ⟨sign, (takeSign t).2, [], by rw [List.append_nil]; exact e, hs, Or.inl ⟨?_, rfl⟩⟩
      rw [← map_lower]
      simpa using h1
    · rw [if_neg h1] at h
      by_cases h2 : py!"nan".isPrefixOf ((takeSign t).2.map lower) = true
      · rw [if_pos h2] at h
        simp only at h
        obtain ⟨w, ew, hw⟩ := prefix_split h2
        rw [show (py!"nan").length = 3 from rfl] at ew
        left
        exact ⟨sign, w, _, by rw [List.append_assoc, ← ew]; exact e, hs, Or.inr ⟨by simp [hw], some_digits h⟩⟩
      · rw [if_neg h2] at h
        by_cases h3 : py!"snan".isPrefixOf ((takeSign t).2.map lower) = true
        · rw [if_pos h3] at h
          simp only at h
          obtain ⟨w, ew, hw⟩ := prefix_split h3
          rw [show (py!"snan").length = 4 from rfl] at ew
          left
          exact ⟨sign, w, _, by rw [List.append_assoc, ← ew]; exact e, hs, Or.inr ⟨by simp [hw], some_digits h⟩⟩
        · rw [if_neg h3] at h
          simp only at h
          cases hsc : scanFinite (takeSign t).1 (takeSign t).2 with
          | none => rw [hsc] at h; cases h
          | some num =>
            rw [hsc] at h
            right
            refine ⟨_, _, (pyReal_iff _ _ _).mpr ⟨num, hsc, rfl, rfl⟩, (decimalRange_iff _ ?_).mp h⟩
            obtain ⟨i, m, f, x, is, fs, n, _, hi, hf, hne, hm, hn, rfl⟩ := (scanFinite_iff _ _ _).mp hsc
            intro v hv
            rcases List.mem_append.mp hv with hv | hv
            · exact digitsOf_lt hi v hv
            · exact digitsOf_lt hf v hv
  · rintro (⟨sign, w, ds, rfl, hs, hw⟩ | ⟨D, e, hr, hexp⟩)
    · rcases hw with ⟨hw, rfl⟩ | ⟨hw, hd⟩
      · rw [decimalCore]
        simp only [List.mem_cons, List.not_mem_nil, or_false] at hw
        have ht : takeSign (sign ++ w ++ []) = (decide (sign = [45]), w ++ []) :=
          hw.elim (fun h => takeSign_word hs h (by omega)) (fun h => takeSign_word hs h (by omega))
        simp only [ht]
        rw [if_pos]
        rw [List.append_nil, map_lower]
        exact hw
      · have hall : ds.all (fun c => (digitVal c).isSome) = true := by
          rw [List.all_eq_true]
          intro c hc
          cases hv : digitVal c with
          | none => exact absurd hv (hd c hc)
          | some v => rfl
        simp only [List.mem_cons, List.not_mem_nil, or_false] at hw
        rw [decimalCore]
        rcases hw with hw | hw
        · rw [takeSign_word hs hw (by omega)]
          have hl : w.length = 3 := by have := congrArg List.length hw; simpa using this
          have hm : (w ++ ds).map lower = py!"nan" ++ ds.map lower := by rw [List.map_append, map_lower w, hw]
          have hdrop : (w ++ ds).drop 3 = ds := by rw [← hl, List.drop_left]
          have hp : py!"nan".isPrefixOf ((w ++ ds).map lower) = true := by
            rw [hm, List.isPrefixOf_iff_prefix]; exact List.prefix_append _ _
          simp only [hp, hdrop, if_true, hall]
          rw [if_neg]
          rw [hm]; simp
        · rw [takeSign_word hs hw (by omega)]
          have hl : w.length = 4 := by have := congrArg List.length hw; simpa using this
          have hm : (w ++ ds).map lower = py!"snan" ++ ds.map lower := by rw [List.map_append, map_lower w, hw]
          have hdrop : (w ++ ds).drop 4 = ds := by rw [← hl, List.drop_left]
          have hp : py!"snan".isPrefixOf ((w ++ ds).map lower) = true := by
            rw [hm, List.isPrefixOf_iff_prefix]; exact List.prefix_append _ _
          have hp' : py!"nan".isPrefixOf ((w ++ ds).map lower) = false := by
            rw [hm]; simp [List.isPrefixOf]
          simp only [hp, hp', hdrop, if_true, hall, Bool.false_eq_true, if_false]
          rw [if_neg]
          rw [hm]; simp
    · obtain ⟨num, hsc, rfl, rfl⟩ := (pyReal_iff _ _ _).mp hr
      obtain ⟨c, r, ec, hc⟩ := finite_head hsc
      rw [decimalCore]
      simp only
      rw [if_neg, if_neg, if_neg]
      · simp only [hsc]
        refine (decimalRange_iff _ ?_).mpr hexp
        obtain ⟨i, m, f, x, is, fs, n, _, hi, hf, hne, hm, hn, rfl⟩ := (scanFinite_iff _ _ _).mp hsc
        intro v hv
        rcases List.mem_append.mp hv with hv | hv
        · exact digitsOf_lt hi v hv
        · exact digitsOf_lt hf v hv
      · rw [ec, word_not_prefix hc (by omega)]; simp
      · rw [ec, word_not_prefix hc (by omega)]; simp
      · rw [ec]
        rintro (h | h)
        · exact word_ne hc (by omega) h
        · exact word_ne hc (by omega) h

/-- exactly the texts that `Decimal` reads -/
theorem isDecimal_iff (s : Str) : isDecimal s = true ↔ PyDecimalText digitVal Py.isSpace s := by
  rw [isDecimal_core, decimalCore_iff]
  constructor
  · intro h
    exact ⟨_, spaced_strip _ _, h⟩
  · rintro ⟨t, hsp, h⟩
    have : Solid (withoutUnderscores t) ∧ withoutUnderscores t ≠ [] := by
      rcases h with h | ⟨D, e, h, _⟩
      · exact solid_special h
      · exact ⟨solid_real h, real_ne_nil h⟩
    rw [(strip_core this.2 this.1).2 hsp]
    exact h

/-! ## bounded doubles -/

theorem absDouble_eq (n : Num) {D : Nat} {e : Int} (h1 : number (n.int ++ n.frac) = D) (h2 : n.exp - n.frac.length = e) :
    n.absDouble = toDouble (fraction D e).1 (fraction D e).2 := by
  rw [Num.absDouble]
  simp only [ofDigits_number, h1, h2, fraction]
  split
  · rename_i h
    have : (-e).toNat = 0 := by omega
    rw [this, Nat.pow_zero]
  · rename_i h
    have : e.toNat = 0 := by omega
    rw [this, Nat.pow_zero, Nat.mul_one]

theorem isBoundedDouble_iff (s : Str) (max : Nat) : isBoundedDouble s max = true ↔
    s ∈ [py!"INF", py!"-INF", py!"NaN"] ∨
    ∃ D e, PyFloatText digitVal numSpace s D e ∧ toDouble (fraction D e).1 (fraction D e).2 < max := by
  rw [isBoundedDouble]
  by_cases h : s = py!"INF" ∨ s = py!"-INF" ∨ s = py!"NaN"
  · rw [if_pos h]
    simp only [true_iff]
    left
    simpa using h
  · rw [if_neg h]
    constructor
    · intro hb
      right
      split at hb
      · rename_i n hn
        refine ⟨_, _, (scanFloat_iff _ _ _).mp ⟨n, hn, rfl, rfl⟩, ?_⟩
        rw [← absDouble_eq n rfl rfl]
        simpa using hb
      · cases hb
    · rintro (hs | ⟨D, e, hf, hd⟩)
      · exact absurd (by simpa using hs) h
      · obtain ⟨n, hn, h1, h2⟩ := (scanFloat_iff _ _ _).mpr hf
        rw [hn]
        simp only [decide_eq_true_eq]
        rw [absDouble_eq n h1 h2]
        exact hd

end Verif.DataTypes
