import Verif.ScanLemmas
import Verif.Props.Dates

/-! # C17, C23, C24, C28: numbers, binary values, totality of the value checks -/

namespace Verif.Props
open Verif Re Spec DataTypes

/-! ## C17 -/

/-- the check of an integer type is a range check of the value read by `int` -/
theorem validate_integer (lim : Option Nat) (t : Xsd) (r : Option Int × Option Int) (h : integerRange t.name = some r)
    (s : Str) : validate lim t s = .ok (isBoundedInteger lim s r.1 r.2) := by
  cases t <;> simp [integerRange, Xsd.name] at h <;> subst h <;> rfl

theorem bounded_iff (lim : Option Nat) (s : Str) (r : Option Int × Option Int) :
    isBoundedInteger lim s r.1 r.2 = true ↔ ∃ n, pyInt lim s = some n ∧ InRange r n := by
  obtain ⟨lo, hi⟩ := r
  rw [isBoundedInteger]
  cases pyInt lim s with
  | none => simp
  | some v =>
    simp only [Bool.and_eq_true, Option.all_eq_true, decide_eq_true_eq, Option.some.injEq, exists_eq_left', InRange]

/-- C17: an integer in XSD notation is accepted exactly if it is in the value range of the type. -/
theorem C17_integers (lim : Option Nat) (t : Xsd) (r : Option Int × Option Int) (ht : integerRange t.name = some r)
    (s : Str) (n : Int) (hs : IntegerText s n) (hf : Fits lim s) :
    validate lim t s = .ok true ↔ InRange r n := by
  obtain ⟨k, hk, h⟩ := integerText_py hs
  rw [validate_integer lim t r ht, Except.ok.injEq, bounded_iff, h lim (fits_tooLong hf hk)]
  simp

/-- C17: which texts are accepted. Partial: text that Python's `int` reads as a number is accepted although
it is no XSD integer (white space around it, underscores between digits, digits of other scripts). -/
theorem C17_accepted_partial (lim : Option Nat) (t : Xsd) (r : Option Int × Option Int)
    (ht : integerRange t.name = some r) (s : Str) :
    validate lim t s = .ok true ↔
      ∃ n k, PyIntText digitVal numSpace s n k ∧ (∀ l, lim = some l → k ≤ l) ∧ InRange r n := by
  rw [validate_integer lim t r ht, Except.ok.injEq, bounded_iff]
  have hl : ∀ k, tooLong lim k = false ↔ ∀ l, lim = some l → k ≤ l := by
    intro k
    cases lim with
    | none => simp [tooLong]
    | some l => simp [tooLong]
  constructor
  · rintro ⟨n, h, hr⟩
    obtain ⟨k, h1, h2⟩ := (pyInt_iff _ _ _).mp h
    exact ⟨n, k, h1, (hl k).mp h2, hr⟩
  · rintro ⟨n, k, h1, h2, hr⟩
    exact ⟨n, (pyInt_iff _ _ _).mpr ⟨k, h1, (hl k).mpr h2⟩, hr⟩

/-- C17 for visible ASCII text without underscore: accepted exactly if it is an integer in range. -/
theorem C17_plain_text (lim : Option Nat) (t : Xsd) (r : Option Int × Option Int)
    (ht : integerRange t.name = some r) (s : Str) (hp : ∀ c ∈ s, 33 ≤ c ∧ c < 128 ∧ c ≠ pc! '_') (hf : Fits lim s) :
    validate lim t s = .ok true ↔ ∃ n, IntegerText s n ∧ InRange r n := by
  constructor
  · intro h
    rw [validate_integer lim t r ht, Except.ok.injEq, bounded_iff] at h
    obtain ⟨n, h1, h2⟩ := h
    exact ⟨n, pyInt_plain h1 hp, h2⟩
  · rintro ⟨n, h1, h2⟩
    exact (C17_integers lim t r ht s n h1 hf).mpr h2

/-- "1_0" is no integer, but accepted as xs:byte. -/
theorem C17_underscore_violated : ∃ s, validate none .byte s = .ok true ∧ ¬ ∃ n, IntegerText s n := by
  refine ⟨py!"1_0", by decide +kernel, ?_⟩
  rintro ⟨n, h⟩
  have := integerText_plain h 95 (by simp)
  exact this.2.2 rfl

example : integerRange Xsd.unsignedByte.name = some (some 0, some 255) := by decide
example : IntegerText py!"-0128" (-128) := ⟨py!"0128", ⟨by simp, by simp [IsDigit]⟩, Or.inr (Or.inr ⟨rfl, by decide⟩)⟩
example : validate (some 4300) .byte py!"-0128" = .ok true ∧ validate (some 4300) .byte py!"128" = .ok false := by
  decide +kernel

/-! ## C23 -/

/-- C23: hexBinary accepts exactly pairs of hex digits with blanks between the pairs. -/
theorem C23_hex (lim : Option Nat) (s : Str) : validate lim .hexBinary s = .ok true ↔ HexText s := by
  rw [← isHexBinary_iff]; simp [validate]

/-- C23: every even-length string of hex digits is accepted. -/
theorem C23_hex_accepts : ∀ (lim : Option Nat) (s : Str), (∀ c ∈ s, HexDigit c) →
    (validate lim .hexBinary s = .ok true ↔ s.length % 2 = 0) := by
  intro lim s h
  rw [C23_hex]
  have key : ∀ n (s : Str), s.length ≤ n → (∀ c ∈ s, HexDigit c) → (HexText s ↔ s.length % 2 = 0) := by
    intro n
    induction n with
    | zero =>
      intro s hl _
      have : s = [] := List.length_eq_zero_iff.mp (by omega)
      subst this; simp [HexText.nil]
    | succ n ih =>
      intro s hl h
      match s with
      | [] => simp [HexText.nil]
      | [c] =>
        simp only [List.length_cons, List.length_nil]
        constructor
        · intro hx
          cases hx with
          | blank hb _ => exact absurd (h c (by simp)) (blank_not_hex hb)
        · intro hx; omega
      | a :: b :: s =>
        have := ih s (by simp at hl; omega) (fun c hc => h c (by simp [hc]))
        simp only [List.length_cons]
        constructor
        · intro hx
          cases hx with
          | blank hb _ => exact absurd (h a (by simp)) (blank_not_hex hb)
          | pair _ _ hx => have := this.mp hx; omega
        · intro hx; exact .pair (h a (by simp)) (h b (by simp)) (this.mpr (by omega))
  exact key s.length s (Nat.le_refl _) h

/-- C23: base64Binary accepts exactly the ASCII texts whose alphabet characters can be grouped and padded. -/
theorem C23_base64 (lim : Option Nat) (s : Str) :
    validate lim .base64Binary s = .ok true ↔ (∀ c ∈ s, c < 128) ∧ Groupable s := by
  have : validate lim .base64Binary s = .ok (isBase64Binary s) := rfl
  rw [this, Except.ok.injEq, isBase64Binary, Bool.and_eq_true, List.all_eq_true, a2b_iff s 0 0 (by omega) (by omega)]
  simp only [decide_eq_true_eq]
  refine and_congr_right fun _ => ?_
  unfold Groupable' Groupable
  simp only [Nat.zero_add]
  constructor
  · rintro (h | ⟨h, _⟩ | ⟨u, w, v, h1, h2, h3, h4, h5⟩)
    · exact Or.inl h
    · omega
    · exact Or.inr ⟨u, w, v, h1, h3, h4, h5⟩
  · rintro (h | ⟨u, w, v, h1, h3, h4, h5⟩)
    · exact Or.inl h
    · exact Or.inr (Or.inr ⟨u, w, v, h1, by omega, h3, h4, h5⟩)

/-- C23: every correctly padded base64 text is accepted. -/
theorem C23_base64_accepts (lim : Option Nat) (s : Str) (h : PaddedBase64 s) :
    validate lim .base64Binary s = .ok true := by
  rw [C23_base64]
  obtain ⟨d, pad, rfl, hd, hp⟩ := h
  have hcount : dataCount d = d.length := by
    rw [dataCount, List.countP_eq_length]
    intro c hc; simpa using hd c hc
  constructor
  · intro c hc
    rcases List.mem_append.mp hc with hc | hc
    · have := hd c hc; unfold Base64Char IsDigit at this; omega
    · rcases hp with ⟨rfl, _⟩ | ⟨rfl, _⟩ | ⟨rfl, _⟩
      · cases hc
      · simp at hc; omega
      · simp at hc; omega
  · rcases hp with ⟨rfl, hl⟩ | ⟨rfl, hl⟩ | ⟨rfl, hl⟩
    · left; rw [List.append_nil, hcount]; exact hl
    · right; refine ⟨d, [61], [], by simp, by simpa using eq_not_b64, by omega, ?_⟩
      simp; omega
    · right; refine ⟨d, [61, 61], [], by simp, by simpa using eq_not_b64, by omega, ?_⟩
      simp; omega

/-- C23: text with a single left-over alphabet character and no padding, or without enough padding, is
rejected. -/
theorem C23_base64_rejects (lim : Option Nat) (s : Str) (h : dataCount s % 4 ≠ 0) (hp : pc! '=' ∉ s) :
    validate lim .base64Binary s = .ok false := by
  have hno : ¬ validate lim .base64Binary s = .ok true := by
    rw [C23_base64]
    rintro ⟨_, h0 | ⟨u, w, v, rfl, _, _, hc⟩⟩
    · exact h h0
    · have : w.count 61 = 0 := List.count_eq_zero.mpr (fun hw => hp (by simp [hw]))
      have := Nat.mod_lt (dataCount u) (show 0 < 4 by omega)
      omega
  have : validate lim .base64Binary s = .ok (isBase64Binary s) := rfl
  rw [this] at hno ⊢
  cases hb : isBase64Binary s with
  | true => rw [hb] at hno; exact absurd rfl hno
  | false => rfl

/-- Characters outside of the alphabet are ignored: "!" and "====" are accepted although they are no base64. -/
theorem C23_base64_accepts_more : ∃ s, validate none .base64Binary s = .ok true ∧ ¬ PaddedBase64 s := by
  refine ⟨py!"!", by decide +kernel, ?_⟩
  rintro ⟨d, pad, e, hd, hp⟩
  cases d with
  | nil =>
    rcases hp with ⟨rfl, _⟩ | ⟨rfl, _⟩ | ⟨rfl, _⟩ <;> simp at e
  | cons c d =>
    simp at e
    have := hd c (by simp)
    rw [← e.1] at this
    unfold Base64Char IsDigit at this; omega

example : PaddedBase64 py!"QUFTRA==" :=
  ⟨py!"QUFTRA", py!"==", rfl, by simp [Base64Char, IsDigit], Or.inr (Or.inr ⟨rfl, rfl⟩)⟩
example : validate none .base64Binary py!"QUFTR" = .ok false := by decide +kernel
example : validate none .hexBinary py!"0aFF 1b" = .ok true := by decide +kernel
example : validate none .hexBinary py!"0a F" = .ok false := by decide +kernel

/-! ## C24 -/

/-- C24: boolean -/
theorem C24_boolean (lim : Option Nat) (s : Str) :
    validate lim .boolean s = .ok true ↔ s ∈ [py!"true", py!"false", py!"1", py!"0"] := by
  simp [validate]

/-- C24: special values of float and double -/
theorem C24_special (lim : Option Nat) (s : Str) (h : s ∈ [py!"INF", py!"-INF", py!"NaN"]) :
    validate lim .float s = .ok true ∧ validate lim .double s = .ok true := by
  simp only [List.mem_cons, List.not_mem_nil, or_false] at h
  simp [validate, isFloat, isDouble, isBoundedDouble, h]

theorem realText_head {s : Str} {D : Nat} {e : Int} (h : RealText s D e) :
    ¬ (s = py!"INF" ∨ s = py!"-INF" ∨ s = py!"NaN") := by
  have hlet : ∀ sign u x : Str, (sign = [] ∨ sign = [43] ∨ sign = [45]) → (∀ c, (u ++ x).head? = some c → IsDigit c ∨ c = 46) →
      u ≠ [] → ¬ (sign ++ u ++ x = py!"INF" ∨ sign ++ u ++ x = py!"-INF" ∨ sign ++ u ++ x = py!"NaN") := by
    intro sign u x hs hh hu
    cases u with
    | nil => exact absurd rfl hu
    | cons c u =>
      have := hh c rfl
      unfold IsDigit at this
      rcases hs with rfl | rfl | rfl <;> simp <;> omega
  obtain ⟨t, x, k, rfl, ⟨sign, u, rfl, hs, hu⟩, _⟩ := h
  apply hlet sign u x hs (unsignedDecimal_head hu x)
  obtain ⟨is, fs, _, hne, _, _, ht⟩ := hu
  rcases ht with ⟨rfl, rfl⟩ | rfl
  · simpa using hne
  · simp

theorem bounded_real {s : Str} {D : Nat} {e : Int} (h : RealText s D e) (max : Nat) :
    ∃ d, RoundsTo (fraction D e).1 (fraction D e).2 d ∧ isBoundedDouble s max = decide (d < max) := by
  obtain ⟨n, hn, h1, h2⟩ := scanFloat_real h
  refine ⟨n.absDouble, absDouble_rounds n h1 h2, ?_⟩
  rw [isBoundedDouble, if_neg (realText_head h), hn]

/-- number of units of 2^-1074 -/
def units (x : Nat) : Nat := x * 2 ^ 1074

set_option exponentiation.threshold 3000 in
theorem rounds_float {a b d : Nat} (hb : 0 < b) (h : RoundsTo a b d) :
    d < units maxFloat ↔ a < (maxFloat - 2 ^ 74) * b := by
  have e : units maxFloat = ((2 ^ 24 - 1) * 2 ^ 29) * 2 ^ (75 + 1074) := by decide +kernel
  rw [e, rounds_lt hb (by decide +kernel) (by decide +kernel) h]
  have e2 : (2 * ((2 ^ 24 - 1) * 2 ^ 29) - 1) * 2 ^ (75 + 1074) = (maxFloat - 2 ^ 74) * 2 * 2 ^ 1074 := by decide +kernel
  have e3 : ¬ ((2 ^ 24 - 1) * 2 ^ 29) % 2 = 1 := by decide +kernel
  rw [e2]
  have e4 : (maxFloat - 2 ^ 74) * 2 * 2 ^ 1074 * b = 2 * 2 ^ 1074 * ((maxFloat - 2 ^ 74) * b) := by
    generalize maxFloat - 2 ^ 74 = x
    generalize 2 ^ 1074 = y
    ac_rfl
  have e5 : 2 * (a * 2 ^ 1074) = 2 * 2 ^ 1074 * a := by
    generalize 2 ^ 1074 = y
    ac_rfl
  rw [e4, e5]
  constructor
  · rintro (h | ⟨_, h⟩)
    · exact Nat.lt_of_mul_lt_mul_left h
    · exact absurd h e3
  · intro h
    left
    exact Nat.mul_lt_mul_of_pos_left h (Nat.mul_pos (by omega) (Nat.pow_pos (by omega)))

set_option exponentiation.threshold 3000 in
theorem rounds_double {a b d : Nat} (hb : 0 < b) (h : RoundsTo a b d) :
    d < units maxDouble ↔ a ≤ (maxDouble - 2 ^ 970) * b := by
  have e : units maxDouble = (2 ^ 53 - 1) * 2 ^ (971 + 1074) := by decide +kernel
  rw [e, rounds_lt hb (by decide +kernel) (by decide +kernel) h]
  have e2 : (2 * (2 ^ 53 - 1) - 1) * 2 ^ (971 + 1074) = (maxDouble - 2 ^ 970) * 2 * 2 ^ 1074 := by decide +kernel
  have e3 : (2 ^ 53 - 1) % 2 = 1 := by decide +kernel
  rw [e2]
  have e4 : (maxDouble - 2 ^ 970) * 2 * 2 ^ 1074 * b = 2 * 2 ^ 1074 * ((maxDouble - 2 ^ 970) * b) := by
    generalize maxDouble - 2 ^ 970 = x
    generalize 2 ^ 1074 = y
    ac_rfl
  have e5 : 2 * (a * 2 ^ 1074) = 2 * 2 ^ 1074 * a := by
    generalize 2 ^ 1074 = y
    ac_rfl
  rw [e4, e5]
  have hpos : 0 < 2 * 2 ^ 1074 := Nat.mul_pos (by omega) (Nat.pow_pos (by omega))
  constructor
  · rintro (h | ⟨h, _⟩)
    · exact Nat.le_of_lt (Nat.lt_of_mul_lt_mul_left h)
    · exact Nat.le_of_eq (Nat.eq_of_mul_eq_mul_left hpos h)
  · intro h
    rcases Nat.lt_or_eq_of_le h with h | h
    · left; exact Nat.mul_lt_mul_of_pos_left h hpos
    · right; exact ⟨by rw [h], e3⟩

theorem floatBound_units : toDouble (34028234663852886 * 10 ^ 22) 1 = units maxFloat := by decide +kernel
theorem doubleBound_units : toDouble (17976931348623158 * 10 ^ 292) 1 = units maxDouble := by decide +kernel

/-- C24: a real literal is accepted as xs:float exactly if its value, rounded to a double (nearest, ties to
even), is smaller than the largest finite float. -/
theorem C24_float (lim : Option Nat) (s : Str) (D : Nat) (e : Int) (h : RealText s D e) :
    (validate lim .float s = .ok true ↔
      ∃ d, RoundsTo (fraction D e).1 (fraction D e).2 d ∧ d < units maxFloat) ∧
    (validate lim .float s = .ok true ↔ (fraction D e).1 < (maxFloat - 2 ^ 74) * (fraction D e).2) := by
  have hv : validate lim .float s = .ok (isBoundedDouble s (units maxFloat)) := by
    show Except.ok (isFloat s) = _
    rw [isFloat, floatBound_units]
  obtain ⟨d, hd, hb⟩ := bounded_real h (units maxFloat)
  rw [hv, hb]
  simp only [Except.ok.injEq, decide_eq_true_eq]
  have hp := fraction_pos D e
  refine ⟨⟨fun hl => ⟨d, hd, hl⟩, ?_⟩, rounds_float hp hd⟩
  rintro ⟨d', hd', hl⟩
  exact (rounds_float hp hd).mpr ((rounds_float hp hd').mp hl)

/-- C24: the same for xs:double -/
theorem C24_double (lim : Option Nat) (s : Str) (D : Nat) (e : Int) (h : RealText s D e) :
    (validate lim .double s = .ok true ↔
      ∃ d, RoundsTo (fraction D e).1 (fraction D e).2 d ∧ d < units maxDouble) ∧
    (validate lim .double s = .ok true ↔ (fraction D e).1 ≤ (maxDouble - 2 ^ 970) * (fraction D e).2) := by
  have hv : validate lim .double s = .ok (isBoundedDouble s (units maxDouble)) := by
    show Except.ok (isDouble s) = _
    rw [isDouble, doubleBound_units]
  obtain ⟨d, hd, hb⟩ := bounded_real h (units maxDouble)
  rw [hv, hb]
  simp only [Except.ok.injEq, decide_eq_true_eq]
  have hp := fraction_pos D e
  refine ⟨⟨fun hl => ⟨d, hd, hl⟩, ?_⟩, rounds_double hp hd⟩
  rintro ⟨d', hd', hl⟩
  exact (rounds_double hp hd).mpr ((rounds_double hp hd').mp hl)

/-- C24: text of visible ASCII characters without underscore that is accepted as float or double is a
special value or a real literal. -/
theorem C24_float_text (lim : Option Nat) (s : Str) (hp : ∀ c ∈ s, 33 ≤ c ∧ c < 128 ∧ c ≠ pc! '_')
    (h : validate lim .float s = .ok true ∨ validate lim .double s = .ok true) :
    s ∈ [py!"INF", py!"-INF", py!"NaN"] ∨ ∃ D e, RealText s D e := by
  obtain ⟨max, h⟩ : ∃ max, isBoundedDouble s max = true := by
    rcases h with h | h
    · exact ⟨_, by injection h⟩
    · exact ⟨_, by injection h⟩
  rw [isBoundedDouble] at h
  split at h
  · rename_i hs; left; simpa using hs
  · right
    split at h
    · rename_i n hn
      exact ⟨_, _, scanFloat_inv hp hn⟩
    · cases h

/-- The largest finite float, 340282346638528859811704183484516925440, is a value of xs:float but rejected. -/
theorem C24_largest_float_rejected : ∃ s, RealText s maxFloat 0 ∧ validate none .float s = .ok false := by
  refine ⟨py!"340282346638528859811704183484516925440", ?_, by decide +kernel⟩
  refine ⟨_, [], 0, (List.append_nil _).symm, ⟨[], _, rfl, Or.inl rfl, _, [], ?_, ?_, ?_, rfl, Or.inl ⟨rfl, rfl⟩⟩,
    Or.inl ⟨rfl, rfl⟩⟩
  · simp [IsDigit]
  · simp
  · decide +kernel

theorem decimalRange_of {n : Num} (he : n.exp = 0)
    (hl : (n.int ++ n.frac).length ≤ 10 ^ 18) : decimalRange n = true := by
  have h1 : (n.int ++ n.frac).length = n.int.length + n.frac.length := List.length_append
  have h2 : ((n.int ++ n.frac).dropWhile (· == 0)).length ≤ (n.int ++ n.frac).length :=
    (List.dropWhile_sublist _).length_le
  rw [decimalRange, sigDigits]
  simp only [Bool.and_eq_true, decide_eq_true_eq]
  omega

/-- C24: every XSD decimal literal is accepted (if it is not longer than 10^18 characters). -/
theorem C24_decimal (lim : Option Nat) (s : Str) (D k : Nat) (h : DecimalText s D k) (hl : s.length ≤ 10 ^ 18) :
    validate lim .decimal s = .ok true := by
  have hp := decimalText_plain h
  obtain ⟨sign, u, rfl, hs, hu⟩ := h
  have hhead := unsignedDecimal_head hu []
  rw [List.append_nil] at hhead
  have hts : takeSign (sign ++ u) = (decide (sign = [45]), u) := by
    apply takeSign_unsigned hs
    intro c hc
    have := hhead c hc
    unfold IsDigit at this; omega
  obtain ⟨is, fs, hd, hne, hD, hk, hu'⟩ := hu
  have hfil : (sign ++ u).filter (· ≠ 95) = sign ++ u := by
    rw [List.filter_eq_self]
    intro c hc
    simpa using (hp c hc).2.2
  have hsc : scanFinite (decide (sign = [45])) u = some ⟨decide (sign = [45]), is.map (· - 48), fs.map (· - 48), 0⟩ := by
    have := scanFinite_of (decide (sign = [45])) hd hne hu' (x := []) (n := 0) (Or.inl ⟨rfl, rfl⟩)
    rwa [List.append_nil] at this
  show Except.ok (isDecimal (sign ++ u)) = _
  rw [isDecimal, stripBy_isSpace_plain hp, hfil]
  simp only [hts]
  rw [if_neg (by
    rintro (h | h)
    · exact low_ne hhead _ _ (by omega) h
    · exact low_ne hhead _ _ (by omega) h),
    low_not_word hhead _ _ (by omega), low_not_word hhead _ _ (by omega)]
  simp only [Bool.false_eq_true, if_false, hsc]
  rw [decimalRange_of rfl]
  have hlen : is.length + fs.length ≤ u.length := by
    rcases hu' with ⟨rfl, rfl⟩ | rfl
    · simp
    · simp
  simp at hl ⊢
  omega

/-- The infinities and NaNs of Python's `Decimal`, in any case, NaNs with digits after them. -/
def DecimalSpecial (s : Str) : Prop :=
  ∃ sign w ds, s = sign ++ w ++ ds ∧ (sign = [] ∨ sign = [pc! '+'] ∨ sign = [pc! '-']) ∧
    ((w.map lower ∈ [py!"inf", py!"infinity"] ∧ ds = []) ∨ (w.map lower ∈ [py!"nan", py!"snan"] ∧ ∀ c ∈ ds, IsDigit c))

theorem isDigit_of_val {c : Nat} (hc : c < 128) (h : (digitVal c).isSome = true) : IsDigit c := by
  cases hd : digitVal c with
  | none => simp [hd] at h
  | some d => exact (digitVal_ascii hd hc).1

theorem drop_prefix {p low body : Str} (hl : low = body.map lower) (h : p.isPrefixOf low = true) :
    (body.take p.length).map lower = p := by
  rw [List.isPrefixOf_iff_prefix] at h
  obtain ⟨r, hr⟩ := h
  rw [List.map_take, ← hl, ← hr]; simp

/-- C24: of the texts of visible ASCII characters without underscores nothing is accepted but decimal literals, with an exponent
or not, and the special values. -/
theorem C24_decimal_sound (lim : Option Nat) (s : Str) (hp : Plain s) (h : validate lim .decimal s = .ok true) :
    (∃ D e, RealText s D e) ∨ DecimalSpecial s := by
  have hfil : s.filter (· ≠ 95) = s := by
    rw [List.filter_eq_self]
    intro c hc
    simpa using (hp c hc).2.2
  injection h with h
  rw [isDecimal, stripBy_isSpace_plain hp, hfil] at h
  obtain ⟨sign, e, hs⟩ := takeSign_spec s
  generalize takeSign s = ts at h e hs
  obtain ⟨neg, body⟩ := ts
  simp only at h e hs
  have hsign : sign = [] ∨ sign = [pc! '+'] ∨ sign = [pc! '-'] := by
    rcases hs with ⟨_, rfl | rfl⟩ | ⟨_, rfl⟩ <;> simp
  have hlt : ∀ c ∈ body, c < 128 := fun c hc => (hp c (by rw [e]; simp [hc])).2.1
  split at h
  · rename_i hw
    exact .inr ⟨sign, body, [], by rw [e]; simp, hsign, .inl ⟨by simpa using hw, rfl⟩⟩
  · split at h
    · rename_i payload hn
      right
      have hdig : ∀ n, payload = body.drop n → ∀ c ∈ body.drop n, IsDigit c := by
        intro n hn c hc
        rw [hn, List.all_eq_true] at h
        exact isDigit_of_val (hlt c (List.mem_of_mem_drop hc)) (h c hc)
      split at hn
      · rename_i hpre
        injection hn with hn
        refine ⟨sign, body.take 3, body.drop 3, by rw [e]; simp, hsign, .inr ⟨?_, hdig 3 hn.symm⟩⟩
        have := drop_prefix rfl hpre
        simp only [List.length_cons, List.length_nil] at this
        rw [this]; simp
      · split at hn
        · rename_i hpre
          injection hn with hn
          refine ⟨sign, body.take 4, body.drop 4, by rw [e]; simp, hsign, .inr ⟨?_, hdig 4 hn.symm⟩⟩
          have := drop_prefix rfl hpre
          simp only [List.length_cons, List.length_nil] at this
          rw [this]; simp
        · cases hn
    · cases hsc : scanFinite neg body with
      | none => rw [hsc] at h; cases h
      | some num =>
        left
        obtain ⟨t, x, is, fs, e2, hd, hne, ht, hx, hn⟩ := scanFinite_inv hlt hsc
        refine ⟨decimalValue (is ++ fs), num.exp - fs.length, sign ++ t, x, fs.length, by rw [e, e2]; simp,
          ⟨sign, t, rfl, hsign, is, fs, hd, hne, rfl, rfl, ht⟩, ?_⟩
        rcases hx with ⟨rfl, h0⟩ | ⟨E, y, rfl, hE, hy⟩
        · exact Or.inl ⟨rfl, by rw [h0]; omega⟩
        · exact Or.inr ⟨E, y, _, rfl, hE, hy, rfl⟩

/-- C24: of the texts of digits, signs and points exactly the XSD decimal literals are accepted. -/
theorem C24_decimal_exact (lim : Option Nat) (s : Str) (hc : ∀ c ∈ s, IsDigit c ∨ c ∈ py!"+-.") (hl : s.length ≤ 10 ^ 18) :
    validate lim .decimal s = .ok true ↔ ∃ D k, DecimalText s D k := by
  refine ⟨fun h => ?_, fun ⟨D, k, h⟩ => C24_decimal lim s D k h hl⟩
  have hc' : ∀ c ∈ s, 43 ≤ c ∧ c < 58 := by
    intro c hm
    have := hc c hm
    simp [IsDigit] at this
    omega
  have hp : Plain s := fun c hm => ⟨by have := hc' c hm; omega, by have := hc' c hm; omega, by have := hc' c hm; omega⟩
  rcases C24_decimal_sound lim s hp h with ⟨D, e, t, x, k, rfl, hd, hx⟩ | ⟨sign, w, ds, rfl, -, hw⟩
  · rcases hx with ⟨rfl, -⟩ | ⟨E, y, n, rfl, hE, -, -⟩
    · exact ⟨D, k, by rwa [List.append_nil]⟩
    · have := hc' E (by simp)
      omega
  · exfalso
    have hm : w.map lower = w := by
      have : ∀ c ∈ w, lower c = c := by
        intro c hm
        have := hc' c (by simp [hm])
        unfold lower
        rw [if_neg (by simp; omega)]
      clear hc hc' hp h hw hl
      induction w with
      | nil => rfl
      | cons c w ih => rw [List.map_cons, this c (by simp), ih (fun c h => this c (by simp [h]))]
    have hb : ∀ c ∈ w, c < 58 := fun c hm => (hc' c (by simp [hm])).2
    rw [hm] at hw
    rcases hw with ⟨hw, -⟩ | ⟨hw, -⟩ <;> simp only [List.mem_cons, List.not_mem_nil, or_false] at hw <;>
      rcases hw with rfl | rfl <;> revert hb <;> decide

example : ∃ D k, DecimalText py!"+00.50" D k :=
  ⟨_, _, py!"+", py!"00.50", rfl, .inr (.inl rfl), py!"00", py!"50", by simp [IsDigit], by decide, rfl, rfl, .inr rfl⟩
example : ¬ ∃ D k, DecimalText py!"1.2.3" D k := by
  rw [← C24_decimal_exact none _ (by simp [IsDigit]) (by decide)]; decide +kernel

/-- More than XSD decimals is accepted: exponents, infinities, NaNs with payload. -/
theorem C24_decimal_accepts_more : validate none .decimal py!"1E5" = .ok true ∧
    validate none .decimal py!"-Infinity" = .ok true ∧ validate none .decimal py!"sNaN123" = .ok true ∧
    ¬ ∃ D k, DecimalText py!"1E5" D k := by
  refine ⟨by decide +kernel, by decide +kernel, by decide +kernel, ?_⟩
  rintro ⟨D, k, sign, t, e, hs, is, fs, hd, _, _, _, ht⟩
  have hmem : 69 ∈ sign ++ t := by rw [← e]; simp
  rcases List.mem_append.mp hmem with h | h
  · rcases hs with rfl | rfl | rfl <;> simp at h
  · have : 69 ∈ is ++ fs := by
      rcases ht with ⟨rfl, rfl⟩ | rfl
      · simpa using h
      · simpa using h
    have := hd 69 this
    unfold IsDigit at this; omega

example : RealText py!"-12.50E-3" 1250 (-5) := by
  refine ⟨py!"-12.50", py!"E-3", 2, rfl, ⟨py!"-", py!"12.50", rfl, Or.inr (Or.inr rfl), py!"12", py!"50", ?_, by simp,
    by decide, rfl, Or.inr rfl⟩, Or.inr ⟨69, py!"-3", -3, rfl, Or.inr rfl, ⟨py!"3", ⟨by simp, by simp [IsDigit]⟩,
    Or.inr (Or.inr ⟨rfl, by decide⟩)⟩, by decide⟩⟩
  simp [IsDigit]
example : validate none .double py!"1.7976931348623157e308" = .ok false ∧
    validate none .double py!"1.7976931348623155e308" = .ok true ∧ validate none .float py!"-3.4028234e38" = .ok true ∧
    validate none .float py!"1e400" = .ok false := by decide +kernel

/-! ## C28 -/

theorem gMonthDay_total (lim : Option Nat) (s : Str) (h : Fits lim s) :
    ∃ b, validate lim .gMonthDay s = .ok b := by
  by_cases hm : anchoredMatch gMonthDayRe s = true
  · have hlen : 2 ≤ s.length := by
      rcases (anchoredMatch_iff _ _).mp hm with hr | ⟨u, rfl, hr⟩
      · obtain ⟨ms, m, ds, d, tz, rfl, _⟩ := (m_gMonthDayRe _).mp hr
        simp
      · obtain ⟨ms, m, ds, d, tz, rfl, _⟩ := (m_gMonthDayRe _).mp hr
        simp
    obtain ⟨b, hb, _⟩ := C21_gMonthDay_partial lim s (fun l hl => Nat.le_trans hlen (h l hl))
    exact ⟨b, hb⟩
  · refine ⟨false, ?_⟩
    show isXsGMonthDay lim s = _
    rw [isXsGMonthDay, Bool.eq_false_iff.mpr hm]; rfl

/-- C28: for each of the 30 value types the check of a text returns a verdict. Partial: only if the text is not
longer than the interpreter's limit for integer conversions; see `C28_long_year_violated`. -/
theorem C28_total_partial (lim : Option Nat) (t : Xsd) (s : Str) (h : Fits lim s) :
    ∃ b, validate lim t s = .ok b := by
  cases t
  case date => obtain ⟨b, hb, _⟩ := C18_date_partial lim s h; exact ⟨b, hb⟩
  case dateTime => obtain ⟨b, hb, _⟩ := C20_date_time_partial lim s h; exact ⟨b, hb⟩
  case gMonthDay => exact gMonthDay_total lim s h
  all_goals exact ⟨_, rfl⟩

/-- C28: for the types other than dates there is no limit. -/
theorem C28_total (lim : Option Nat) (t : Xsd) (s : Str) (ht : t ≠ .date ∧ t ≠ .dateTime ∧ t ≠ .gMonthDay) :
    ∃ b, validate lim t s = .ok b := by
  cases t
  case date => exact absurd rfl ht.1
  case dateTime => exact absurd rfl ht.2.1
  case gMonthDay => exact absurd rfl ht.2.2
  all_goals exact ⟨_, rfl⟩

theorem isXsDate_kind {lim : Option Nat} {s : Str} {e : PyExc} (h : isXsDate lim s = .error e) : e = .valueError := by
  rcases isXsDate_cases lim s with ⟨h', _⟩ | ⟨h', _⟩ | ⟨_, _, _, _, _, _, _, h'⟩ <;> rw [h] at h' <;> cases h'
  rfl

/-- C28: an exception raised by the check of a text is a `ValueError`. -/
theorem C28_kind {lim : Option Nat} {t : Xsd} {s : Str} {e : PyExc} (h : validate lim t s = .error e) :
    e = .valueError := by
  cases t
  case date => exact isXsDate_kind h
  case dateTime =>
    have h : dateTimeWith dateTimeRe lim s = .error e := h
    rw [dateTimeWith] at h
    split at h
    · cases h
    · split at h
      · exact isXsDate_kind h
      · cases h; rfl
  case gMonthDay =>
    by_cases hl : tooLong lim 2 = true
    · have h : isXsGMonthDay lim s = .error e := h
      rw [isXsGMonthDay] at h
      by_cases hm : anchoredMatch gMonthDayRe s = true
      · rw [hm] at h
        simp only [Bool.not_true, Bool.false_eq_true, if_false] at h
        obtain ⟨ms, m, x, e', h1⟩ : ∃ ms m x, s = py!"--" ++ ms ++ x ∧ TwoDigit ms m := by
          rcases (anchoredMatch_iff _ _).mp hm with h | ⟨u, hu, h⟩ <;>
            obtain ⟨ms, m, ds, d, tz, e, h, _⟩ := (m_gMonthDayRe _).mp h
          · exact ⟨ms, m, _, by rw [e]; simp only [List.append_assoc]; rfl, h⟩
          · exact ⟨ms, m, _, by rw [hu, e]; simp only [List.append_assoc]; rfl, h⟩
        obtain ⟨a, b, rfl, -⟩ := (twoDigit_iff _ _).mp h1
        have e1 : (s.drop 2).take 2 = [a, b] := by rw [e']; simp
        rw [e1, intE, pyInt_numeral lim h1.1, h1.2.1, hl] at h
        cases h; rfl
      · rw [Bool.eq_false_iff.mpr hm] at h; cases h
    · obtain ⟨b, hb, _⟩ := C21_gMonthDay_partial lim s (fun l hl' => by
        subst hl'; simp [tooLong] at hl; omega)
      rw [h] at hb; cases hb
  all_goals cases h

/-- For every limit there is a valid date for which the check raises instead of returning a verdict. -/
theorem C28_long_year_violated (l : Nat) :
    ∃ s, DateText s ∧ validate (some l) .date s = .error .valueError := by
  -- the year 1 followed by zeros
  obtain ⟨ys, hys⟩ : ∃ ys : Str, ys = 49 :: List.replicate (l + 4) 48 := ⟨_, rfl⟩
  have hdig : ∀ c ∈ ys, IsDigit c := by
    intro c hc
    rw [hys] at hc
    rcases List.mem_cons.mp hc with rfl | hc
    · unfold IsDigit; omega
    · rw [List.mem_replicate] at hc; unfold IsDigit; omega
  have hnum : YearNumeral ys (decimalValue ys) :=
    ⟨⟨by simp [hys], hdig⟩, by simp [hys], by simp [hys], rfl⟩
  have hpos : ∀ (t : Str) (n : Nat), 0 < n → 0 < t.foldl (fun n c => n * 10 + (c - 48)) n := by
    intro t
    induction t with
    | nil => intro n h; exact h
    | cons c t ih => intro n h; exact ih (n * 10 + (c - 48)) (by omega)
  have hval : 0 < decimalValue ys := by
    rw [hys, decimalValue, List.foldl_cons]
    exact hpos _ _ (by omega)
  have hy : SignedYear ys (decimalValue ys) := Or.inl ⟨_, hnum, rfl⟩
  have h01 : TwoDigit py!"01" 1 := (twoDigit_iff _ _).mpr ⟨48, 49, rfl, by unfold IsDigit; omega, by unfold IsDigit; omega, rfl⟩
  have hex : DateExists (decimalValue ys) 1 1 := by
    refine ⟨by omega, by omega, by omega, by omega, ?_⟩
    show 1 ≤ 31; omega
  have hplain : PlainDate (ys ++ 45 :: py!"01" ++ 45 :: py!"01") := ⟨ys, _, _, 1, _, 1, rfl, hy, h01, h01, hex⟩
  have hdt : DateText (ys ++ 45 :: py!"01" ++ 45 :: py!"01" ++ []) := ⟨_, [], rfl, hplain, Or.inl rfl⟩
  refine ⟨_, hdt, ?_⟩
  have hm : anchoredMatch dateRe (ys ++ 45 :: py!"01" ++ 45 :: py!"01" ++ []) = true := by
    rw [anchoredMatch_iff]; exact Or.inl (dateText_match hplain (Or.inl rfl))
  have := isXsDate_shape (some l) hy h01 h01 (by omega) (by omega) [] hm
  show isXsDate _ _ = _
  rw [this, if_pos]
  simp [tooLong, yearDigits, hys]
  omega

example : Fits (some 4300) py!"2024-02-29" := by intro l h; injection h with h; subst h; decide

end Verif.Props
