import Verif.Spec.DataTypes
import Verif.Spec.Strings
import Verif.DataTypes

/-!
# Specification: exactly which texts the value types accept

XML Schema's lexical forms are in `Spec/DataTypes.lean`. The program reads numbers with Python's `int`, `float`
and `Decimal`, which accept more than XML Schema does: white space around the number, digits of other scripts,
underscores. Here is the exact set of texts. `dv` says which characters are digits and gives their values, `ws`
which characters are white space.
-/

namespace Verif.Spec
open Verif

/-- the characters of `t` are digits, with the values `vs` -/
def DigitsOf (dv : Nat → Option Nat) (t : Str) (vs : List Nat) : Prop := t.map dv = vs.map some

/-- the number with the given decimal digits -/
def number (vs : List Nat) : Nat := vs.foldl (fun n d => n * 10 + d) 0

def Sign (t : Str) : Prop := t = [] ∨ t = [pc! '+'] ∨ t = [pc! '-']

/-- digits with an optional sign -/
def SignedDigits (dv : Nat → Option Nat) (s : Str) (n : Int) : Prop :=
  ∃ sign t vs, s = sign ++ t ∧ Sign sign ∧ t ≠ [] ∧ DigitsOf dv t vs ∧
    n = if sign = [pc! '-'] then -(number vs : Int) else number vs

/-- optional sign, digits with optional point (at least one digit), optional exponent: the absolute value is
`D * 10^e` -/
def PyReal (dv : Nat → Option Nat) (s : Str) (D : Nat) (e : Int) : Prop :=
  ∃ sign i m f x is fs, s = sign ++ i ++ m ++ x ∧ Sign sign ∧ DigitsOf dv i is ∧ DigitsOf dv f fs ∧ is ++ fs ≠ [] ∧
    ((m = [] ∧ fs = []) ∨ m = pc! '.' :: f) ∧ D = number (is ++ fs) ∧
    ((x = [] ∧ e = -(fs.length : Int)) ∨
      ∃ E y n, x = E :: y ∧ (E = pc! 'e' ∨ E = pc! 'E') ∧ SignedDigits dv y n ∧ e = n - fs.length)

def withoutUnderscores (s : Str) : Str := s.filter (· ≠ pc! '_')

/-- every underscore is between two digits -/
def Separated (dv : Nat → Option Nat) (s : Str) : Prop :=
  ∀ a b, s = a ++ pc! '_' :: b →
    (∃ c v, a.getLast? = some c ∧ dv c = some v) ∧ ∃ c v, b.head? = some c ∧ dv c = some v

/-- `s` is `t` with white space around it -/
def Spaced (ws : Nat → Bool) (s t : Str) : Prop :=
  ∃ a b, s = a ++ t ++ b ∧ (∀ c ∈ a, ws c = true) ∧ ∀ c ∈ b, ws c = true

/-- text that Python's `float` reads as a finite number of absolute value `D * 10^e` -/
def PyFloatText (dv : Nat → Option Nat) (ws : Nat → Bool) (s : Str) (D : Nat) (e : Int) : Prop :=
  ∃ t, Spaced ws s t ∧ Separated dv t ∧ PyReal dv (withoutUnderscores t) D e

/-- ASCII letters in lower case -/
def asciiLower (c : Nat) : Nat := if pc! 'A' ≤ c ∧ c ≤ pc! 'Z' then c + 32 else c

/-- infinities and NaNs, in any case, NaNs with digits after them -/
def PySpecial (dv : Nat → Option Nat) (s : Str) : Prop :=
  ∃ sign w ds, s = sign ++ w ++ ds ∧ Sign sign ∧
    ((w.map asciiLower ∈ [py!"inf", py!"infinity"] ∧ ds = []) ∨
      (w.map asciiLower ∈ [py!"nan", py!"snan"] ∧ ∀ c ∈ ds, dv c ≠ none))

/-- `D` has `k` decimal digits -/
def DigitCount (D k : Nat) : Prop := (D = 0 ∧ k = 1) ∨ (10 ^ (k - 1) ≤ D ∧ D < 10 ^ k)

/-- exponents of Python's `Decimal` on 64 bit machines -/
def DecimalExponent (D : Nat) (e : Int) : Prop :=
  ∃ k, DigitCount D k ∧ e + k - 1 ≤ 999999999999999999 ∧ -1999999999999999997 ≤ e

/-- text that Python's `Decimal` reads: underscores are ignored anywhere -/
def PyDecimalText (dv : Nat → Option Nat) (ws : Nat → Bool) (s : Str) : Prop :=
  ∃ t, Spaced ws s t ∧
    (PySpecial dv (withoutUnderscores t) ∨ ∃ D e, PyReal dv (withoutUnderscores t) D e ∧ DecimalExponent D e)

/-- number of digits of a year -/
def yearLength (ys : Str) : Nat := (ys.filter (· ≠ pc! '-')).length

/-- text of the form year, month, day where month is up to 12 and day up to 31, and the number of digits of the
year -/
def DateForm (t : Str) (k : Nat) : Prop :=
  ∃ ys y ms m ds d, t = ys ++ pc! '-' :: ms ++ pc! '-' :: ds ∧ SignedYear ys y ∧ TwoDigit ms m ∧ TwoDigit ds d ∧
    1 ≤ m ∧ m ≤ 12 ∧ 1 ≤ d ∧ d ≤ 31 ∧ k = yearLength ys

/-- more digits than the interpreter converts to an integer -/
def TooLong (lim : Option Nat) (k : Nat) : Prop := ∃ l, lim = some l ∧ l < k

/-- xs:date with a year of too many digits -/
def LongDate (lim : Option Nat) : Str → Prop :=
  OrLineFeed fun s => ∃ t tz k, s = t ++ tz ∧ DateForm t k ∧ OptTimeZone tz ∧ TooLong lim k

/-- xs:dateTime with a year of too many digits; `Z` says which time zones there are -/
def LongDateTime (Z : Str → Prop) (lim : Option Nat) : Str → Prop :=
  OrLineFeed fun s => ∃ d t tz k, s = d ++ pc! 'T' :: t ++ tz ∧ DateForm d k ∧ TimeOfDay t ∧ Z tz ∧ TooLong lim k

/-- xs:gMonthDay in an interpreter that does not convert two digits -/
def LongMonthDay (lim : Option Nat) : Str → Prop :=
  OrLineFeed fun s => ∃ ms m ds d tz, s = py!"--" ++ ms ++ pc! '-' :: ds ++ tz ∧ TwoDigit ms m ∧ TwoDigit ds d ∧
    (1 ≤ m ∧ m ≤ 12) ∧ (1 ≤ d ∧ d ≤ 31) ∧ OptTimeZone tz ∧ TooLong lim 2

/-- integer in the given range that the interpreter converts -/
def IntegerIn (dv : Nat → Option Nat) (ws : Nat → Bool) (lim : Option Nat) (r : Option Int × Option Int) (s : Str) : Prop :=
  ∃ n k, PyIntText dv ws s n k ∧ ¬ TooLong lim k ∧ InRange r n

/-- the check of `s` as a value of type `t` raises an exception -/
def ValueFails (lim : Option Nat) : DataTypes.Xsd → Str → Prop
  | .date, s => LongDate lim s
  | .dateTime, s => LongDateTime OptTimeZone lim s
  | .gMonthDay, s => LongMonthDay lim s
  | _, _ => False

/-- The texts that are accepted as values of the 30 types; `dv`, `ws` and `sp` are Python's digits, white space
around `int` and `float`, and white space around `Decimal`. -/
def ValueAccepted (dv : Nat → Option Nat) (ws sp : Nat → Bool) (lim : Option Nat) : DataTypes.Xsd → Str → Prop
  | .string, _ => True
  | .boolean, s => s ∈ [py!"true", py!"false", py!"1", py!"0"]
  | .decimal, s => PyDecimalText dv sp s
  | .float, s => s ∈ [py!"INF", py!"-INF", py!"NaN"] ∨
      ∃ D e, PyFloatText dv ws s D e ∧ (fraction D e).1 < (maxFloat - 2 ^ 74) * (fraction D e).2
  | .double, s => s ∈ [py!"INF", py!"-INF", py!"NaN"] ∨
      ∃ D e, PyFloatText dv ws s D e ∧ (fraction D e).1 ≤ (maxDouble - 2 ^ 970) * (fraction D e).2
  | .integer, s => IntegerIn dv ws lim (none, none) s
  | .byte, s => IntegerIn dv ws lim (some (-2 ^ 7), some (2 ^ 7 - 1)) s
  | .short, s => IntegerIn dv ws lim (some (-2 ^ 15), some (2 ^ 15 - 1)) s
  | .int, s => IntegerIn dv ws lim (some (-2 ^ 31), some (2 ^ 31 - 1)) s
  | .long, s => IntegerIn dv ws lim (some (-2 ^ 63), some (2 ^ 63 - 1)) s
  | .unsignedByte, s => IntegerIn dv ws lim (some 0, some (2 ^ 8 - 1)) s
  | .unsignedShort, s => IntegerIn dv ws lim (some 0, some (2 ^ 16 - 1)) s
  | .unsignedInt, s => IntegerIn dv ws lim (some 0, some (2 ^ 32 - 1)) s
  | .unsignedLong, s => IntegerIn dv ws lim (some 0, some (2 ^ 64 - 1)) s
  | .positiveInteger, s => IntegerIn dv ws lim (some 1, none) s
  | .nonNegativeInteger, s => IntegerIn dv ws lim (some 0, none) s
  | .negativeInteger, s => IntegerIn dv ws lim (none, some (-1)) s
  | .nonPositiveInteger, s => IntegerIn dv ws lim (none, some 0) s
  | .date, s => OrLineFeed DateText s ∧ ¬ LongDate lim s
  | .dateTime, s => OrLineFeed DateTimeText s ∧ ¬ LongDateTime OptTimeZone lim s
  | .gMonthDay, s => OrLineFeed GMonthDayText s ∧ ¬ LongMonthDay lim s
  | .gYearMonth, s => GYearMonthText s
  | .gDay, s => GDayText s
  | .gMonth, s => GMonthText s
  | .gYear, s => GYearText s
  | .time, s => TimeText s
  | .duration, s => DurationText s
  | .anyURI, s => OrLineFeed (IriReference CodeGroups) s
  | .base64Binary, s => (∀ c ∈ s, c < 128) ∧ Groupable s
  | .hexBinary, s => HexText s

/-- the texts accepted as values of a type, with the digits and the white space of Python -/
abbrev Accepted (lim : Option Nat) (t : DataTypes.Xsd) (s : Str) : Prop :=
  ValueAccepted DataTypes.digitVal DataTypes.numSpace Py.isSpace lim t s

/-- what the string types of the meta-model accept apart from length and character set: like `Format`, but a line feed
may follow a path or a point in time, IPv6 addresses are restricted, and years have limited length -/
def FormatAccepted (lim : Option Nat) : Aas.SfvCls → Str → Prop
  | .pathString, s => OrLineFeed (IriReference CodeGroups) s
  | .dateTime, s => OrLineFeed DateTimeText s ∧ ¬ LongDateTime OptTimeZone lim s
  | .dateTimeUtc, s => OrLineFeed DateTimeUtcText s ∧ ¬ LongDateTime UtcZone lim s
  | c, s => Format c s

end Verif.Spec
