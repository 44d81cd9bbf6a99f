import Verif.Py

/-!
# Specification of value types: XML Schema lexical forms and the calendar

Nothing in this file refers to regular expressions or to the functions of the model.
-/

namespace Verif.Spec
open Verif

/-! ## numerals -/

def IsDigit (c : Nat) : Prop := pc! '0' ≤ c ∧ c ≤ pc! '9'

/-- the number written by a list of digits -/
def decimalValue (t : Str) : Nat := t.foldl (fun n c => n * 10 + (c - pc! '0')) 0

/-- `t` is a non-empty sequence of digits -/
def Numeral (t : Str) : Prop := t ≠ [] ∧ ∀ c ∈ t, IsDigit c

/-- two digits with value `n` -/
def TwoDigit (t : Str) (n : Nat) : Prop := Numeral t ∧ t.length = 2 ∧ decimalValue t = n

/-- at least four digits, more than four only without leading zero, with value `n` -/
def YearNumeral (t : Str) (n : Nat) : Prop :=
  Numeral t ∧ 4 ≤ t.length ∧ (4 < t.length → t.head? ≠ some (pc! '0')) ∧ decimalValue t = n

/-- a year with optional minus sign -/
def SignedYear (t : Str) (y : Int) : Prop :=
  (∃ n, YearNumeral t n ∧ y = n) ∨ (∃ u n, t = pc! '-' :: u ∧ YearNumeral u n ∧ y = -(n : Int))

/-! ## proleptic Gregorian calendar -/

/-- astronomical number of a year: there is no year 0, 1 BCE is year 0 -/
def astronomical (y : Int) : Int := if y < 0 then y + 1 else y

/-- leap rule for astronomical years -/
def Leap (a : Int) : Prop := 4 ∣ a ∧ (¬ 100 ∣ a ∨ 400 ∣ a)

instance (a : Int) : Decidable (Leap a) := inferInstanceAs (Decidable (_ ∧ _))

def monthLength (y : Int) (m : Nat) : Nat :=
  if m = 2 then (if Leap (astronomical y) then 29 else 28)
  else if m ∈ [4, 6, 9, 11] then 30 else 31

/-- there is such a day -/
def DateExists (y : Int) (m d : Nat) : Prop := y ≠ 0 ∧ 1 ≤ m ∧ m ≤ 12 ∧ 1 ≤ d ∧ d ≤ monthLength y m

/-! ## dates and times as text -/

/-- `Z` or an offset of at most 14 hours -/
def TimeZone (t : Str) : Prop :=
  t = [pc! 'Z'] ∨ ∃ sign h hh m mm, t = sign :: hh ++ pc! ':' :: mm ∧ (sign = pc! '+' ∨ sign = pc! '-') ∧
    TwoDigit hh h ∧ TwoDigit mm m ∧ m < 60 ∧ h * 60 + m ≤ 14 * 60

def OptTimeZone (t : Str) : Prop := t = [] ∨ TimeZone t

/-- year, month and day without timezone -/
def PlainDate (t : Str) : Prop :=
  ∃ ys y ms m ds d, t = ys ++ pc! '-' :: ms ++ pc! '-' :: ds ∧ SignedYear ys y ∧ TwoDigit ms m ∧ TwoDigit ds d ∧
    DateExists y m d

/-- xs:date -/
def DateText (s : Str) : Prop := ∃ t tz, s = t ++ tz ∧ PlainDate t ∧ OptTimeZone tz

/-- fraction of a second -/
def Fraction (t : Str) : Prop := t = [] ∨ ∃ f, t = pc! '.' :: f ∧ Numeral f

/-- time of day; 24:00:00 is the end of the day -/
def TimeOfDay (t : Str) : Prop :=
  ∃ hh h mm m ss sec fr, t = hh ++ pc! ':' :: mm ++ pc! ':' :: ss ++ fr ∧ TwoDigit hh h ∧ TwoDigit mm m ∧
    TwoDigit ss sec ∧ Fraction fr ∧
    ((h < 24 ∧ m < 60 ∧ sec < 60) ∨ (h = 24 ∧ m = 0 ∧ sec = 0 ∧ ∀ c ∈ fr, c ≠ pc! '.' → c = pc! '0'))

/-- xs:dateTime -/
def DateTimeText (s : Str) : Prop :=
  ∃ d t tz, s = d ++ pc! 'T' :: t ++ tz ∧ PlainDate d ∧ TimeOfDay t ∧ OptTimeZone tz

/-- offset zero -/
def UtcZone (t : Str) : Prop := t = py!"Z" ∨ t = py!"+00:00" ∨ t = py!"-00:00"

/-- xs:dateTime in UTC -/
def DateTimeUtcText (s : Str) : Prop :=
  ∃ d t tz, s = d ++ pc! 'T' :: t ++ tz ∧ PlainDate d ∧ TimeOfDay t ∧ UtcZone tz

/-- xs:time -/
def TimeText (s : Str) : Prop := ∃ t tz, s = t ++ tz ∧ TimeOfDay t ∧ OptTimeZone tz

def GDayText (s : Str) : Prop :=
  ∃ ds d tz, s = py!"---" ++ ds ++ tz ∧ TwoDigit ds d ∧ 1 ≤ d ∧ d ≤ 31 ∧ OptTimeZone tz
def GMonthText (s : Str) : Prop :=
  ∃ ms m tz, s = py!"--" ++ ms ++ tz ∧ TwoDigit ms m ∧ 1 ≤ m ∧ m ≤ 12 ∧ OptTimeZone tz
/-- the day exists in that month of a leap year -/
def GMonthDayText (s : Str) : Prop :=
  ∃ ms m ds d tz, s = py!"--" ++ ms ++ pc! '-' :: ds ++ tz ∧ TwoDigit ms m ∧ TwoDigit ds d ∧ DateExists 2000 m d ∧
    OptTimeZone tz
def GYearText (s : Str) : Prop := ∃ ys y tz, s = ys ++ tz ∧ SignedYear ys y ∧ OptTimeZone tz
def GYearMonthText (s : Str) : Prop :=
  ∃ ys y ms m tz, s = ys ++ pc! '-' :: ms ++ tz ∧ SignedYear ys y ∧ TwoDigit ms m ∧ 1 ≤ m ∧ m ≤ 12 ∧ OptTimeZone tz

/-! ## durations -/

/-- an optional field: a numeral followed by its designator -/
def Field (des : Nat) (t : Str) : Prop := t = [] ∨ ∃ n, t = n ++ [des] ∧ Numeral n
/-- optional seconds, with optional fraction -/
def SecondsField (t : Str) : Prop :=
  t = [] ∨ ∃ n f, t = n ++ f ++ [pc! 'S'] ∧ Numeral n ∧ Fraction f
/-- hours, minutes, seconds after `T`; at least one of them -/
def TimePart (t : Str) : Prop :=
  t = [] ∨ ∃ h m s, t = pc! 'T' :: h ++ m ++ s ∧ Field (pc! 'H') h ∧ Field (pc! 'M') m ∧ SecondsField s ∧
    ¬ (h = [] ∧ m = [] ∧ s = [])
/-- xs:duration: at least one field overall -/
def DurationText (s : Str) : Prop :=
  ∃ sign y m d t, s = sign ++ pc! 'P' :: y ++ m ++ d ++ t ∧ (sign = [] ∨ sign = [pc! '-']) ∧ Field (pc! 'Y') y ∧
    Field (pc! 'M') m ∧ Field (pc! 'D') d ∧ TimePart t ∧ ¬ (y = [] ∧ m = [] ∧ d = [] ∧ t = [])

/-- `P`, where one final line feed is tolerated (`$` in Python patterns matches before it) -/
def OrLineFeed (P : Str → Prop) (s : Str) : Prop := P s ∨ ∃ t, s = t ++ [10] ∧ P t

/-! ## integers -/

/-- an integer in XSD notation: optional sign, digits -/
def IntegerText (s : Str) (n : Int) : Prop :=
  ∃ t, Numeral t ∧ ((s = t ∧ n = decimalValue t) ∨ (s = pc! '+' :: t ∧ n = decimalValue t) ∨
    (s = pc! '-' :: t ∧ n = -(decimalValue t : Int)))

/-- value ranges of the integer types of XML Schema; `none` is unbounded -/
def integerRange (name : Str) : Option (Option Int × Option Int) :=
  if name = py!"xs:byte" then some (some (-2 ^ 7), some (2 ^ 7 - 1))
  else if name = py!"xs:short" then some (some (-2 ^ 15), some (2 ^ 15 - 1))
  else if name = py!"xs:int" then some (some (-2 ^ 31), some (2 ^ 31 - 1))
  else if name = py!"xs:long" then some (some (-2 ^ 63), some (2 ^ 63 - 1))
  else if name = py!"xs:unsignedByte" then some (some 0, some (2 ^ 8 - 1))
  else if name = py!"xs:unsignedShort" then some (some 0, some (2 ^ 16 - 1))
  else if name = py!"xs:unsignedInt" then some (some 0, some (2 ^ 32 - 1))
  else if name = py!"xs:unsignedLong" then some (some 0, some (2 ^ 64 - 1))
  else if name = py!"xs:integer" then some (none, none)
  else if name = py!"xs:positiveInteger" then some (some 1, none)
  else if name = py!"xs:nonNegativeInteger" then some (some 0, none)
  else if name = py!"xs:negativeInteger" then some (none, some (-1))
  else if name = py!"xs:nonPositiveInteger" then some (none, some 0)
  else none

def InRange (r : Option Int × Option Int) (n : Int) : Prop :=
  (∀ lo, r.1 = some lo → lo ≤ n) ∧ (∀ hi, r.2 = some hi → n ≤ hi)

/-- digits with single underscores between them, with their values (Python integer literals);
`dv` says which characters are digits -/
inductive PyDigits (dv : Nat → Option Nat) : Str → List Nat → Prop
  | one {c v} : dv c = some v → PyDigits dv [c] [v]
  | more {c v s vs} : dv c = some v → PyDigits dv s vs → PyDigits dv (c :: s) (v :: vs)
  | under {c v s vs} : dv c = some v → PyDigits dv s vs → PyDigits dv (c :: pc! '_' :: s) (v :: vs)

/-- text that Python's `int` reads as `n`, with `k` digits: white space, optional sign, digits, white space -/
def PyIntText (dv : Nat → Option Nat) (ws : Nat → Bool) (s : Str) (n : Int) (k : Nat) : Prop :=
  ∃ a sign body b vs, s = a ++ sign ++ body ++ b ∧ (∀ c ∈ a, ws c = true) ∧ (∀ c ∈ b, ws c = true) ∧
    PyDigits dv body vs ∧ k = vs.length ∧
    (((sign = [] ∨ sign = [pc! '+']) ∧ n = (vs.foldl (fun n d => n * 10 + d) 0 : Nat)) ∨
      (sign = [pc! '-'] ∧ n = -((vs.foldl (fun n d => n * 10 + d) 0 : Nat) : Int)))

/-! ## binary -/

def HexDigit (c : Nat) : Prop :=
  IsDigit c ∨ (pc! 'a' ≤ c ∧ c ≤ pc! 'f') ∨ (pc! 'A' ≤ c ∧ c ≤ pc! 'F')

/-- ASCII white space: tab, line feed, vertical tab, form feed, carriage return, blank -/
def Blank1 (c : Nat) : Prop := c = 9 ∨ c = 10 ∨ c = 11 ∨ c = 12 ∨ c = 13 ∨ c = 32

/-- pairs of hex digits, and blanks between the pairs -/
inductive HexText : Str → Prop
  | nil : HexText []
  | blank {c s} : Blank1 c → HexText s → HexText (c :: s)
  | pair {a b s} : HexDigit a → HexDigit b → HexText s → HexText (a :: b :: s)

/-- character of the base64 alphabet (A-Z, a-z, 0-9, +, /) -/
def Base64Char (c : Nat) : Prop :=
  (pc! 'A' ≤ c ∧ c ≤ pc! 'Z') ∨ (pc! 'a' ≤ c ∧ c ≤ pc! 'z') ∨ IsDigit c ∨ c = pc! '+' ∨ c = pc! '/'

instance (c : Nat) : Decidable (IsDigit c) := inferInstanceAs (Decidable (_ ∧ _))
instance (c : Nat) : Decidable (Base64Char c) := inferInstanceAs (Decidable (_ ∨ _))

/-- number of alphabet characters -/
def dataCount (s : Str) : Nat := s.countP (fun c => decide (Base64Char c))

/-- base64 text without other characters, correctly padded -/
def PaddedBase64 (s : Str) : Prop :=
  ∃ d pad, s = d ++ pad ∧ (∀ c ∈ d, Base64Char c) ∧
    ((pad = [] ∧ d.length % 4 = 0) ∨ (pad = py!"=" ∧ d.length % 4 = 3) ∨ (pad = py!"==" ∧ d.length % 4 = 2))

/-- the alphabet characters of `s` can be grouped by four, where the last group of two or three is completed
by padding (other characters may be anywhere, and anything may follow a completed group) -/
def Groupable (s : Str) : Prop :=
  dataCount s % 4 = 0 ∨
  ∃ u w v, s = u ++ w ++ v ∧ (∀ c ∈ w, ¬ Base64Char c) ∧ 2 ≤ dataCount u % 4 ∧
    4 ≤ w.count (pc! '=') + dataCount u % 4

/-! ## decimal and floating point literals -/

/-- digits with an optional point and at least one digit; its value is `D / 10^k` -/
def UnsignedDecimal (t : Str) (D k : Nat) : Prop :=
  ∃ is fs, (∀ c ∈ is ++ fs, IsDigit c) ∧ is ++ fs ≠ [] ∧ D = decimalValue (is ++ fs) ∧ k = fs.length ∧
    ((t = is ∧ fs = []) ∨ t = is ++ pc! '.' :: fs)

/-- xs:decimal: optional sign -/
def DecimalText (s : Str) (D k : Nat) : Prop :=
  ∃ sign t, s = sign ++ t ∧ (sign = [] ∨ sign = [pc! '+'] ∨ sign = [pc! '-']) ∧ UnsignedDecimal t D k

/-- finite literal of xs:float and xs:double; its absolute value is `D * 10^e` -/
def RealText (s : Str) (D : Nat) (e : Int) : Prop :=
  ∃ t x k, s = t ++ x ∧ DecimalText t D k ∧
    ((x = [] ∧ e = -(k : Int)) ∨
      ∃ E y n, x = E :: y ∧ (E = pc! 'e' ∨ E = pc! 'E') ∧ IntegerText y n ∧ e = n - k)

/-- `D * 10^e` as a fraction -/
def fraction (D : Nat) (e : Int) : Nat × Nat := (D * 10 ^ e.toNat, 10 ^ (-e).toNat)

/-! ### binary64, in units of 2^-1074 (the smallest positive double), without upper limit of the exponent -/

/-- the numbers with at most 53 significant bits -/
def Double (d : Nat) : Prop := ∃ m k, m < 2 ^ 53 ∧ d = m * 2 ^ k

/-- the last significant bit is zero -/
def EvenDouble (d : Nat) : Prop := ∃ m k, m < 2 ^ 53 ∧ (2 ^ 52 ≤ m ∨ k = 0) ∧ m % 2 = 0 ∧ d = m * 2 ^ k

def distance (x y : Nat) : Nat := (x - y) + (y - x)

/-- `d` is a double nearest to `a / b`; if there are two, it is the even one -/
def RoundsTo (a b d : Nat) : Prop :=
  Double d ∧ (∀ d', Double d' → distance (a * 2 ^ 1074) (d * b) ≤ distance (a * 2 ^ 1074) (d' * b)) ∧
  (∀ d', Double d' → d' ≠ d → distance (a * 2 ^ 1074) (d * b) = distance (a * 2 ^ 1074) (d' * b) → EvenDouble d)

/-- largest finite number of xs:float -/
def maxFloat : Nat := (2 ^ 24 - 1) * 2 ^ 104
/-- largest finite number of xs:double -/
def maxDouble : Nat := (2 ^ 53 - 1) * 2 ^ 971

end Verif.Spec
