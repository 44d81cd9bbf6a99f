import Verif.Regex

/-!
# Value checks (aas_test_engines/data_types.py)

The regular expressions are written down as the pattern texts of the source (f-strings as
concatenations, same names), and read by `Re.parse`.

Built-in conversions (`int`, `float`, `Decimal`, `bytes.fromhex`, `base64.b64decode`) are modelled from
CPython 3.11: only whether they succeed and, where used, their value.
-/

namespace Verif.DataTypes
open Verif

/-! ## numbers -/

/-- first digits of the 66 blocks of ten consecutive decimal digits of Unicode 14 (`str.isdecimal`) -/
def digitZeros : List Nat :=
  [0x30, 0x660, 0x6f0, 0x7c0, 0x966, 0x9e6, 0xa66, 0xae6, 0xb66, 0xbe6, 0xc66, 0xce6, 0xd66, 0xde6, 0xe50, 0xed0,
   0xf20, 0x1040, 0x1090, 0x17e0, 0x1810, 0x1946, 0x19d0, 0x1a80, 0x1a90, 0x1b50, 0x1bb0, 0x1c40, 0x1c50, 0xa620,
   0xa8d0, 0xa900, 0xa9d0, 0xa9f0, 0xaa50, 0xabf0, 0xff10, 0x104a0, 0x10d30, 0x11066, 0x110f0, 0x11136, 0x111d0,
   0x112f0, 0x11450, 0x114d0, 0x11650, 0x116c0, 0x11730, 0x118e0, 0x11950, 0x11c50, 0x11d50, 0x11da0, 0x16a60,
   0x16ac0, 0x16b50, 0x1d7ce, 0x1d7d8, 0x1d7e2, 0x1d7ec, 0x1d7f6, 0x1e140, 0x1e2f0, 0x1e950, 0x1fbf0]

/-- value of a decimal digit of any script (`unicodedata.decimal`) -/
def digitVal (c : Nat) : Option Nat :=
  match digitZeros.find? (fun z => z ≤ c && c ≤ z + 9) with
  | some z => some (c - z)
  | none => none

/-- ASCII white space as in `Py_ISSPACE` -/
def asciiSpace (c : Nat) : Bool := (9 ≤ c && c ≤ 13) || c == 32

/-- white space stripped by `int` and `float`: ASCII white space, and the other Unicode spaces from
U+0080 on (which are first replaced by blanks; U+001C..U+001F are not) -/
def numSpace (c : Nat) : Bool := asciiSpace c || (128 ≤ c && Py.isSpace c)

/-- strips characters satisfying `p` at both ends -/
def stripBy (p : Nat → Bool) (s : Str) : Str := ((s.dropWhile p).reverse.dropWhile p).reverse

/-- optional sign; `true` is minus -/
def takeSign : Str → Bool × Str
  | [] => (false, [])
  | c :: s => if c = pc! '-' then (true, s) else if c = pc! '+' then (false, s) else (false, c :: s)

/-- digits with single underscores between digits; the argument `first` says whether a digit has to
come first (no underscore) -/
def intDigits : Bool → Str → Option (List Nat)
  | first, [] => if first then none else some []
  | first, c :: s =>
    if c = pc! '_' then
      if first then none else intDigits true s
    else
      match digitVal c with
      | none => none
      | some d =>
        match intDigits false s with
        | none => none
        | some ds => some (d :: ds)

/-- number with the given decimal digits -/
def ofDigits (ds : List Nat) : Nat := ds.foldl (fun n d => n * 10 + d) 0

/-- `int(s)`; `none` is `ValueError`. `lim` is `sys.get_int_max_str_digits()` (4300 unless configured,
`none` if it is switched off or does not exist). -/
def pyInt (lim : Option Nat) (s : Str) : Option Int :=
  let (neg, body) := takeSign (stripBy numSpace s)
  match intDigits true body with
  | none => none
  | some ds =>
    if lim.any (fun l => l < ds.length) then none
    else some (if neg then -(ofDigits ds : Int) else (ofDigits ds : Int))

/-- data_types.py 34-39 `_is_bounded_integer`; `none` is an infinite bound -/
def isBoundedInteger (lim : Option Nat) (s : Str) (min max : Option Int) : Bool :=
  match pyInt lim s with
  | none => false
  | some v => min.all (fun m => m ≤ v) && max.all (fun m => v ≤ m)

/-- a scanned number: sign, digits before and after the point, exponent -/
structure Num where
  neg : Bool
  int : List Nat
  frac : List Nat
  exp : Int

inductive Scanned
  | num (n : Num)
  | inf
  | nan

/-- longest prefix of decimal digits -/
def takeDigits : Str → List Nat × Str
  | [] => ([], [])
  | c :: s =>
    match digitVal c with
    | none => ([], c :: s)
    | some d => let (ds, r) := takeDigits s; (d :: ds, r)

/-- lower case of an ASCII letter -/
def lower (c : Nat) : Nat := if pc! 'A' ≤ c && c ≤ pc! 'Z' then c + 32 else c

/-- exponent part; `none`: malformed -/
def scanExp (s : Str) : Option Int :=
  match s with
  | [] => some 0
  | c :: s =>
    if lower c = pc! 'e' then
      let (neg, body) := takeSign s
      match takeDigits body with
      | (d :: ds, []) => some (if neg then -(ofDigits (d :: ds) : Int) else (ofDigits (d :: ds) : Int))
      | _ => none
    else none

/-- optional point and digits after it -/
def scanFrac : Str → List Nat × Str
  | [] => ([], [])
  | c :: r => if c = pc! '.' then takeDigits r else ([], c :: r)

/-- unsigned finite number -/
def scanFinite (neg : Bool) (s : Str) : Option Num :=
  let (ints, s1) := takeDigits s
  let (fracs, s2) := scanFrac s1
  if ints.isEmpty && fracs.isEmpty then none
  else (scanExp s2).map fun e => ⟨neg, ints, fracs, e⟩

/-- underscores of a float literal: only between digits; `none` if misplaced -/
def dropUnderscores : Option Nat → Str → Option Str
  | prev, [] => if prev = some (pc! '_') then none else some []
  | prev, c :: s =>
    if c = pc! '_' then
      if (prev.bind digitVal).isSome then dropUnderscores (some c) s else none
    else if prev = some (pc! '_') && !(digitVal c).isSome then none
    else (dropUnderscores (some c) s).map (c :: ·)

/-- `float(s)`; `none` is `ValueError` -/
def scanFloat (s : Str) : Option Scanned :=
  match dropUnderscores none (stripBy numSpace s) with
  | none => none
  | some t =>
    let (neg, body) := takeSign t
    let low := body.map lower
    if low = py!"inf" ∨ low = py!"infinity" then some .inf
    else if low = py!"nan" then some .nan
    else (scanFinite neg body).map .num

/-- nearest integer to `a / b`, ties to even -/
def roundHalfEven (a b : Nat) : Nat :=
  let q := a / b
  let r := a % b
  if 2 * r < b then q else if b < 2 * r then q + 1 else if q % 2 = 0 then q else q + 1

/-- the double nearest to `a / b` (`a / b` not negative, binary64, ties to even), in units of 2^-1074, as
if there was no upper limit for the exponent -/
def toDouble (a b : Nat) : Nat :=
  let k := (a * 2 ^ 1074 / b).log2 - 52
  roundHalfEven (a * 2 ^ 1074) (b * 2 ^ k) * 2 ^ k

/-- the absolute value of a literal as a double, in units of 2^-1074; 2^2098 or more stands for `inf` -/
def Num.absDouble (n : Num) : Nat :=
  let d := ofDigits (n.int ++ n.frac)
  let e : Int := n.exp - n.frac.length
  if 0 ≤ e then toDouble (d * 10 ^ e.toNat) 1 else toDouble d (10 ^ (-e).toNat)

/-- data_types.py 16-23 `_is_bounded_double` with the bounds `-max` and `max`, the latter in units of
2^-1074. The check `v > min and v < max` is `abs(v) < max`. -/
def isBoundedDouble (s : Str) (max : Nat) : Bool :=
  if s = py!"INF" ∨ s = py!"-INF" ∨ s = py!"NaN" then true
  else
    match scanFloat s with
    | some (.num n) => n.absDouble < max
    | _ => false

/-- data_types.py 26-27: the literal `3.4028234663852886e38` -/
def isFloat (s : Str) : Bool := isBoundedDouble s (toDouble (34028234663852886 * 10 ^ 22) 1)

/-- data_types.py 30-31: the literal `1.7976931348623158e308` -/
def isDouble (s : Str) : Bool := isBoundedDouble s (toDouble (17976931348623158 * 10 ^ 292) 1)

/-- significant digits of a coefficient (at least one) -/
def sigDigits (ds : List Nat) : Nat := max 1 (ds.dropWhile (· == 0)).length

/-- exponent range of `decimal`'s exact conversion (MAX_EMAX, MIN_ETINY on 64 bit) -/
def decimalRange (n : Num) : Bool :=
  let e : Int := n.exp - n.frac.length
  e + sigDigits (n.int ++ n.frac) - 1 ≤ 999999999999999999 && -1999999999999999997 ≤ e

/-- data_types.py 8-13 `is_decimal`: `Decimal(s)` strips white space, ignores underscores anywhere, knows
infinities and NaNs with payload -/
def isDecimal (s : Str) : Bool :=
  let t := (stripBy Py.isSpace s).filter (· ≠ pc! '_')
  let (neg, body) := takeSign t
  let low := body.map lower
  if low = py!"inf" ∨ low = py!"infinity" then true
  else
    let nan := if py!"nan".isPrefixOf low then some (body.drop 3)
      else if py!"snan".isPrefixOf low then some (body.drop 4) else none
    match nan with
    | some payload => payload.all (fun c => (digitVal c).isSome)
    | none =>
      match scanFinite neg body with
      | none => false
      | some n => decimalRange n

/-! ## dates -/

/-- data_types.py 50-59 `_is_leap_year` -/
def isLeapYear (year : Int) : Bool :=
  let year := if year < 0 then (year.natAbs : Int) - 1 else year
  if 0 < year % 4 then false
  else if 0 < year % 100 then true
  else if 0 < year % 400 then false
  else true

/-- data_types.py 62-77 (repeated at 181-194) `_DAYS_IN_MONTH`; `none` is `KeyError` -/
def daysInMonth (m : Int) : Option Int :=
  if m = 1 then some 31 else if m = 2 then some 29 else if m = 3 then some 31 else if m = 4 then some 30
  else if m = 5 then some 31 else if m = 6 then some 30 else if m = 7 then some 31 else if m = 8 then some 31
  else if m = 9 then some 30 else if m = 10 then some 31 else if m = 11 then some 30 else if m = 12 then some 31
  else none

/-- `re.compile(p)`; an unreadable pattern matches nothing -/
def compile (p : Str) : Re := (Re.parse p).getD .empty
/-- `re.compile("^p$")` -/
def compileAnchored (p : Str) : Re := ((Re.unanchor p).bind Re.parse).getD .empty

def digit : Str := py!"[0-9]"
def yearFrag : Str :=
  py!"-?(([1-9]" ++ digit ++ digit ++ digit ++ py!"+)|(0" ++ digit ++ digit ++ digit ++ py!"))"
def monthFrag : Str := py!"((0[1-9])|(1[0-2]))"
def dayFrag : Str := py!"((0[1-9])|([12]" ++ digit ++ py!")|(3[01]))"
def minuteFrag : Str := py!"[0-5]" ++ digit
def timezoneFrag : Str := py!"(Z|(\\+|-)((0" ++ digit ++ py!"|1[0-3]):" ++ minuteFrag ++ py!"|14:00))"
def hourFrag : Str := py!"(([01]" ++ digit ++ py!")|(2[0-3]))"
def secondFrag : Str := py!"([0-5]" ++ digit ++ py!")(\\." ++ digit ++ py!"+)?"
def endOfDayFrag : Str := py!"24:00:00(\\.0+)?"

/-- data_types.py 80-93 -/
def datePattern : Str :=
  py!"^" ++ yearFrag ++ py!"-" ++ monthFrag ++ py!"-" ++ dayFrag ++ timezoneFrag ++ py!"?" ++ py!"$"
def dateRe : Re := compileAnchored datePattern

/-- longest prefix of ASCII digits -/
def spanDigits : Str → Str × Str
  | [] => ([], [])
  | c :: s => if Re.isDigit c then let (a, b) := spanDigits s; (c :: a, b) else ([], c :: s)

/-- data_types.py 95 `_DATE_PREFIX_RE.match`: `^(-?[0-9]+)-([0-9]{2})-([0-9]{2})`, the three groups -/
def datePrefix (s : Str) : Option (Str × Str × Str) :=
  let (sign, s1) := match s with
    | c :: r => if c = pc! '-' then ([c], r) else ([], s)
    | [] => ([], [])
  match spanDigits s1 with
  | ([], _) => none
  | (y, d1 :: m1 :: m2 :: d2 :: e1 :: e2 :: _) =>
    if d1 = pc! '-' ∧ Re.isDigit m1 ∧ Re.isDigit m2 ∧ d2 = pc! '-' ∧ Re.isDigit e1 ∧ Re.isDigit e2 then
      some (sign ++ y, [m1, m2], [e1, e2])
    else none
  | _ => none

/-- `int(s)` where a failure is not caught -/
def intE (lim : Option Nat) (s : Str) : Except PyExc Int :=
  match pyInt lim s with
  | some v => .ok v
  | none => .error .valueError

/-- data_types.py 98-124 `is_xs_date`. A failing assertion is the error `generic`. -/
def isXsDate (lim : Option Nat) (value : Str) : Except PyExc Bool :=
  if !Re.anchoredMatch dateRe value then .ok false
  else
    match datePrefix value with
    | none => .error .generic
    | some (y, m, d) => do
      let year ← intE lim y
      let month ← intE lim m
      let day ← intE lim d
      if year = 0 then return false
      if day ≤ 0 then return false
      if month ≤ 0 ∨ 13 ≤ month then return false
      let maxDays ← (if month = 2 then .ok (if isLeapYear year then 29 else 28)
        else match daysInMonth month with
          | some n => .ok n
          | none => .error .keyError : Except PyExc Int)
      if maxDays < day then return false
      return true

/-- the common part of 127-143 and 154-170 -/
def dateTimeFrag : Str :=
  yearFrag ++ py!"-" ++ monthFrag ++ py!"-" ++ dayFrag ++ py!"T((" ++ hourFrag ++ py!":" ++ minuteFrag ++ py!":" ++
    secondFrag ++ py!")|" ++ endOfDayFrag ++ py!")"

/-- data_types.py 127-143 -/
def dateTimePattern : Str := py!"^" ++ dateTimeFrag ++ timezoneFrag ++ py!"?" ++ py!"$"
def dateTimeRe : Re := compileAnchored dateTimePattern

/-- data_types.py 154-170 -/
def dateTimeUtcPattern : Str := py!"^" ++ dateTimeFrag ++ py!"(Z|\\+00:00|-00:00)" ++ py!"$"
def dateTimeUtcRe : Re := compileAnchored dateTimeUtcPattern

/-- data_types.py 146-151 and 173-178: `date, _ = s.split("T")` raises unless there is exactly one "T" -/
def dateTimeWith (re : Re) (lim : Option Nat) (s : Str) : Except PyExc Bool :=
  if !Re.anchoredMatch re s then .ok false
  else
    match Py.splitOn (pc! 'T') s with
    | [date, _] => isXsDate lim date
    | _ => .error .valueError

/-- data_types.py 146-151 `is_xs_date_time` -/
def isXsDateTime (lim : Option Nat) (s : Str) : Except PyExc Bool := dateTimeWith dateTimeRe lim s

/-- data_types.py 173-178 `is_xs_date_time_utc` -/
def isXsDateTimeUtc (lim : Option Nat) (s : Str) : Except PyExc Bool := dateTimeWith dateTimeUtcRe lim s

/-- data_types.py 245-252 -/
def gMonthDayPattern : Str :=
  py!"^--(0[1-9]|1[0-2])-(0[1-9]|[12][0-9]|3[01])(Z|(\\+|-)((0[0-9]|1[0-3]):[0-5][0-9]|14:00))?$"
def gMonthDayRe : Re := compileAnchored gMonthDayPattern

/-- data_types.py 255-262 `is_xs_g_month_day` -/
def isXsGMonthDay (lim : Option Nat) (s : Str) : Except PyExc Bool :=
  if !Re.anchoredMatch gMonthDayRe s then .ok false
  else do
    let month ← intE lim ((s.drop 2).take 2)
    let day ← intE lim ((s.drop 5).take 2)
    match daysInMonth month with
    | none => .error .keyError
    | some maxDays => return decide (day ≤ maxDays)

/-- data_types.py 382 -/
def gYearMonthRe : Re :=
  compile py!"-?([1-9][0-9]{3,}|0[0-9]{3})-(0[1-9]|1[0-2])(Z|(\\+|-)((0[0-9]|1[0-3]):[0-5][0-9]|14:00))?"
/-- data_types.py 387 -/
def gDayRe : Re := compile py!"---(0[1-9]|[12][0-9]|3[01])(Z|(\\+|-)((0[0-9]|1[0-3]):[0-5][0-9]|14:00))?"
/-- data_types.py 390 -/
def gMonthRe : Re := compile py!"--(0[1-9]|1[0-2])(Z|(\\+|-)((0[0-9]|1[0-3]):[0-5][0-9]|14:00))?"
/-- data_types.py 393 -/
def gYearRe : Re := compile py!"-?([1-9][0-9]{3,}|0[0-9]{3})(Z|(\\+|-)((0[0-9]|1[0-3]):[0-5][0-9]|14:00))?"
/-- data_types.py 397 -/
def timeRe : Re := compile
  py!"(([01][0-9]|2[0-3]):[0-5][0-9]:[0-5][0-9](\\.[0-9]+)?|(24:00:00(\\.0+)?))(Z|(\\+|-)((0[0-9]|1[0-3]):[0-5][0-9]|14:00))?"
/-- data_types.py 402, repeated at model.py 178 -/
def durationPattern : Str :=
  py!"-?P((([0-9]+Y([0-9]+M)?([0-9]+D)?|([0-9]+M)([0-9]+D)?|([0-9]+D))(T(([0-9]+H)([0-9]+M)?([0-9]+(\\.[0-9]+)?S)?|([0-9]+M)([0-9]+(\\.[0-9]+)?S)?|([0-9]+(\\.[0-9]+)?S)))?)|(T(([0-9]+H)([0-9]+M)?([0-9]+(\\.[0-9]+)?S)?|([0-9]+M)([0-9]+(\\.[0-9]+)?S)?|([0-9]+(\\.[0-9]+)?S))))"
def durationRe : Re := compile durationPattern

/-! ## binary -/

def isHex (c : Nat) : Bool := (Re.hexVal c).isSome

/-- data_types.py 42-47 `is_hex_binary`: `bytes.fromhex` skips ASCII white space between pairs -/
def isHexBinary : Str → Bool
  | [] => true
  | [c] => asciiSpace c
  | c :: d :: s => if asciiSpace c then isHexBinary (d :: s) else isHex c && isHex d && isHexBinary s

/-- characters of the base64 alphabet -/
def isB64 (c : Nat) : Bool := Re.isLetter c || Re.isDigit c || c == pc! '+' || c == pc! '/'

/-- `binascii.a2b_base64` (not strict): position in the group of four, padding characters seen -/
def a2b : Nat → Nat → Str → Bool
  | q, _, [] => q == 0
  | q, p, c :: s =>
    if c = pc! '=' then
      if 2 ≤ q then
        if 4 ≤ q + (p + 1) then true else a2b q (p + 1) s
      else a2b q p s
    else if isB64 c then a2b ((q + 1) % 4) 0 s
    else a2b q p s

/-- data_types.py 272-277 `is_base64_binary`; text that is not ASCII is rejected by `b64decode` -/
def isBase64Binary (s : Str) : Bool := s.all (· < 128) && a2b 0 0 s

/-! ## anyURI, language tags -/

def scheme : Str := py!"[a-zA-Z][a-zA-Z0-9+\\-.]*"
def ucschar : Str := py!"[\\xa0-\\ud7ff\\uf900-\\ufdcf\\ufdf0-\\uffef\\U00010000-\\U0001fffd\\U00020000-\\U0002fffd\\U00030000-\\U0003fffd\\U00040000-\\U0004fffd\\U00050000-\\U0005fffd\\U00060000-\\U0006fffd\\U00070000-\\U0007fffd\\U00080000-\\U0008fffd\\U00090000-\\U0009fffd\\U000a0000-\\U000afffd\\U000b0000-\\U000bfffd\\U000c0000-\\U000cfffd\\U000d0000-\\U000dfffd\\U000e1000-\\U000efffd]"
def iunreserved : Str := py!"([a-zA-Z0-9\\-._~]|" ++ ucschar ++ py!")"
def pctEncoded : Str := py!"%[0-9A-Fa-f][0-9A-Fa-f]"
def subDelims : Str := py!"[!$&'()*+,;=]"
def iuserinfo : Str := py!"(" ++ iunreserved ++ py!"|" ++ pctEncoded ++ py!"|" ++ subDelims ++ py!"|:)*"
def h16 : Str := py!"[0-9A-Fa-f]{1,4}"
def decOctet : Str := py!"([0-9]|[1-9][0-9]|1[0-9]{2}|2[0-4][0-9]|25[0-5])"
def ipv4address : Str := decOctet ++ py!"\\." ++ decOctet ++ py!"\\." ++ decOctet ++ py!"\\." ++ decOctet
def ls32 : Str := py!"(" ++ h16 ++ py!":" ++ h16 ++ py!"|" ++ ipv4address ++ py!")"
def ipv6address : Str :=
  py!"((" ++ h16 ++ py!":){6}" ++ ls32 ++
  py!"|::(" ++ h16 ++ py!":){5}" ++ ls32 ++
  py!"|(" ++ h16 ++ py!")?::(" ++ h16 ++ py!":){4}" ++ ls32 ++
  py!"|((" ++ h16 ++ py!":)?" ++ h16 ++ py!")?::(" ++ h16 ++ py!":){3}" ++ ls32 ++
  py!"|((" ++ h16 ++ py!":){2}" ++ h16 ++ py!")?::(" ++ h16 ++ py!":){2}" ++ ls32 ++
  py!"|((" ++ h16 ++ py!":){3}" ++ h16 ++ py!")?::" ++ h16 ++ py!":" ++ ls32 ++
  py!"|((" ++ h16 ++ py!":){4}" ++ h16 ++ py!")?::" ++ ls32 ++
  py!"|((" ++ h16 ++ py!":){5}" ++ h16 ++ py!")?::" ++ h16 ++
  py!"|((" ++ h16 ++ py!":){6}" ++ h16 ++ py!")?::)"
def unreserved : Str := py!"[a-zA-Z0-9\\-._~]"
def ipvfuture : Str := py!"[vV][0-9A-Fa-f]+\\.(" ++ unreserved ++ py!"|" ++ subDelims ++ py!"|:)+"
def ipLiteral : Str := py!"\\[(" ++ ipv6address ++ py!"|" ++ ipvfuture ++ py!")\\]"
def iregName : Str := py!"(" ++ iunreserved ++ py!"|" ++ pctEncoded ++ py!"|" ++ subDelims ++ py!")*"
def ihost : Str := py!"(" ++ ipLiteral ++ py!"|" ++ ipv4address ++ py!"|" ++ iregName ++ py!")"
def port : Str := py!"[0-9]*"
def iauthority : Str := py!"(" ++ iuserinfo ++ py!"@)?" ++ ihost ++ py!"(:" ++ port ++ py!")?"
def ipchar : Str := py!"(" ++ iunreserved ++ py!"|" ++ pctEncoded ++ py!"|" ++ subDelims ++ py!"|[:@])"
def isegment : Str := py!"(" ++ ipchar ++ py!")*"
def ipathAbempty : Str := py!"(/" ++ isegment ++ py!")*"
def isegmentNz : Str := py!"(" ++ ipchar ++ py!")+"
def ipathAbsolute : Str := py!"/(" ++ isegmentNz ++ py!"(/" ++ isegment ++ py!")*)?"
def ipathRootless : Str := isegmentNz ++ py!"(/" ++ isegment ++ py!")*"
def ipathEmpty : Str := py!"(" ++ ipchar ++ py!"){0}"
def ihierPart : Str :=
  py!"(//" ++ iauthority ++ ipathAbempty ++ py!"|" ++ ipathAbsolute ++ py!"|" ++ ipathRootless ++ py!"|" ++
    ipathEmpty ++ py!")"
def iprivate : Str := py!"[\\ue000-\\uf8ff\\U000f0000-\\U000ffffd\\U00100000-\\U0010fffd]"
def iquery : Str := py!"(" ++ ipchar ++ py!"|" ++ iprivate ++ py!"|[/?])*"
def ifragment : Str := py!"(" ++ ipchar ++ py!"|[/?])*"
def isegmentNzNc : Str := py!"(" ++ iunreserved ++ py!"|" ++ pctEncoded ++ py!"|" ++ subDelims ++ py!"|@)+"
def ipathNoscheme : Str := isegmentNzNc ++ py!"(/" ++ isegment ++ py!")*"
def irelativePart : Str :=
  py!"(//" ++ iauthority ++ ipathAbempty ++ py!"|" ++ ipathAbsolute ++ py!"|" ++ ipathNoscheme ++ py!"|" ++
    ipathEmpty ++ py!")"
def irelativeRef : Str := irelativePart ++ py!"(\\?" ++ iquery ++ py!")?(#" ++ ifragment ++ py!")?"
def iri : Str := scheme ++ py!":" ++ ihierPart ++ py!"(\\?" ++ iquery ++ py!")?(#" ++ ifragment ++ py!")?"
def iriReference : Str := py!"(" ++ iri ++ py!"|" ++ irelativeRef ++ py!")"
/-- data_types.py 204-242 -/
def anyUriPattern : Str := py!"^" ++ iriReference ++ py!"$"
def anyUriRe : Re := compileAnchored anyUriPattern

/-- data_types.py 268-269 `is_any_uri` -/
def isAnyUri (s : Str) : Bool := Re.anchoredMatch anyUriRe s

def alphanum : Str := py!"[a-zA-Z0-9]"
def singleton : Str := py!"[0-9A-WY-Za-wy-z]"
def extension : Str := singleton ++ py!"(-(" ++ alphanum ++ py!"){2,8})+"
def extlang : Str := py!"[a-zA-Z]{3}(-[a-zA-Z]{3}){0,2}"
def irregular : Str := py!"(en-GB-oed|i-ami|i-bnn|i-default|i-enochian|i-hak|i-klingon|i-lux|i-mingo|i-navajo|i-pwn|i-tao|i-tay|i-tsu|sgn-BE-FR|sgn-BE-NL|sgn-CH-DE)"
def regular : Str := py!"(art-lojban|cel-gaulish|no-bok|no-nyn|zh-guoyu|zh-hakka|zh-min|zh-min-nan|zh-xiang)"
def grandfathered : Str := py!"(" ++ irregular ++ py!"|" ++ regular ++ py!")"
def language : Str := py!"([a-zA-Z]{2,3}(-" ++ extlang ++ py!")?|[a-zA-Z]{4}|[a-zA-Z]{5,8})"
def script : Str := py!"[a-zA-Z]{4}"
def region : Str := py!"([a-zA-Z]{2}|[0-9]{3})"
def variant : Str := py!"((" ++ alphanum ++ py!"){5,8}|[0-9](" ++ alphanum ++ py!"){3})"
def privateuse : Str := py!"[xX](-(" ++ alphanum ++ py!"){1,8})+"
def langtag : Str :=
  language ++ py!"(-" ++ script ++ py!")?(-" ++ region ++ py!")?(-" ++ variant ++ py!")*(-" ++ extension ++
    py!")*(-" ++ privateuse ++ py!")?"
def languageTag : Str := py!"(" ++ langtag ++ py!"|" ++ privateuse ++ py!"|" ++ grandfathered ++ py!")"
/-- data_types.py 280-300 -/
def bcp47Pattern : Str := py!"^" ++ languageTag ++ py!"$"
def bcp47Re : Re := compileAnchored bcp47Pattern

/-- data_types.py 303-304 `is_bcp_lang_string` -/
def isBcpLangString (s : Str) : Bool := Re.anchoredMatch bcp47Re s

/-- data_types.py 307-316 `is_version_string` -/
def versionRe : Re := compileAnchored py!"^(0|[1-9][0-9]*)$"
def isVersionString (s : Str) : Bool := Re.anchoredMatch versionRe s

/-- data_types.py 319-323 `is_bcp_47_for_english` -/
def englishRe : Re := compileAnchored py!"^(en|EN)(-.*)?$"
def isBcp47ForEnglish (s : Str) : Bool := Re.anchoredMatch englishRe s

/-! ## the table of validators -/

/-- data_types.py 326-356 `DataTypeDefXsd` -/
inductive Xsd
  | anyURI | base64Binary | boolean | byte | date | dateTime | decimal | double | duration | float | gDay | gMonth
  | gMonthDay | gYear | gYearMonth | hexBinary | int | integer | long | negativeInteger | nonNegativeInteger
  | nonPositiveInteger | positiveInteger | short | string | time | unsignedByte | unsignedInt | unsignedLong
  | unsignedShort
  deriving DecidableEq, Repr

/-- data_types.py 326-356, the values of the enumeration -/
def Xsd.name : Xsd → Str
  | .anyURI => py!"xs:anyURI"
  | .base64Binary => py!"xs:base64Binary"
  | .boolean => py!"xs:boolean"
  | .byte => py!"xs:byte"
  | .date => py!"xs:date"
  | .dateTime => py!"xs:dateTime"
  | .decimal => py!"xs:decimal"
  | .double => py!"xs:double"
  | .duration => py!"xs:duration"
  | .float => py!"xs:float"
  | .gDay => py!"xs:gDay"
  | .gMonth => py!"xs:gMonth"
  | .gMonthDay => py!"xs:gMonthDay"
  | .gYear => py!"xs:gYear"
  | .gYearMonth => py!"xs:gYearMonth"
  | .hexBinary => py!"xs:hexBinary"
  | .int => py!"xs:int"
  | .integer => py!"xs:integer"
  | .long => py!"xs:long"
  | .negativeInteger => py!"xs:negativeInteger"
  | .nonNegativeInteger => py!"xs:nonNegativeInteger"
  | .nonPositiveInteger => py!"xs:nonPositiveInteger"
  | .positiveInteger => py!"xs:positiveInteger"
  | .short => py!"xs:short"
  | .string => py!"xs:string"
  | .time => py!"xs:time"
  | .unsignedByte => py!"xs:unsignedByte"
  | .unsignedInt => py!"xs:unsignedInt"
  | .unsignedLong => py!"xs:unsignedLong"
  | .unsignedShort => py!"xs:unsignedShort"

/-- data_types.py 359-409 `validators[t](s)`; an exception is an error -/
def validate (lim : Option Nat) (t : Xsd) (s : Str) : Except PyExc Bool :=
  match t with
  | .string => .ok true
  | .boolean => .ok (decide (s = py!"true" ∨ s = py!"false" ∨ s = py!"1" ∨ s = py!"0"))
  | .decimal => .ok (isDecimal s)
  | .integer => .ok (isBoundedInteger lim s none none)
  | .float => .ok (isFloat s)
  | .double => .ok (isDouble s)
  | .byte => .ok (isBoundedInteger lim s (some (-128)) (some 127))
  | .short => .ok (isBoundedInteger lim s (some (-32768)) (some 32767))
  | .int => .ok (isBoundedInteger lim s (some (-2147483648)) (some 2147483647))
  | .long => .ok (isBoundedInteger lim s (some (-9223372036854775808)) (some 9223372036854775807))
  | .unsignedByte => .ok (isBoundedInteger lim s (some 0) (some 255))
  | .unsignedShort => .ok (isBoundedInteger lim s (some 0) (some 65535))
  | .unsignedInt => .ok (isBoundedInteger lim s (some 0) (some 4294967295))
  | .unsignedLong => .ok (isBoundedInteger lim s (some 0) (some 18446744073709551615))
  | .positiveInteger => .ok (isBoundedInteger lim s (some 1) none)
  | .nonNegativeInteger => .ok (isBoundedInteger lim s (some 0) none)
  | .negativeInteger => .ok (isBoundedInteger lim s none (some (-1)))
  | .nonPositiveInteger => .ok (isBoundedInteger lim s none (some 0))
  | .date => isXsDate lim s
  | .dateTime => isXsDateTime lim s
  | .gMonthDay => isXsGMonthDay lim s
  | .gYearMonth => .ok (Re.fullmatch gYearMonthRe s)
  | .gDay => .ok (Re.fullmatch gDayRe s)
  | .gMonth => .ok (Re.fullmatch gMonthRe s)
  | .gYear => .ok (Re.fullmatch gYearRe s)
  | .time => .ok (Re.fullmatch timeRe s)
  | .duration => .ok (Re.fullmatch durationRe s)
  | .anyURI => .ok (isAnyUri s)
  | .base64Binary => .ok (isBase64Binary s)
  | .hexBinary => .ok (isHexBinary s)

end Verif.DataTypes
