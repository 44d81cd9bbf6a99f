import Verif.Py

/-!
# What a receiver of the requests does

Decoders for UTF-8 (RFC 3629), base64url (RFC 4648) and form-encoded query strings, written independently of the encoders.
-/

namespace Verif.Spec
open Verif

/-- a code point that has a UTF-8 form -/
def Scalar (c : Nat) : Prop := c < 0x110000 ∧ ¬ (0xd800 ≤ c ∧ c ≤ 0xdfff)

/-- continuation bytes of UTF-8 -/
def isCont (b : Nat) : Bool := 0x80 ≤ b && b < 0xc0

/-- RFC 3629 decoder; `none` for malformed input -/
def utf8Decode : List Nat → Option Str
  | [] => some []
  | a :: r0 =>
    if a < 0x80 then (utf8Decode r0).map (a :: ·)
    else match r0 with
    | [] => none
    | b :: r1 =>
      if 0xc2 ≤ a && a < 0xe0 then
        if isCont b then (utf8Decode r1).map (((a - 0xc0) * 64 + (b - 0x80)) :: ·) else none
      else match r1 with
      | [] => none
      | c :: r2 =>
        if 0xe0 ≤ a && a < 0xf0 then
          let v := (a - 0xe0) * 4096 + (b - 0x80) * 64 + (c - 0x80)
          if isCont b && isCont c && 0x800 ≤ v && !(0xd800 ≤ v && v ≤ 0xdfff) then (utf8Decode r2).map (v :: ·) else none
        else match r2 with
        | [] => none
        | d :: r3 =>
          if 0xf0 ≤ a && a < 0xf5 then
            let v := (a - 0xf0) * 262144 + (b - 0x80) * 4096 + (c - 0x80) * 64 + (d - 0x80)
            if isCont b && isCont c && isCont d && 0x10000 ≤ v && v < 0x110000 then (utf8Decode r3).map (v :: ·) else none
          else none

/-- RFC 4648, table 2 -/
def base64url : Str := py!"ABCDEFGHIJKLMNOPQRSTUVWXYZabcdefghijklmnopqrstuvwxyz0123456789-_"

/-- the eight bits of a byte -/
def bits8 (b : Nat) : List Nat :=
  [b / 128 % 2, b / 64 % 2, b / 32 % 2, b / 16 % 2, b / 8 % 2, b / 4 % 2, b / 2 % 2, b % 2]
/-- the six bits of a base64 digit -/
def bits6 (v : Nat) : List Nat := [v / 32 % 2, v / 16 % 2, v / 8 % 2, v / 4 % 2, v / 2 % 2, v % 2]

/-- the text is the base64url form of the bytes: its bits are those of the bytes, filled up with zeros to whole digits -/
def Base64Of (text : Str) (bytes : List Nat) : Prop :=
  (∀ c ∈ text, c ∈ base64url) ∧
  ∃ k, k < 6 ∧ (text.map fun c => bits6 (base64url.idxOf c)).flatten = (bytes.map bits8).flatten ++ List.replicate k 0

/-- value of a hex digit -/
def hexValue (c : Nat) : Option Nat :=
  if 48 ≤ c && c ≤ 57 then some (c - 48)
  else if 65 ≤ c && c ≤ 70 then some (c - 55)
  else if 97 ≤ c && c ≤ 102 then some (c - 87)
  else none

/-- percent-decoding of form data -/
def percentDecode : Str → Option (List Nat)
  | [] => some []
  | c :: rest =>
    if c = pc! '+' then (percentDecode rest).map (32 :: ·)
    else if c = pc! '%' then
      match rest with
      | h :: l :: rest =>
        match hexValue h, hexValue l with
        | some x, some y => (percentDecode rest).map ((16 * x + y) :: ·)
        | _, _ => none
      | _ => none
    else (percentDecode rest).map (c :: ·)

/-- the unreserved characters of RFC 3986, 2.3 -/
def Unreserved (c : Nat) : Prop :=
  (48 ≤ c ∧ c ≤ 57) ∨ (65 ≤ c ∧ c ≤ 90) ∨ (97 ≤ c ∧ c ≤ 122) ∨ c = pc! '-' ∨ c = pc! '.' ∨ c = pc! '_' ∨ c = pc! '~'

/-- digits and the capital letters `A` to `F` -/
def UpperHex (c : Nat) : Prop := (48 ≤ c ∧ c ≤ 57) ∨ (65 ≤ c ∧ c ≤ 70)

/-- Form data in the normal form of RFC 3986, 6.2.2: escapes are written with capital letters, and neither an unreserved
character nor a space is escaped. -/
inductive NormalQuery : Str → Prop
  | nil : NormalQuery []
  | plain (c : Nat) (rest : Str) : Unreserved c → NormalQuery rest → NormalQuery (c :: rest)
  | form (c : Nat) (rest : Str) : c = pc! '+' ∨ c = pc! '=' ∨ c = pc! '&' → NormalQuery rest → NormalQuery (c :: rest)
  | escape (h l x y : Nat) (rest : Str) : UpperHex h → UpperHex l → hexValue h = some x → hexValue l = some y →
      ¬ Unreserved (16 * x + y) → 16 * x + y ≠ pc! ' ' → NormalQuery rest → NormalQuery (pc! '%' :: h :: l :: rest)

/-- percent-decoded text -/
def decodeField (s : Str) : Option Str := (percentDecode s).bind utf8Decode

/-- a name and a value around the first `=` -/
def fieldOf (s : Str) : Option (Str × Str) :=
  match decodeField (s.takeWhile (· ≠ pc! '=')), decodeField ((s.dropWhile (· ≠ pc! '=')).drop 1) with
  | some k, some v => some (k, v)
  | _, _ => none

/-- the fields of a query string, in order -/
def parseQuery (q : Str) : List (Option (Str × Str)) := (Py.splitOn (pc! '&') q).map fieldOf

/-- a list of Python code points -/
def CodePoints (s : Str) : Prop := ∀ c ∈ s, c < 0x110000

end Verif.Spec
