import Verif.Spec.JsonText

/-!
# Specification of JSON files (C78): the encodings of texts

The encoding forms of the Unicode Standard (section 3.9), with and without byte order mark.
-/

namespace Verif.Spec.JsonText
open Verif Verif.JsonText

/-- a Unicode scalar value -/
def Scalar (c : Nat) : Prop := c < 0xd800 ∨ (0xe000 ≤ c ∧ c < 0x110000)

/-- UTF-8; surrogates are encoded like the other characters of three bytes -/
def utf8Of (c : Nat) : List Nat :=
  if c < 0x80 then [c]
  else if c < 0x800 then [0xc0 + c / 0x40, 0x80 + c % 0x40]
  else if c < 0x10000 then [0xe0 + c / 0x1000, 0x80 + c / 0x40 % 0x40, 0x80 + c % 0x40]
  else [0xf0 + c / 0x40000, 0x80 + c / 0x1000 % 0x40, 0x80 + c / 0x40 % 0x40, 0x80 + c % 0x40]

/-- the units of UTF-16 -/
def utf16Of (c : Nat) : List Nat :=
  if c < 0x10000 then [c] else [0xd800 + (c - 0x10000) / 0x400, 0xdc00 + (c - 0x10000) % 0x400]

/-- a unit of two or four bytes, with the lowest byte first (`little`) or last -/
def bytes2 (little : Bool) (u : Nat) : List Nat := if little then [u % 256, u / 256] else [u / 256, u % 256]
def bytes4 (little : Bool) (u : Nat) : List Nat :=
  if little then [u % 256, u / 256 % 256, u / 65536 % 256, u / 16777216] else [u / 16777216, u / 65536 % 256, u / 256 % 256, u % 256]

inductive Form
  | utf8
  | utf16 (little : Bool)
  | utf32 (little : Bool)

def encodeChar : Form → Nat → List Nat
  | .utf8, c => utf8Of c
  | .utf16 l, c => (utf16Of c).flatMap (bytes2 l)
  | .utf32 l, c => bytes4 l c

def encode (f : Form) (s : Str) : List Nat := s.flatMap (encodeChar f)

/-- the file with this text; a byte order mark is the character U+FEFF in front of it -/
def fileOf (f : Form) (mark : Bool) (s : Str) : List Nat := encode f (if mark then 0xfeff :: s else s)

/-- no high surrogate stands before a low surrogate -/
def NoPair (s : Str) : Prop := ¬ ∃ a m n b, s = a ++ m :: n :: b ∧ High m ∧ Low n

/-- The file has this text. Single surrogates are possible, but they have no form in UTF-16 if they are in the order of a pair. -/
def HasText (b : List Nat) (s : Str) : Prop :=
  ∃ f mark, b = fileOf f mark s ∧ (∀ c ∈ s, c < 0x110000) ∧ ((∃ l, f = .utf16 l) → NoPair s)

/-- The text of an error in a document names a place in it: `w` is the part before this place in its line, which is line `n`. -/
def ErrorText (s t : Str) : Prop :=
  ∃ m n u w b, s = u ++ (w ++ b) ∧ 10 ∉ w ∧ ((u = [] ∧ n = 1) ∨ ∃ v, u = v ++ [10] ∧ n = (u.filter (· = 10)).length + 1) ∧
    t = m ++ (py!": line " ++ (Py.natStr n ++ (py!" column " ++ (Py.natStr (w.length + 1) ++ (py!" (char " ++
      (Py.natStr (u.length + w.length) ++ py!")"))))))

end Verif.Spec.JsonText
