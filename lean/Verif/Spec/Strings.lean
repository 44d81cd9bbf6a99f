import Verif.Spec.DataTypes
import Verif.Spec.Text
import Verif.Schema

/-!
# What the string types of the meta-model look like

Written from the specification (lengths, AASd-130) and RFC 9110 (media types).
-/

namespace Verif.Spec
open Verif Verif.Aas

/-- AASd-130: the characters of XML 1.0 -/
def XmlChar (c : Nat) : Prop :=
  c = 0x9 ∨ c = 0xa ∨ c = 0xd ∨ (0x20 ≤ c ∧ c ≤ 0xd7ff) ∨ (0xe000 ≤ c ∧ c ≤ 0xfffd) ∨ (0x10000 ≤ c ∧ c ≤ 0x10ffff)

instance (c : Nat) : Decidable (XmlChar c) := inferInstanceAs (Decidable (_ ∨ _))

/-- smallest and largest length -/
def lengths : SfvCls → Nat × Option Nat
  | .blobString => (1, none)
  | .contentType => (1, some 100)
  | .identifierString => (1, some 2000)
  | .labelString => (1, some 64)
  | .messageTopicString => (1, some 255)
  | .nameTypeString => (1, some 128)
  | .pathString => (1, some 2000)
  | .revisionString => (1, some 4)
  | .versionString => (1, some 4)
  | .valueDataType => (0, none)
  | .dateTime => (1, none)
  | .dateTimeUtc => (1, none)
  | .duration => (1, none)
  | .dataType => (1, none)
  | .valueType => (1, none)
  | .valueTypeIec61360 => (1, some 2000)
  | .nonEmptyString => (1, none)

/-- the length is within the limits -/
def LengthOk (c : SfvCls) (s : Str) : Prop := (lengths c).1 ≤ s.length ∧ ∀ m, (lengths c).2 = some m → s.length ≤ m

/-- RFC 9110 `tchar` -/
def TokenChar (c : Nat) : Prop := IsAlnum c ∨ c ∈ py!"!#$%&'*+-.^_`|~"
/-- RFC 9110 `token` -/
def Token (s : Str) : Prop := s ≠ [] ∧ ∀ c ∈ s, TokenChar c
/-- blanks and tabs -/
def Blanks (s : Str) : Prop := ∀ c ∈ s, c = 32 ∨ c = 9
/-- RFC 9110 `obs-text`, in ISO 8859-1 -/
def ObsText (c : Nat) : Prop := 0x80 ≤ c ∧ c ≤ 0xff
/-- RFC 9110 `qdtext`: anything visible, blanks and tabs, except `"` and `\` -/
def QdText (c : Nat) : Prop := c = 9 ∨ (32 ≤ c ∧ c ≤ 126 ∧ c ≠ pc! '"' ∧ c ≠ 92) ∨ ObsText c
/-- RFC 9110 `quoted-string` -/
def Quoted (s : Str) : Prop :=
  ∃ ps : List Str, s = pc! '"' :: ps.flatten ++ [pc! '"'] ∧
    ∀ p ∈ ps, (∃ c, p = [c] ∧ QdText c) ∨ ∃ c, p = [92, c] ∧ (c = 9 ∨ (32 ≤ c ∧ c ≤ 126) ∨ ObsText c)
/-- `;name=value` -/
def Parameter (s : Str) : Prop :=
  ∃ w1 w2 name value, s = w1 ++ pc! ';' :: w2 ++ name ++ pc! '=' :: value ∧ Blanks w1 ∧ Blanks w2 ∧ Token name ∧
    (Token value ∨ Quoted value)
/-- RFC 9110 `media-type` -/
def MediaType (s : Str) : Prop :=
  ∃ t u, ∃ ps : List Str, s = t ++ pc! '/' :: u ++ ps.flatten ∧ Token t ∧ Token u ∧ ∀ p ∈ ps, Parameter p

/-- a natural number without leading zeros -/
def PlainNumeral (s : Str) : Prop := s = py!"0" ∨ ∃ c t, s = c :: t ∧ IsNum c ∧ c ≠ pc! '0' ∧ ∀ x ∈ t, IsNum x

/-- the format of a string type, apart from length and character set -/
def Format : SfvCls → Str → Prop
  | .contentType => MediaType
  | .versionString => PlainNumeral
  | .revisionString => PlainNumeral
  | .duration => DurationText
  | .pathString => IriReference RfcGroups
  | .dateTime => DateTimeText
  | .dateTimeUtc => DateTimeUtcText
  | _ => fun _ => True

end Verif.Spec
