import Verif.Py

/-!
# What language tags and URIs look like

Written from RFC 5646 (BCP 47) in terms of subtags, and from RFC 3987 in terms of characters. Nothing here refers to
the regular expressions of the code.
-/

namespace Verif.Spec
open Verif

def IsUpper (c : Nat) : Prop := 65 ≤ c ∧ c ≤ 90
def IsLower (c : Nat) : Prop := 97 ≤ c ∧ c ≤ 122
def IsAlpha (c : Nat) : Prop := IsLower c ∨ IsUpper c
def IsNum (c : Nat) : Prop := 48 ≤ c ∧ c ≤ 57
def IsAlnum (c : Nat) : Prop := IsAlpha c ∨ IsNum c

instance (c : Nat) : Decidable (IsUpper c) := inferInstanceAs (Decidable (_ ∧ _))
instance (c : Nat) : Decidable (IsLower c) := inferInstanceAs (Decidable (_ ∧ _))
instance (c : Nat) : Decidable (IsAlpha c) := inferInstanceAs (Decidable (_ ∨ _))
instance (c : Nat) : Decidable (IsNum c) := inferInstanceAs (Decidable (_ ∧ _))
instance (c : Nat) : Decidable (IsAlnum c) := inferInstanceAs (Decidable (_ ∨ _))

/-- between `lo` and `hi` characters, all of the given kind -/
def Run (P : Nat → Prop) (lo hi : Nat) (t : Str) : Prop := lo ≤ t.length ∧ t.length ≤ hi ∧ ∀ c ∈ t, P c

instance (P : Nat → Prop) [DecidablePred P] (lo hi : Nat) (t : Str) : Decidable (Run P lo hi t) :=
  inferInstanceAs (Decidable (_ ∧ _))

/-- RFC 5646 `language` (shortest ISO 639 code with up to three extended language subtags, reserved, registered) -/
def LanguagePart (ts : List Str) : Prop :=
  (∃ l exts, ts = l :: exts ∧ Run IsAlpha 2 3 l ∧ exts.length ≤ 3 ∧ ∀ e ∈ exts, Run IsAlpha 3 3 e) ∨
  ∃ l, ts = [l] ∧ Run IsAlpha 4 8 l

/-- RFC 5646 `script` -/
def ScriptSub (t : Str) : Prop := Run IsAlpha 4 4 t
/-- RFC 5646 `region` -/
def RegionSub (t : Str) : Prop := Run IsAlpha 2 2 t ∨ Run IsNum 3 3 t
/-- RFC 5646 `variant` -/
def VariantSub (t : Str) : Prop :=
  Run IsAlnum 5 8 t ∨ ∃ d u, t = d :: u ∧ IsNum d ∧ Run IsAlnum 3 3 u
/-- RFC 5646 `singleton`: a letter or digit other than x -/
def SingletonSub (t : Str) : Prop := ∃ c, t = [c] ∧ IsAlnum c ∧ c ≠ pc! 'x' ∧ c ≠ pc! 'X'
/-- RFC 5646 `extension` -/
def ExtensionPart (ts : List Str) : Prop :=
  ∃ x us, ts = x :: us ∧ SingletonSub x ∧ us ≠ [] ∧ ∀ u ∈ us, Run IsAlnum 2 8 u
/-- RFC 5646 `privateuse` -/
def PrivatePart (ts : List Str) : Prop :=
  ∃ x us, ts = x :: us ∧ (x = py!"x" ∨ x = py!"X") ∧ us ≠ [] ∧ ∀ u ∈ us, Run IsAlnum 1 8 u

/-- at most one subtag, of the given kind -/
def Optional (P : Str → Prop) (ts : List Str) : Prop := ts = [] ∨ ∃ t, ts = [t] ∧ P t

/-- RFC 5646 `langtag` -/
def LangtagParts (ts : List Str) : Prop :=
  ∃ (lang script region variants : List Str) (exts : List (List Str)) (priv : List Str),
    ts = lang ++ script ++ region ++ variants ++ exts.flatten ++ priv ∧
    LanguagePart lang ∧ Optional ScriptSub script ∧ Optional RegionSub region ∧ (∀ t ∈ variants, VariantSub t) ∧
    (∀ e ∈ exts, ExtensionPart e) ∧ (priv = [] ∨ PrivatePart priv)

/-- RFC 5646 `grandfathered`: `irregular` and `regular` -/
def grandfatheredTags : List Str :=
  [py!"en-GB-oed", py!"i-ami", py!"i-bnn", py!"i-default", py!"i-enochian", py!"i-hak", py!"i-klingon", py!"i-lux",
   py!"i-mingo", py!"i-navajo", py!"i-pwn", py!"i-tao", py!"i-tay", py!"i-tsu", py!"sgn-BE-FR", py!"sgn-BE-NL",
   py!"sgn-CH-DE", py!"art-lojban", py!"cel-gaulish", py!"no-bok", py!"no-nyn", py!"zh-guoyu", py!"zh-hakka",
   py!"zh-min", py!"zh-min-nan", py!"zh-xiang"]

/-- lower case of an ASCII letter -/
def lowerCase (c : Nat) : Nat := if 65 ≤ c ∧ c ≤ 90 then c + 32 else c

/-- the same text but for the case of letters (RFC 5646 2.1.1: tags are not case sensitive) -/
def SameLetters (s t : Str) : Prop := s.map lowerCase = t.map lowerCase

/-- RFC 5646 `Language-Tag` -/
def LanguageTag (s : Str) : Prop :=
  (∃ ts, s = Py.join py!"-" ts ∧ (LangtagParts ts ∨ PrivatePart ts)) ∨ ∃ g ∈ grandfatheredTags, SameLetters s g

/-- a language tag whose grandfathered forms are written exactly as in the RFC -/
def LanguageTagExactCase (s : Str) : Prop :=
  (∃ ts, s = Py.join py!"-" ts ∧ (LangtagParts ts ∨ PrivatePart ts)) ∨ s ∈ grandfatheredTags

/-! ## RFC 3987 -/

/-- RFC 3987 `ucschar` -/
def IsUcs (c : Nat) : Prop :=
  (0xa0 ≤ c ∧ c ≤ 0xd7ff) ∨ (0xf900 ≤ c ∧ c ≤ 0xfdcf) ∨ (0xfdf0 ≤ c ∧ c ≤ 0xffef) ∨
  (∃ plane, 1 ≤ plane ∧ plane ≤ 13 ∧ plane * 0x10000 ≤ c ∧ c ≤ plane * 0x10000 + 0xfffd) ∨ (0xe1000 ≤ c ∧ c ≤ 0xefffd)

/-- RFC 3987 `iprivate` -/
def IsPrivate (c : Nat) : Prop :=
  (0xe000 ≤ c ∧ c ≤ 0xf8ff) ∨ (0xf0000 ≤ c ∧ c ≤ 0xffffd) ∨ (0x100000 ≤ c ∧ c ≤ 0x10fffd)

/-- RFC 3987 `iunreserved` -/
def IsUnreserved (c : Nat) : Prop := IsAlnum c ∨ c ∈ py!"-._~" ∨ IsUcs c

/-- RFC 3986 `sub-delims` -/
def IsSubDelim (c : Nat) : Prop := c ∈ py!"!$&'()*+,;="

/-- RFC 3986 `gen-delims` -/
def IsGenDelim (c : Nat) : Prop := c ∈ py!":/?#[]@"

/-- characters that may be written in an IRI reference, without the escape character -/
def UriChar (c : Nat) : Prop := IsUnreserved c ∨ IsSubDelim c ∨ IsGenDelim c ∨ IsPrivate c

def IsHex (c : Nat) : Prop := IsNum c ∨ (65 ≤ c ∧ c ≤ 70) ∨ (97 ≤ c ∧ c ≤ 102)

instance (c : Nat) : Decidable (IsHex c) := inferInstanceAs (Decidable (_ ∨ _))

/-- every % starts an escape sequence -/
def Escaped (s : Str) : Prop := ∀ u v, s = u ++ pc! '%' :: v → ∃ a b w, v = a :: b :: w ∧ IsHex a ∧ IsHex b

/-- RFC 3986 `scheme` -/
def SchemeText (s : Str) : Prop :=
  ∃ c t, s = c :: t ∧ IsAlpha c ∧ ∀ d ∈ t, IsAlnum d ∨ d ∈ py!"+-."

/-- text of characters of a kind and of escape sequences -/
inductive Enc (P : Nat → Prop) : Str → Prop
  | nil : Enc P []
  | char {c s} : P c → Enc P s → Enc P (c :: s)
  | pct {a b s} : IsHex a → IsHex b → Enc P s → Enc P (pc! '%' :: a :: b :: s)

/-- RFC 3987 `ireg-name` characters -/
def RegChar (c : Nat) : Prop := IsUnreserved c ∨ IsSubDelim c
/-- RFC 3987 `ipchar` -/
def PathChar (c : Nat) : Prop := RegChar c ∨ c ∈ py!":@"

/-- a path of segments, each after a slash -/
def pathOf (segs : List Str) : Str := (segs.map (pc! '/' :: ·)).flatten

/-- RFC 3986 `h16` -/
def Hextet (t : Str) : Prop := Run IsHex 1 4 t
/-- RFC 3986 `IPv4address` -/
def Ipv4 (t : Str) : Prop :=
  ∃ a b c d, a ≤ 255 ∧ b ≤ 255 ∧ c ≤ 255 ∧ d ≤ 255 ∧
    t = Py.join py!"." [Py.natStr a, Py.natStr b, Py.natStr c, Py.natStr d]
/-- `n` groups of 16 bits -/
def Groups (n : Nat) (t : Str) : Prop := ∃ gs : List Str, gs.length = n ∧ (∀ g ∈ gs, Hextet g) ∧ t = Py.join py!":" gs
/-- `n` groups of 16 bits, the last two of which may be written as an IPv4 address -/
def LastGroups (n : Nat) (t : Str) : Prop :=
  Groups n t ∨ ∃ (gs : List Str) (v : Str), gs.length + 2 = n ∧ (∀ g ∈ gs, Hextet g) ∧ Ipv4 v ∧ t = Py.join py!":" (gs ++ [v])
/-- eight groups, or `m` and `n` groups around `::`, for allowed `m` and `n` -/
def Ipv6 (allowed : Nat → Nat → Prop) (t : Str) : Prop :=
  LastGroups 8 t ∨ ∃ m n l r, t = l ++ py!"::" ++ r ∧ Groups m l ∧ LastGroups n r ∧ allowed m n
/-- RFC 3986: `::` stands for at least one group -/
def RfcGroups (m n : Nat) : Prop := m + n ≤ 7
/-- what the pattern of the code allows: no group before `::`, or exactly seven around it, or 1 and 5 -/
def CodeGroups (m n : Nat) : Prop := n ≤ 7 ∧ (m = 0 ∨ m + n = 7 ∨ (m = 1 ∧ n = 5))
/-- RFC 3986 `IPvFuture` -/
def IpvFuture (t : Str) : Prop :=
  ∃ v hs us, t = v :: hs ++ py!"." ++ us ∧ (v = pc! 'v' ∨ v = pc! 'V') ∧ hs ≠ [] ∧ (∀ c ∈ hs, IsHex c) ∧ us ≠ [] ∧
    ∀ c ∈ us, IsAlnum c ∨ c ∈ py!"-._~" ∨ IsSubDelim c ∨ c = pc! ':'

/-- RFC 3987 `ihost` -/
def HostText (allowed : Nat → Nat → Prop) (h : Str) : Prop :=
  Enc RegChar h ∨ ∃ ip, h = py!"[" ++ ip ++ py!"]" ∧ (Ipv6 allowed ip ∨ IpvFuture ip)

/-- RFC 3987 `iauthority` -/
def AuthorityText (allowed : Nat → Nat → Prop) (a : Str) : Prop :=
  ∃ user host port, a = user ++ host ++ port ∧
    (user = [] ∨ ∃ u, user = u ++ py!"@" ∧ Enc (fun c => RegChar c ∨ c = pc! ':') u) ∧
    HostText allowed host ∧ (port = [] ∨ ∃ ds, port = pc! ':' :: ds ∧ ∀ d ∈ ds, IsNum d)

/-- a part with its delimiter, or nothing -/
def Part (P : Str → Prop) (before after t : Str) : Prop := t = [] ∨ ∃ u, t = before ++ u ++ after ∧ P u

/-- RFC 3987 `IRI-reference`, by its components (RFC 3986, 3 and 5.3): scheme, authority, path, query, fragment. -/
def IriReference (allowed : Nat → Nat → Prop) (s : Str) : Prop :=
  ∃ scheme auth path query frag, s = scheme ++ auth ++ path ++ query ++ frag ∧
    Part SchemeText [] py!":" scheme ∧ Part (AuthorityText allowed) py!"//" [] auth ∧
    Enc (fun c => PathChar c ∨ c = pc! '/') path ∧
    Part (Enc fun c => PathChar c ∨ IsPrivate c ∨ c ∈ py!"/?") py!"?" [] query ∧
    Part (Enc fun c => PathChar c ∨ c ∈ py!"/?") py!"#" [] frag ∧
    (auth ≠ [] → path = [] ∨ ∃ p, path = pc! '/' :: p) ∧
    (auth = [] → ¬ ∃ p, path = py!"//" ++ p) ∧
    (auth = [] → scheme = [] → ¬ ∃ u v, path = u ++ pc! ':' :: v ∧ pc! '/' ∉ u)

/-- `en` or `EN`, alone or followed by a dash and anything -/
def EnglishTag (s : Str) : Prop :=
  ∃ l, (l = py!"en" ∨ l = py!"EN") ∧ (s = l ∨ ∃ t, s = l ++ py!"-" ++ t)

end Verif.Spec
