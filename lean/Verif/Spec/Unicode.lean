import Verif.Py

/-! # Digits and spaces of Unicode 14, by the ranges of the Unicode tables -/

namespace Verif.Spec
open Verif

/-- ranges of characters of the category Nd: the digits 0 to 9, in one range five times (mathematical digits) -/
def digitRanges : List (Nat × Nat) := [
  (0x30, 0x39),        -- Basic Latin
  (0x660, 0x669), (0x6f0, 0x6f9),  -- Arabic
  (0x7c0, 0x7c9),      -- NKo
  (0x966, 0x96f),      -- Devanagari
  (0x9e6, 0x9ef),      -- Bengali
  (0xa66, 0xa6f),      -- Gurmukhi
  (0xae6, 0xaef),      -- Gujarati
  (0xb66, 0xb6f),      -- Oriya
  (0xbe6, 0xbef),      -- Tamil
  (0xc66, 0xc6f),      -- Telugu
  (0xce6, 0xcef),      -- Kannada
  (0xd66, 0xd6f),      -- Malayalam
  (0xde6, 0xdef),      -- Sinhala
  (0xe50, 0xe59),      -- Thai
  (0xed0, 0xed9),      -- Lao
  (0xf20, 0xf29),      -- Tibetan
  (0x1040, 0x1049), (0x1090, 0x1099),  -- Myanmar
  (0x17e0, 0x17e9),    -- Khmer
  (0x1810, 0x1819),    -- Mongolian
  (0x1946, 0x194f),    -- Limbu
  (0x19d0, 0x19d9),    -- New Tai Lue
  (0x1a80, 0x1a89), (0x1a90, 0x1a99),  -- Tai Tham
  (0x1b50, 0x1b59),    -- Balinese
  (0x1bb0, 0x1bb9),    -- Sundanese
  (0x1c40, 0x1c49),    -- Lepcha
  (0x1c50, 0x1c59),    -- Ol Chiki
  (0xa620, 0xa629),    -- Vai
  (0xa8d0, 0xa8d9),    -- Saurashtra
  (0xa900, 0xa909),    -- Kayah Li
  (0xa9d0, 0xa9d9),    -- Javanese
  (0xa9f0, 0xa9f9),    -- Myanmar Extended-B
  (0xaa50, 0xaa59),    -- Cham
  (0xabf0, 0xabf9),    -- Meetei Mayek
  (0xff10, 0xff19),    -- fullwidth
  (0x104a0, 0x104a9),  -- Osmanya
  (0x10d30, 0x10d39),  -- Hanifi Rohingya
  (0x11066, 0x1106f),  -- Brahmi
  (0x110f0, 0x110f9),  -- Sora Sompeng
  (0x11136, 0x1113f),  -- Chakma
  (0x111d0, 0x111d9),  -- Sharada
  (0x112f0, 0x112f9),  -- Khudawadi
  (0x11450, 0x11459),  -- Newa
  (0x114d0, 0x114d9),  -- Tirhuta
  (0x11650, 0x11659),  -- Modi
  (0x116c0, 0x116c9),  -- Takri
  (0x11730, 0x11739),  -- Ahom
  (0x118e0, 0x118e9),  -- Warang Citi
  (0x11950, 0x11959),  -- Dives Akuru
  (0x11c50, 0x11c59),  -- Bhaiksuki
  (0x11d50, 0x11d59),  -- Masaram Gondi
  (0x11da0, 0x11da9),  -- Gunjala Gondi
  (0x16a60, 0x16a69),  -- Mro
  (0x16ac0, 0x16ac9),  -- Tangsa
  (0x16b50, 0x16b59),  -- Pahawh Hmong
  (0x1d7ce, 0x1d7ff),  -- mathematical
  (0x1e140, 0x1e149),  -- Nyiakeng Puachue Hmong
  (0x1e2f0, 0x1e2f9),  -- Wancho
  (0x1e950, 0x1e959),  -- Adlam
  (0x1fbf0, 0x1fbf9)]  -- Symbols for Legacy Computing

/-- the character is a digit of this value -/
def UnicodeDigit (c v : Nat) : Prop := ∃ r ∈ digitRanges, r.1 ≤ c ∧ c ≤ r.2 ∧ v = (c - r.1) % 10

/-- tab, line feed, vertical tab, form feed, carriage return, blank -/
def asciiSpaces : List Nat := [9, 10, 11, 12, 13, 32]

/-- file, group, record and unit separator -/
def separators : List Nat := [28, 29, 30, 31]

/-- next line, no-break space, Ogham space mark, the spaces of General Punctuation, line and paragraph separator, narrow no-break space, medium
mathematical space, ideographic space -/
def wideSpaces : List Nat := [0x85, 0xa0, 0x1680, 0x2000, 0x2001, 0x2002, 0x2003, 0x2004, 0x2005, 0x2006, 0x2007, 0x2008, 0x2009, 0x200a,
  0x2028, 0x2029, 0x202f, 0x205f, 0x3000]

end Verif.Spec
