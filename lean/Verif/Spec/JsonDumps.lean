import Verif.Spec.JsonBytes

/-! # Specification of JSON that is written (C79) -/

namespace Verif.Spec.JsonText
open Verif Verif.JsonText

/-- What becomes of a text in JSON: two surrogates in a row that are a pair become the character they stand for. -/
inductive Joined : Str → Str → Prop
  | nil : Joined [] []
  | pair {m n s t} : High m → Low n → Joined s t → Joined (m :: n :: s) ((0x10000 + (m - 0xd800) * 1024 + (n - 0xdc00)) :: t)
  | char {c s t} : ¬ (High c ∧ ∃ n r, s = n :: r ∧ Low n) → Joined s t → Joined (c :: s) (c :: t)

/-- a text of Unicode code points without such pairs -/
def Unpaired (s : Str) : Prop := (∀ c ∈ s, c < 0x110000) ∧ NoPair s

/-- the text of a number that Python writes as `float`: with fraction or exponent, or one of the constants -/
def RealText (t : Str) : Prop :=
  t = py!"NaN" ∨ t = py!"Infinity" ∨ t = py!"-Infinity" ∨
  ∃ s i f e, (s = [] ∨ s = py!"-") ∧ IntPart i ∧ FracPart f ∧ ExpPart e ∧ f ++ e ≠ [] ∧ t = s ++ (i ++ (f ++ e))

/-- Values that can be written and read again: texts without pairs of surrogates, integers that are not too long, and numbers whose text is read as
this number. -/
inductive Plainly (p : Nums) (real : Nat → Str) : Json → Prop
  | null : Plainly p real .null
  | bool (b) : Plainly p real (.bool b)
  | num (i : Int) : (∀ l, p.lim = some l → 0 < l ∧ i.natAbs < 10 ^ l) → Plainly p real (.num i)
  | float (n) : RealText (real n) → p.real (real n) = .inr n → Plainly p real (.float n)
  | str {s} : Unpaired s → Plainly p real (.str s)
  | arr {l} : (∀ j ∈ l, Plainly p real j) → Plainly p real (.arr l)
  | obj {kvs} : (∀ e ∈ kvs, Unpaired e.1) → (∀ e ∈ kvs, Plainly p real e.2) → (kvs.map (·.1)).Nodup → Plainly p real (.obj kvs)

end Verif.Spec.JsonText
