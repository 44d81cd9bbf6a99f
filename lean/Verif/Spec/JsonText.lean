import Verif.JsonText
import Verif.Spec.Parse

/-!
# Specification of JSON texts (C77, C78, C79)

The grammar of RFC 8259, with the three additional constants that Python accepts, and the value of each text. `Nums` says which integers
are too long to be converted, and which number a text with fraction or exponent is; both are parameters.
-/

namespace Verif.Spec.JsonText
open Verif Verif.JsonText

/-- white space -/
def Ws (w : Str) : Prop := ∀ c ∈ w, c = 32 ∨ c = 9 ∨ c = 10 ∨ c = 13

/-! ## strings -/

/-- the value of a hexadecimal digit -/
def hexVal (c : Nat) : Option Nat :=
  if 48 ≤ c ∧ c ≤ 57 then some (c - 48) else if 97 ≤ c ∧ c ≤ 102 then some (c - 87) else if 65 ≤ c ∧ c ≤ 70 then some (c - 55) else none

/-- four hexadecimal digits -/
def Hex4 (s : Str) (n : Nat) : Prop :=
  ∃ a b c d a' b' c' d', s = [a, b, c, d] ∧ hexVal a = some a' ∧ hexVal b = some b' ∧ hexVal c = some c' ∧ hexVal d = some d' ∧
    n = a' * 4096 + b' * 256 + c' * 16 + d'

def High (n : Nat) : Prop := 0xd800 ≤ n ∧ n < 0xdc00
def Low (n : Nat) : Prop := 0xdc00 ≤ n ∧ n < 0xe000

/-- the text begins with the escape of a low surrogate -/
def LowEscape (t : Str) : Prop := ∃ ds n t', t = 92 :: pc! 'u' :: ds ++ t' ∧ Hex4 ds n ∧ Low n

/-- the characters between the quotes (RFC 8259, section 7), and the text they stand for. A surrogate that is not escaped as one of a
pair stands for itself. -/
inductive Chars : Str → Str → Prop
  | nil : Chars [] []
  | plain {c t v} : 32 ≤ c → c ≠ 34 → c ≠ 92 → Chars t v → Chars (c :: t) (c :: v)
  | escape {e c t v} : (e, c) ∈ [(34, 34), (92, 92), (47, 47), (pc! 'b', 8), (pc! 'f', 12), (pc! 'n', 10), (pc! 'r', 13), (pc! 't', 9)] →
      Chars t v → Chars (92 :: e :: t) (c :: v)
  | unicode {ds n t v} : Hex4 ds n → ¬ (High n ∧ LowEscape t) → Chars t v → Chars (92 :: pc! 'u' :: ds ++ t) (n :: v)
  | pair {ds es m n t v} : Hex4 ds m → High m → Hex4 es n → Low n → Chars t v →
      Chars (92 :: pc! 'u' :: ds ++ (92 :: pc! 'u' :: es ++ t)) ((0x10000 + (m - 0xd800) * 1024 + (n - 0xdc00)) :: v)

/-! ## numbers -/

def Digit (c : Nat) : Prop := 48 ≤ c ∧ c ≤ 57

/-- the value of decimal digits -/
inductive Decimal : Str → Nat → Prop
  | nil : Decimal [] 0
  | snoc {t n d} : d < 10 → Decimal t n → Decimal (t ++ [48 + d]) (10 * n + d)

/-- `0`, or digits that do not begin with `0` -/
def IntPart (t : Str) : Prop := t = py!"0" ∨ ∃ d r, t = d :: r ∧ 49 ≤ d ∧ d ≤ 57 ∧ ∀ c ∈ r, Digit c
def FracPart (t : Str) : Prop := t = [] ∨ ∃ d r, t = pc! '.' :: d :: r ∧ ∀ c ∈ d :: r, Digit c
def ExpPart (t : Str) : Prop :=
  t = [] ∨ ∃ e s d r, (e = pc! 'e' ∨ e = pc! 'E') ∧ (s = [] ∨ s = py!"+" ∨ s = py!"-") ∧ t = e :: (s ++ d :: r) ∧ ∀ c ∈ d :: r, Digit c

/-- a number that Python gives as `float` -/
def realJson (p : Nums) (t : Str) : Json := match p.real t with
  | .inl i => .num i
  | .inr n => .float n

inductive Number (p : Nums) : Str → Json → Prop
  | int {t n} : IntPart t → Decimal t n → (∀ l, p.lim = some l → t.length ≤ l) → Number p t (.num n)
  | neg {t n} : IntPart t → Decimal t n → (∀ l, p.lim = some l → t.length ≤ l) → Number p (pc! '-' :: t) (.num (-n))
  | real {s t f e} : (s = [] ∨ s = py!"-") → IntPart t → FracPart f → ExpPart e → f ++ e ≠ [] →
      Number p (s ++ (t ++ (f ++ e))) (realJson p (s ++ (t ++ (f ++ e))))

/-! ## objects -/

/-- the names in the order in which they occur first -/
def firsts : List Str → List Str
  | [] => []
  | k :: ks => k :: (firsts ks).filter (· ≠ k)

/-- the object with these members: of members with the same name the last one counts -/
def Collapsed (members kvs : List (Str × Json)) : Prop :=
  kvs.map (·.1) = firsts (members.map (·.1)) ∧
  ∀ k v, (k, v) ∈ kvs ↔ ∃ a b, members = a ++ (k, v) :: b ∧ k ∉ b.map (·.1)

/-! ## texts -/

mutual
/-- a value without white space around it -/
inductive Value (p : Nums) : Str → Json → Prop
  | null : Value p py!"null" .null
  | true : Value p py!"true" (.bool true)
  | false : Value p py!"false" (.bool false)
  | nan : Value p py!"NaN" (realJson p py!"NaN")
  | inf : Value p py!"Infinity" (realJson p py!"Infinity")
  | negInf : Value p py!"-Infinity" (realJson p py!"-Infinity")
  | number {t j} : Number p t j → Value p t j
  | string {t v} : Chars t v → Value p (34 :: t ++ [34]) (.str v)
  | emptyArr {w} : Ws w → Value p (pc! '[' :: w ++ [pc! ']']) (.arr [])
  | arr {t l} : Elements p t l → Value p (pc! '[' :: t ++ [pc! ']']) (.arr l)
  | emptyObj {w} : Ws w → Value p (pc! '{' :: w ++ [pc! '}']) (.obj [])
  | obj {t ms kvs} : Members p t ms → Collapsed ms kvs → Value p (pc! '{' :: t ++ [pc! '}']) (.obj kvs)
/-- one or more values, with commas between them -/
inductive Elements (p : Nums) : Str → List Json → Prop
  | one {a t b j} : Ws a → Value p t j → Ws b → Elements p (a ++ (t ++ b)) [j]
  | more {a t b j u l} : Ws a → Value p t j → Ws b → Elements p u l → Elements p (a ++ (t ++ (b ++ pc! ',' :: u))) (j :: l)
/-- one or more members of an object, with commas between them -/
inductive Members (p : Nums) : Str → List (Str × Json) → Prop
  | one {a k n b c t d j} : Ws a → Chars k n → Ws b → Ws c → Value p t j → Ws d →
      Members p (a ++ (34 :: (k ++ 34 :: (b ++ pc! ':' :: (c ++ (t ++ d)))))) [(n, j)]
  | more {a k n b c t d j u l} : Ws a → Chars k n → Ws b → Ws c → Value p t j → Ws d → Members p u l →
      Members p (a ++ (34 :: (k ++ 34 :: (b ++ pc! ':' :: (c ++ (t ++ (d ++ pc! ',' :: u))))))) ((n, j) :: l)
end

/-- the text is JSON for this value -/
def Denotes (p : Nums) (s : Str) (j : Json) : Prop := ∃ a t b, s = a ++ (t ++ b) ∧ Ws a ∧ Ws b ∧ Value p t j

/-- the same without a limit for integers -/
def Nums.unlimited (p : Nums) : Nums := { p with lim := none }

/-- a text that is JSON if integers may have any length -/
def IsJson (p : Nums) (s : Str) : Prop := ∃ j, Denotes (Nums.unlimited p) s j

/-- some integer has more digits than Python converts -/
def LongNumber (p : Nums) (s : Str) : Prop := ∃ l a ds b, p.lim = some l ∧ s = a ++ (ds ++ b) ∧ (∀ c ∈ ds, Digit c) ∧ l < ds.length

end Verif.Spec.JsonText
