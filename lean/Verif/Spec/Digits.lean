import Verif.Adapter

/-!
# Documents with short texts

How long the texts of a document are, and which interpreters convert numerals of that many digits.
-/

namespace Verif.Spec.Digits
open Verif Verif.Parse

/-- an interpreter with this limit for `int` converts numerals with `n` digits; `none` is no limit -/
def Converts (lim : Option Nat) (n : Nat) : Prop := ∀ l, lim = some l → n ≤ l

/-- the texts of a JSON document have at most `n` characters; names of members do not count -/
inductive ShortJson (n : Nat) : Json → Prop
  | null : ShortJson n .null
  | bool (b : Bool) : ShortJson n (.bool b)
  | num (i : Int) : ShortJson n (.num i)
  | float (t : Nat) : ShortJson n (.float t)
  | str {s : Str} : s.length ≤ n → ShortJson n (.str s)
  | arr {l : List Json} : (∀ j ∈ l, ShortJson n j) → ShortJson n (.arr l)
  | obj {kvs : List (Str × Json)} : (∀ p ∈ kvs, ShortJson n p.2) → ShortJson n (.obj kvs)

/-- the texts of an XML document have at most `n` characters; tags do not count -/
inductive ShortXml (n : Nat) : Xml → Prop
  | elem {tag : Str} {text : Option Str} {children : List Xml} : (∀ t, text = some t → t.length ≤ n) → (∀ x ∈ children, ShortXml n x) →
      ShortXml n (.elem tag text children)

end Verif.Spec.Digits
