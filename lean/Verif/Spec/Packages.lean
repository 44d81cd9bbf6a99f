import Verif.Spec.Opc

/-!
# The mistakes of a package, and the lines about them (C104)

As in `Spec/Opc.lean`, parts at the top level are taken to be in the folder `top`; the code has `/`.
-/

namespace Verif.Spec.Packages
open Verif Verif.Spec Opc

/-- who has relationships: the package itself or a part of it -/
inductive Source
  | root
  | part (q : Str)
  deriving DecidableEq

/-- folder and name of a source -/
def Placed (top : Str) : Source → Str → Str → Prop
  | .root, d, f => d = [] ∧ f = []
  | .part q, d, f => Located top q d f

/-- the source has a relationship to `q` -/
def Names (top : Str) (z : Zip) (s : Source) (q : Str) : Prop := ∃ d f type, Placed top s d f ∧ Declares z d f type q

/-- the sources that are found from the package -/
inductive Linked (top : Str) (z : Zip) : Source → Prop
  | root : Linked top z .root
  | step {s q} : Linked top z s → Names top z s q → HasPart z q → Linked top z (.part q)

/-- what is wrong with an element of a relationships part -/
inductive Wrong
  | tag (t : Str)
  | noType
  | noTarget
  deriving DecidableEq

def IsWrong (e : Elem) : Wrong → Prop
  | .tag t => e.tag = t ∧ t ≠ relationshipTag
  | .noType => e.tag = relationshipTag ∧ ¬ ∃ v, Attr e py!"Type" v
  | .noTarget => e.tag = relationshipTag ∧ (∃ v, Attr e py!"Type" v) ∧ ¬ ∃ v, Attr e py!"Target" v

/-- the mistakes of a package -/
inductive Fault
  /-- no content types -/
  | noTypes
  /-- content types with another root -/
  | typesTag (t : Str)
  /-- the package has no relationships -/
  | noRoot
  /-- the relationships of this source have another root -/
  | relsTag (s : Source) (t : Str)
  /-- an element of the relationships of this source is wrong -/
  | element (s : Source) (i : Nat) (w : Wrong)
  /-- a part that relationships lead to does not exist -/
  | dangling (q : Str)
  deriving DecidableEq

/-- the package has proper content types; only then the rest is looked at -/
def Typed (z : Zip) : Prop := ∃ els, Member z py!"[Content_Types].xml" (.xml typesTag els)

/-- this is a mistake of the package -/
def HasFault (top : Str) (z : Zip) : Fault → Prop
  | .noTypes => ¬ HasPart z py!"[Content_Types].xml"
  | .typesTag t => t ≠ typesTag ∧ ∃ els, Member z py!"[Content_Types].xml" (.xml t els)
  | .noRoot => Typed z ∧ ¬ HasPart z py!"_rels/.rels"
  | .relsTag s t => Typed z ∧ Linked top z s ∧ t ≠ relationshipsTag ∧ ∃ d f els, Placed top s d f ∧ Member z (relsPart d f) (.xml t els)
  | .element s i w => Typed z ∧ Linked top z s ∧
      ∃ d f els e, Placed top s d f ∧ Member z (relsPart d f) (.xml relationshipsTag els) ∧ els[i]? = some e ∧ IsWrong e w
  | .dangling q => Typed z ∧ ¬ HasPart z q ∧ ∃ s, Linked top z s ∧ Names top z s q

/-- the headings of the report -/
inductive Heading
  | types
  | relationships
  | source (s : Source)
  deriving DecidableEq

/-- where the line about a mistake is: wrong elements below the heading of their source; missing parts and wrong relationships of a part
below the heading of a source with a relationship to this part -/
def At (top : Str) (z : Zip) : Fault → Heading → Prop
  | .noTypes, h | .typesTag _, h => h = .types
  | .noRoot, h | .relsTag .root _, h => h = .relationships
  | .relsTag (.part q) _, h | .dangling q, h => ∃ s, h = .source s ∧ Linked top z s ∧ Names top z s q
  | .element s _ _, h => h = .source s

def Heading.text : Heading → Str
  | .types => py!"Checking [Content_Types].xml"
  | .relationships => py!"Checking relationships"
  | .source .root => py!"Checking root relationship"
  | .source (.part q) => py!"Checking relationships of " ++ (if pc! '/' ∈ q then q else py!"/" ++ q)

def Fault.text : Fault → Str
  | .noTypes => py!"[Content_Types].xml not found"
  | .typesTag t => py!"root must have tag " ++ Spec.typesTag ++ py!", got " ++ t
  | .noRoot => py!"Root relationship does not exist"
  | .relsTag _ t => py!"Invalid root tag " ++ t ++ py!", expected " ++ relationshipsTag
  | .element _ _ (.tag t) => py!"Invalid tag " ++ t
  | .element _ _ .noType => py!"Attribute 'Type' is missing"
  | .element _ _ .noTarget => py!"Attribute 'Target' is missing"
  | .dangling q => py!"Relationship has non-existing target " ++ q

/-- the lines of these mistakes below these headings -/
def line (p : Fault × Heading) : Str × Str := (p.2.text, p.1.text)

mutual
/-- the failed entries without entries of their own, in order, each with the message it is below of; `m` is the message above the entry -/
def failedAt (m : Str) : Res Str → List (Str × Str)
  | .mk m' l ss => if ss.isEmpty then (if l = .error ∨ l = .critical then [(m, m')] else []) else failedL m' ss
def failedL (m : Str) : List (Res Str) → List (Str × Str)
  | [] => []
  | r :: rest => failedAt m r ++ failedL m rest
end

/-- the same for the whole report -/
def failed : Res Str → List (Str × Str)
  | .mk m _ ss => failedL m ss

end Verif.Spec.Packages
