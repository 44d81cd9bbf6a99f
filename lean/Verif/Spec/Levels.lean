import Verif.Spec.Parse

/-!
# Levels of nesting

How deeply documents and their contents are nested, independent of the parser.
-/

namespace Verif.Spec.Levels
open Verif Verif.Parse

mutual
/-- levels of a JSON value -/
def ofJson : Json → Nat
  | .arr l => ofItems l + 1
  | .obj kvs => ofMembers kvs + 1
  | _ => 1
def ofItems : List Json → Nat
  | [] => 0
  | j :: js => max (ofJson j) (ofItems js)
def ofMembers : List (Str × Json) → Nat
  | [] => 0
  | (_, j) :: js => max (ofJson j) (ofMembers js)
end

mutual
/-- levels of an XML element -/
def ofXml : Xml → Nat
  | .elem _ _ c => ofChildren c + 1
def ofChildren : List Xml → Nat
  | [] => 0
  | x :: xs => max (ofXml x) (ofChildren xs)
end

section
variable {C E S F : Type}
mutual
/-- levels of the content of a document: what is not in the document does not count -/
def ofVal : Val C E S F → Nat
  | .none => 0
  | .invalid => 0
  | .path _ _ _ => 0
  | .list l => ofVals l + 1
  | .obj _ attrs => ofAttrs attrs + 1
  | _ => 1
def ofVals : List (Val C E S F) → Nat
  | [] => 0
  | v :: vs => max (ofVal v) (ofVals vs)
def ofAttrs : List (F × Val C E S F) → Nat
  | [] => 0
  | (_, v) :: vs => max (ofVal v) (ofAttrs vs)
end
end
end Verif.Spec.Levels
