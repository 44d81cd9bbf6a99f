import Verif.Spec.Config
import Verif.Opc

/-! # Specification of OPC packages (C29-C34)

Only the data types of the model (archives, relationships, results) are used here, none of its functions.
-/

namespace Verif.Spec
open Verif Opc

/-! ## paths -/

/-- Where a walk through a folder tree ends: from the position `pos` (the folder names from the root), along the segments of
a path. Blank segments and `.` stay, `..` goes to the parent folder (the parent of the root is the root). -/
inductive Walk : List Str → List Str → List Str → Prop
  | done {pos} : Walk pos [] pos
  | stay {pos s ss res} : Blank s ∨ s = py!"." → Walk pos ss res → Walk pos (s :: ss) res
  | top {ss res} : Walk [] ss res → Walk [] (py!".." :: ss) res
  | up {pos x ss res} : Walk pos ss res → Walk (pos ++ [x]) (py!".." :: ss) res
  | down {pos s ss res} : ¬ Blank s → s ≠ py!"." → s ≠ py!".." → Walk (pos ++ [s]) ss res → Walk pos (s :: ss) res

/-- `t` is `s` without surrounding white space -/
def Trimmed (s t : Str) : Prop :=
  ∃ a b, s = a ++ t ++ b ∧ Blank a ∧ Blank b ∧ (∀ c, t.head? = some c → Py.isSpace c = false) ∧
    (∀ c, t.getLast? = some c → Py.isSpace c = false)

/-- absolute path -/
def Absolute (s : Str) : Prop := ∃ u, s = pc! '/' :: u

/-- `q` is the normal form of the path `p` -/
def Normal (p q : Str) : Prop :=
  ∃ t, Trimmed p t ∧ (t = [] ∧ q = [] ∨ t ≠ [] ∧ ∃ segs pos, Parts (pc! '/') t segs ∧ Walk [] segs pos ∧
    (Absolute t ∧ q = py!"/" ++ Py.join py!"/" pos ∨ ¬ Absolute t ∧ q = Py.join py!"/" pos))

/-- a proper name of a file or folder -/
def ProperName (s : Str) : Prop := ¬ Blank s ∧ s ≠ py!"." ∧ s ≠ py!".." ∧ pc! '/' ∉ s

/-! ## packages -/

/-- the archive has a member of this name with this content (the last one of this name counts) -/
def Member (z : Zip) (name : Str) (p : Part) : Prop :=
  ∃ pre post, z = pre ++ (name, p) :: post ∧ ∀ m ∈ post, m.1 ≠ name

/-- a member of this name exists -/
def HasPart (z : Zip) (name : Str) : Prop := ∃ p, (name, p) ∈ z

/-- attribute of an element -/
def Attr (e : Elem) (k v : Str) : Prop := ∃ pre post, e.attrib = pre ++ (k, v) :: post ∧ ∀ m ∈ pre, m.1 ≠ k

/-- name of the part with the relationships of the file `file` in the folder `dir` -/
def relsPart (dir file : Str) : Str := dir ++ py!"_rels/" ++ file ++ py!".rels"

def relationshipsTag : Str := py!"{http://schemas.openxmlformats.org/package/2006/relationships}Relationships"
def relationshipTag : Str := py!"{http://schemas.openxmlformats.org/package/2006/relationships}Relationship"
def typesTag : Str := py!"{http://schemas.openxmlformats.org/package/2006/content-types}Types"

/-- an element that states a relationship -/
def States (e : Elem) (type target : Str) : Prop :=
  e.tag = relationshipTag ∧ Attr e py!"Type" type ∧ Attr e py!"Target" target

/-- the target named in folder `dir` is the part `q` -/
def Resolved (dir target q : Str) : Prop :=
  (∃ t, target = pc! '/' :: t ∧ Normal t q) ∨ (¬ Absolute target ∧ Normal (dir ++ target) q)

/-- the file `file` in the folder `dir` has a relationship of this type to the part `q` -/
def Declares (z : Zip) (dir file type q : Str) : Prop :=
  ∃ els e target, Member z (relsPart dir file) (.xml relationshipsTag els) ∧ e ∈ els ∧ States e type target ∧ Resolved dir target q

/-- Folder and name of a part. `top` is the folder of parts at the top level: the standard has the empty text, the code
`/`. -/
def Located (top q dir file : Str) : Prop :=
  (∃ d, q = d ++ py!"/" ++ file ∧ pc! '/' ∉ file ∧ dir = d ++ py!"/") ∨ (pc! '/' ∉ q ∧ file = q ∧ dir = top)

/-- the package itself (folder and name are empty) and the parts that can be reached from it through relationships -/
inductive Reach (top : Str) (z : Zip) : Str → Str → Prop
  | root : Reach top z [] []
  | step {dir file type q d f} : Reach top z dir file → Declares z dir file type q → HasPart z q → Located top q d f → Reach top z d f

/-- the same, but only through parts in folders (not at the top level) -/
inductive FolderReach (z : Zip) : Str → Str → Prop
  | root : FolderReach z [] []
  | step {dir file type q d f} : FolderReach z dir file → Declares z dir file type q → HasPart z q → pc! '/' ∈ q → Located [] q d f →
      FolderReach z d f

/-- no part at the top level has relationships, and no member has a name that begins with a slash -/
def FlatTop (z : Zip) : Prop :=
  (∀ x, x ≠ [] → ¬ HasPart z (relsPart [] x)) ∧ ∀ n, Absolute n → ¬ HasPart z n

/-- a relationship that can be found from the root -/
def Found (top : Str) (z : Zip) (type q : Str) : Prop := ∃ dir file, Reach top z dir file ∧ Declares z dir file type q

/-- all relationship parts that matter are XML -/
def Readable (top : Str) (z : Zip) : Prop := ∀ dir file, Reach top z dir file → ¬ Member z (relsPart dir file) .broken

/-- a relationships part without mistakes: right tags, all attributes, existing targets -/
def ProperRels (z : Zip) (dir tag : Str) (els : List Elem) : Prop :=
  tag = relationshipsTag ∧ ∀ e ∈ els, ∃ type target q, States e type target ∧ Resolved dir target q ∧ HasPart z q

/-- a package without mistakes -/
def ProperPackage (top : Str) (z : Zip) : Prop :=
  (∃ els, Member z py!"[Content_Types].xml" (.xml typesTag els)) ∧ HasPart z py!"_rels/.rels" ∧
  ∀ dir file, Reach top z dir file → ∀ tag els, Member z (relsPart dir file) (.xml tag els) → ProperRels z dir tag els

/-- the type a relationship type stands for: itself, or its replacement if it is deprecated -/
def StandsFor (deprecated : List (Str × Str)) (type t : Str) : Prop :=
  (∃ pre post, deprecated = pre ++ (type, t) :: post ∧ ∀ m ∈ pre, m.1 ≠ type) ∨ ((∀ m ∈ deprecated, m.1 ≠ type) ∧ t = type)

mutual
/-- all relationships of a tree of relationships -/
def allRels : List Relationship → List Relationship
  | [] => []
  | r :: rs => relsIn r ++ allRels rs
def relsIn : Relationship → List Relationship
  | .mk t q subs => .mk t q subs :: allRels subs
end

/-! ## deprecated spelling -/

/-- two lists of the same length with related elements -/
def All2 {α β : Type} (R : α → β → Prop) : List α → List β → Prop
  | [], [] => True
  | a :: as, b :: bs => R a b ∧ All2 R as bs
  | _, _ => False

/-- elements that differ in the spelling of the type only -/
def Respelled (deprecated : List (Str × Str)) (e e' : Elem) : Prop :=
  e = e' ∨ (e.tag = e'.tag ∧ (∃ t t' c, Attr e py!"Type" t ∧ Attr e' py!"Type" t' ∧ StandsFor deprecated t c ∧ StandsFor deprecated t' c) ∧
    ∀ k v, k ≠ py!"Type" → (Attr e k v ↔ Attr e' k v))

/-- the same for whole parts -/
def RespelledPart (deprecated : List (Str × Str)) : Part → Part → Prop
  | .broken, .broken => True
  | .xml tag els, .xml tag' els' => tag = tag' ∧ All2 (Respelled deprecated) els els'
  | _, _ => False

/-- the same for archives -/
def RespelledZip (deprecated : List (Str × Str)) (z z' : Zip) : Prop :=
  All2 (fun m m' => m.1 = m'.1 ∧ RespelledPart deprecated m.2 m'.2) z z'

mutual
/-- the failed entries below a result that have no entries themselves, in order -/
def failures : Res Str → List Str
  | .mk _ _ ss => failuresL ss
def failuresL : List (Res Str) → List Str
  | [] => []
  | .mk m l ss :: rest => (if ss.isEmpty then (if l = .error ∨ l = .critical then [m] else []) else failuresL ss) ++ failuresL rest
end

end Verif.Spec
