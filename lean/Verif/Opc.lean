import Verif.Result

/-!
# Model of `aas_test_engines/opc.py`

A zip archive is the list of its members with their content; the content of a member is what
`ElementTree.parse` makes of it. As in `zipfile.ZipFile`, the last of several members with the same name is opened.
Only the tag and the attributes of the elements directly below the root are used by the code, so only these are kept.
Python's recursion limit and errors of the zip layer (wrong checksums, encryption) are not modelled.
-/

namespace Verif.Opc
open Verif

/-- opc.py 10-32 `normpath`, the loop: `result` is the stack of names -/
def normLoop : List Str → List Str → List Str
  | result, [] => result
  | result, token :: rest =>
    if (Py.strip token).isEmpty || token == py!"." then normLoop result rest
    else if token == py!".." then
      normLoop (if result.isEmpty then result else result.dropLast) rest
    else normLoop (result ++ [token]) rest

/-- opc.py 10-32 `normpath` -/
def normpath (path : Str) : Str :=
  let path := Py.strip path
  if path.length = 0 then []
  else
    let result := normLoop [] (Py.splitOn (pc! '/') path)
    if Py.startsWith path py!"/" then py!"/" ++ Py.join py!"/" result else Py.join py!"/" result

/-- opc.py 35-42 `splitpath` -/
def splitpath (path : Str) : Str × Str := Py.rpartition (pc! '/') path

/-- opc.py 45-50 `Relationship` -/
inductive Relationship
  | mk (type target : Str) (subRels : List Relationship)

namespace Relationship
def type : Relationship → Str | mk t _ _ => t
def target : Relationship → Str | mk _ t _ => t
def subRels : Relationship → List Relationship | mk _ _ s => s

/-- opc.py 52-53 `sub_rels_by_type` -/
def subRelsByType (r : Relationship) (t : Str) : List Relationship := r.subRels.filter fun i => i.type == t

mutual
/-- opc.py 55-59 `dump`: the lines printed -/
def dump (indent : Nat) : Relationship → List Str
  | mk type target subRels =>
    ((List.replicate indent py!"  ").flatten ++ (target ++ (py!" [" ++ (((Py.splitOn (pc! '/') type).getLast?.getD []) ++ py!"]")))) ::
      dumpL (indent + 1) subRels
def dumpL (indent : Nat) : List Relationship → List Str
  | [] => []
  | r :: rs => dump indent r ++ dumpL indent rs
end
end Relationship

/-- an XML element: tag and attributes -/
structure Elem where
  tag : Str
  attrib : List (Str × Str)
  deriving DecidableEq

/-- content of a member of the archive -/
inductive Part
  /-- a well-formed XML document: tag of the root, elements below the root -/
  | xml (tag : Str) (children : List Elem)
  /-- anything else: `ElementTree.parse` raises `ParseError` -/
  | broken
  deriving DecidableEq

/-- a zip archive -/
abbrev Zip := List (Str × Part)

/-- `zipfile.namelist()` -/
def Zip.namelist (z : Zip) : List Str := z.map (·.1)

/-- `zipfile.open(name)`; `none` is `KeyError` -/
def Zip.find (z : Zip) (name : Str) : Option Part := dictGet name z.reverse

/-- opc.py 6-7 -/
def nsContentTypes : Str := py!"{http://schemas.openxmlformats.org/package/2006/content-types}"
def nsRelationships : Str := py!"{http://schemas.openxmlformats.org/package/2006/relationships}"

def contentTypesXml : Str := py!"[Content_Types].xml"

/-- opc.py 62-79 `_check_content_type` -/
def checkContentType (z : Zip) : Except PyExc (Res Str) :=
  let result := Res.new (py!"Checking " ++ contentTypesXml)
  match z.find contentTypesXml with
  | none => .ok (result.append (Res.new (contentTypesXml ++ py!" not found") .error))
  | some .broken => .error .parseError
  | some (.xml tag _) =>
    let expected := nsContentTypes ++ py!"Types"
    if tag ≠ expected then
      .ok (result.append (Res.new (py!"root must have tag " ++ expected ++ py!", got " ++ tag) .error))
    else .ok result

/-- opc.py 89 the name of the relationships part -/
def relsName (dir file : Str) : Str := dir ++ py!"_rels/" ++ file ++ py!".rels"

/-- opc.py 127-131: resolves a target against the directory of its source -/
def resolve (dir target : Str) : Str :=
  normpath (if Py.startsWith target py!"/" then target.drop 1 else dir ++ target)

/-- local variables of the loop 104-146, and the targets with which `_scan_relationships` was called so far (only for
stating properties) -/
structure Scan where
  result : Res Str
  rels : List Relationship
  visited : List Str
  followed : List Str

/-- what a call of `_scan_relationships` gives back: its result, the relationships appended to `parent_rel`, the set of
visited targets after the call, the targets with which the function was called so far -/
structure Scanned where
  result : Option (Res Str)
  rels : List Relationship
  visited : List Str
  followed : List Str

/-- opc.py 104-146: one round of the loop; `call` is the recursive call with the directory and the name of the target -/
def scanRel (z : Zip) (deprecated : List (Str × Str)) (call : Str → Str → List Str → List Str → Except PyExc Scanned)
    (dir : Str) (st : Scan) (rel : Elem) : Except PyExc Scan :=
  if rel.tag ≠ nsRelationships ++ py!"Relationship" then
    .ok { st with result := st.result.append (Res.new (py!"Invalid tag " ++ rel.tag) .error) }
  else
    match dictGet py!"Type" rel.attrib with
    | none => .ok { st with result := st.result.append (Res.new py!"Attribute 'Type' is missing" .error) }
    | some type =>
      match dictGet py!"Target" rel.attrib with
      | none => .ok { st with result := st.result.append (Res.new py!"Attribute 'Target' is missing" .error) }
      | some target =>
        let (result, type) := match dictGet type deprecated with
          | some newType =>
            (st.result.append (Res.new (py!"Deprecated type " ++ type ++ py!", considering as " ++ newType) .warning), newType)
          | none => (st.result, type)
        let target := resolve dir target
        let result := result.append (Res.new (py!"Relationship " ++ target ++ py!" is of type " ++ type) .info)
        if st.visited.contains target then
          .ok { st with
            result := result.append (Res.new (py!"Already checked " ++ target) .info)
            rels := st.rels ++ [.mk type target []] }
        else
          let visited := st.visited ++ [target]
          if !z.namelist.contains target then
            .ok { st with
              result := result.append (Res.new (py!"Relationship has non-existing target " ++ target) .error)
              rels := st.rels ++ [.mk type target []]
              visited := visited }
          else
            match call ((splitpath target).1 ++ py!"/") (splitpath target).2 visited (st.followed ++ [target]) with
            | .error e => .error e
            | .ok r => .ok {
                result := match r.result with
                  | some x => result.append x
                  | none => result
                rels := st.rels ++ [.mk type target r.rels]
                visited := r.visited
                followed := r.followed }

/-- `for rel in relationships` -/
def scanRels (z : Zip) (deprecated : List (Str × Str)) (call : Str → Str → List Str → List Str → Except PyExc Scanned)
    (dir : Str) : Scan → List Elem → Except PyExc Scan
  | st, [] => .ok st
  | st, rel :: rels =>
    match scanRel z deprecated call dir st rel with
    | .error e => .error e
    | .ok st => scanRels z deprecated call dir st rels

/-- opc.py 82-149 `_scan_relationships`. The fuel bounds the depth of the recursion; `scan_fuel` in `OpcLemmas.lean` shows
that it is never used up by `checkRelationships`. -/
def scanF (z : Zip) (deprecated : List (Str × Str)) : Nat → Str → Str → List Str → List Str → Except PyExc Scanned
  | 0, _, _, _, _ => .error .runtimeError
  | fuel + 1, dir, file, visited, followed =>
    match z.find (relsName dir file) with
    | none => .ok ⟨none, [], visited, followed⟩
    | some .broken => .error .parseError
    | some (.xml tag rels) =>
      let expected := nsRelationships ++ py!"Relationships"
      if tag ≠ expected then
        .ok ⟨some (Res.new (py!"Invalid root tag " ++ tag ++ py!", expected " ++ expected) .error), [], visited, followed⟩
      else
        let result := if dir.isEmpty then Res.new py!"Checking root relationship"
          else Res.new (py!"Checking relationships of " ++ dir ++ file)
        match scanRels z deprecated (scanF z deprecated fuel) dir ⟨result, [], visited, followed⟩ rels with
        | .error e => .error e
        | .ok st => .ok ⟨some st.result, st.rels, st.visited, st.followed⟩

/-- opc.py 158: the call for the package root -/
def scanRoot (z : Zip) (deprecated : List (Str × Str)) : Except PyExc Scanned :=
  scanF z deprecated (z.length + 1) [] [] [] []

/-- opc.py 152-162 `_check_relationships`; second component: `root_rel.sub_rels` afterwards -/
def checkRelationships (z : Zip) (deprecated : List (Str × Str)) : Except PyExc (Res Str × List Relationship) := do
  let result := Res.new py!"Checking relationships"
  let r ← scanRoot z deprecated
  match r.result with
  | some x => return (result.append x, r.rels)
  | none => return (result.append (Res.new py!"Root relationship does not exist" .error), r.rels)

/-- opc.py 165-176 `read_opc`: `root_result` and `root_rel.sub_rels` afterwards -/
def readOpc (z : Zip) (rootResult : Res Str) (deprecated : List (Str × Str)) : Except PyExc (Res Str × List Relationship) := do
  let c ← checkContentType z
  let rootResult := rootResult.append c
  if !rootResult.ok then return (rootResult, [])
  let (r, rels) ← checkRelationships z deprecated
  return (rootResult.append r, rels)

end Verif.Opc
