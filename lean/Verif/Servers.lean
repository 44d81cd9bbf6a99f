import Verif.Suites

/-!
# The check of the servers (`bin/check_servers.py`)

The script starts each server (with docker), checks it against each service specification, writes a report for each pair, and prints a table.
Here are the table of services and servers, the client and the configuration for each pair, and the two loops of `main`. The containers, the
loop that waits for a server, and the lines on standard output other than the table are left out.
-/

namespace Verif.Servers
open Verif Verif.Http Verif.Api

/-- `base64.b64encode(bs).decode()`: the standard alphabet, with padding -/
def b64encode (bs : List Nat) : Str :=
  (b64 bs).map fun c => if c = pc! '-' then pc! '+' else if c = pc! '_' then pc! '/' else c

/-- bin/check_servers.py 19 -/
def sspPrefix : Str := py!"https://admin-shell.io/aas/API/3/0/"
/-- bin/check_servers.py 20 -/
def aasId : Str := b64encode py!"www.example.com/ids/aas/8132_4102_8042_7561"
/-- bin/check_servers.py 21 -/
def submodelId : Str := b64encode py!"www.example.com/ids/sm/8132_4102_8042_1861"

/-- bin/check_servers.py 24-30, without the field `mats` -/
structure Profile where
  shortName : Str
  specName : Str
  urlSuffix : Str
  discardPrefix : Str

/-- bin/check_servers.py 32-57 -/
def profiles : List Profile :=
  [⟨py!"aas-repo", sspPrefix ++ py!"AssetAdministrationShellRepositoryServiceSpecification/SSP-002", [], []⟩,
   ⟨py!"submodel-repo", sspPrefix ++ py!"SubmodelRepositoryServiceSpecification/SSP-002", [], []⟩,
   ⟨py!"aas", sspPrefix ++ py!"AssetAdministrationShellServiceSpecification/SSP-002", py!"/shells/" ++ aasId, py!"/aas"⟩,
   ⟨py!"submodel", sspPrefix ++ py!"SubmodelServiceSpecification/SSP-002", py!"/shells/" ++ (aasId ++ (py!"/submodels/" ++ submodelId)), py!"/submodel"⟩]

/-- bin/check_servers.py 63-66 -/
structure Server where
  name : Str
  url : Str

/-- bin/check_servers.py 72-77 -/
def servers : List Server :=
  [⟨py!"basyx_python", py!"http://localhost:8000/api/v3.0"⟩,
   ⟨py!"basyx_java", py!"http://localhost:8000"⟩,
   ⟨py!"faaast", py!"https://localhost:8000/api/v3.0"⟩,
   ⟨py!"aasx_server", py!"http://localhost:8000/api/v3.0"⟩]

/-- bin/check_servers.py 131-135 -/
def client (p : Profile) (s : Server) : Client := Client.init (s.url ++ p.urlSuffix) false p.discardPrefix []

/-- bin/check_servers.py 136-138 -/
def conf (p : Profile) : Conf := { suite := p.specName }

/-- bin/check_servers.py 125, the name in the directory `results` -/
def resultFile (p : Profile) (s : Server) : Str := p.shortName ++ (py!"_" ++ (s.name ++ py!".html"))

/-- What `main` uses: a run of the tests (with a container of its own), the page of a result, the write of a file, and the cell for a
matrix (`f"{round(mat.accuracy()*100)}%"`, which raises for a matrix without tests). -/
structure World where
  run : Profile → Server → Except Exc (Res Str × Mat)
  html : Res Str → Str
  write : Str → Str → Except Exc Unit
  cell : Mat → Except Exc Str

/-- a row of the table; `none` is a line -/
abbrev Row := Option (List Str)

/-- bin/check_servers.py 120-146: the loop over the servers. Returns the files written and the matrices appended to `profile.mats`. -/
def checkProfile (w : World) (p : Profile) : List Server → List (Str × Str) → List Mat → Except Exc (List (Str × Str) × List Mat)
  | [], files, mats => .ok (files, mats)
  | s :: rest, files, mats => do
    let (result, mat) ← w.run p s
    let page := w.html result
    w.write (resultFile p s) page
    checkProfile w p rest (files ++ [(resultFile p s, page)]) (mats ++ [mat])

/-- bin/check_servers.py 118-146: the loop over the profiles -/
def checkProfiles (w : World) (ss : List Server) : List Profile → List (Str × Str) → Except Exc (List (Str × Str) × List (Profile × List Mat))
  | [], files => .ok (files, [])
  | p :: rest, files => do
    let (files, mats) ← checkProfile w p ss files []
    let (files, all) ← checkProfiles w ss rest files
    return (files, (p, mats) :: all)

/-- bin/check_servers.py 154-159: the cells of a row -/
def cells (w : World) : List (Mat × Server) → Except Exc (List Str)
  | [] => .ok []
  | (mat, _) :: rest => do
    let c ← w.cell mat
    let cs ← cells w rest
    return c :: cs

/-- bin/check_servers.py 152-160: the rows -/
def rows (w : World) (ss : List Server) : List (Profile × List Mat) → Except Exc (List Row)
  | [] => .ok []
  | (p, mats) :: rest => do
    let cs ← cells w (mats.zip ss)
    let more ← rows w ss rest
    return some (p.shortName :: cs) :: more

/-- bin/check_servers.py 110-161 `main`: the files written and the table -/
def main (w : World) : Except Exc (List (Str × Str) × List Row) := do
  let (files, all) ← checkProfiles w servers profiles []
  let table ← rows w servers all
  return (files, some (py!"Profile" :: servers.map (·.name)) :: none :: table)

end Verif.Servers
