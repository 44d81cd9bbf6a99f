import Verif.Py

/-!
# The check of the libraries (`bin/check_sdks.py`)

The script takes valid and invalid samples from a directory, has each library (in a container) read them, and compares. A library accepts a
sample by writing a file with the name of the sample. Directories are lists of names; lines on standard output are left out.
-/

namespace Verif.Sdks
open Verif

/-- the content of a directory; `none`: it does not exist -/
abbrev Dir := Option (List Str)

/-- Exceptions of the script. -/
inductive Err
  /-- `file.generate` does not exist -/
  | attributeError
  /-- `os.mkdir` of an existing directory -/
  | fileExists
  /-- `os.listdir` of a missing directory -/
  | fileNotFound
  /-- `subprocess.check_call` of a command that fails -/
  | calledProcess
  deriving DecidableEq, Repr

/-- `fences.core.util.ConfusionMatrix`; the counters are set by subtraction here and may be negative -/
structure Mat where
  validAccepted : Int := 0
  validRejected : Int := 0
  invalidAccepted : Int := 0
  invalidRejected : Int := 0
  deriving DecidableEq, Repr

/-- bin/check_sdks.py 17-18 `is_non_empty` -/
def isNonEmpty : Dir → Bool
  | some (_ :: _) => true
  | _ => false

/-- bin/check_sdks.py 27-31: the samples that are there already; numbers of valid and invalid ones -/
def countSamples : List Str → Int → Int → Int × Int
  | [], valid, invalid => (valid, invalid)
  | f :: fs, valid, invalid =>
    if Py.startsWith f py!"i" then countSamples fs valid (invalid + 1) else countSamples fs (valid + 1) invalid

/-- bin/check_sdks.py 36-44: the samples written for what the generator yields (valid or not); numbers of valid and invalid ones, and the
names of the files. The lines about the progress are left out. -/
def writeSamples : List Bool → Nat → Nat → List Str → Nat × Nat × List Str
  | [], valid, invalid, names => (valid, invalid, names)
  | true :: rest, valid, invalid, names => writeSamples rest (valid + 1) invalid (names ++ [py!"v" ++ (Py.natStr valid ++ py!".json")])
  | false :: rest, valid, invalid, names => writeSamples rest valid (invalid + 1) (names ++ [py!"i" ++ (Py.natStr invalid ++ py!".json")])

/-- bin/check_sdks.py 25-50. The generator is a parameter; in the present code it is `.error .attributeError`, as `file.generate` does not
exist. -/
def samples (generate : Except Err (List Bool)) (testData : Dir) : Except Err (Int × Int) :=
  if isNonEmpty testData then .ok (countSamples (testData.getD []) 0 0)
  else if testData.isSome then .error .fileExists
  else do
    let l ← generate
    let (valid, invalid, _) := writeSamples l 0 0 []
    return (valid, invalid)

/-- bin/check_sdks.py 56-60 -/
def sdks : List Str := [py!"aas_core_csharp", py!"basyx_python", py!"aas4j"]

/-- bin/check_sdks.py 63-79: the loop over the libraries. `docker` is what a container leaves in the directory of the library, `none` if the
command fails. -/
def execute (docker : Str → Option Dir) : List Str → (Str → Dir) → Except Err (Str → Dir)
  | [], out => .ok out
  | sdk :: rest, out =>
    if isNonEmpty (out sdk) then execute docker rest out
    else
      match docker sdk with
      | none => .error .calledProcess
      | some d => execute docker rest fun s => if s = sdk then d else out s

/-- bin/check_sdks.py 86-90: the accepted samples -/
def accepted : List Str → Mat → Mat
  | [], m => m
  | f :: fs, m =>
    if Py.startsWith f py!"i" then accepted fs { m with invalidAccepted := m.invalidAccepted + 1 }
    else accepted fs { m with validAccepted := m.validAccepted + 1 }

/-- bin/check_sdks.py 83-95: the matrix of each library; the accuracy, computed from it by the library, is left out -/
def analyse (numValid numInvalid : Int) (out : Str → Dir) : List Str → Except Err (List (Str × Mat))
  | [] => .ok []
  | sdk :: rest =>
    match out sdk with
    | none => .error .fileNotFound
    | some files => do
      let m := accepted files {}
      let m := { m with validRejected := numValid - m.validAccepted }
      let m := { m with invalidRejected := numInvalid - m.invalidAccepted }
      let more ← analyse numValid numInvalid out rest
      return (sdk, m) :: more

/-- bin/check_sdks.py, the whole script: the matrices printed -/
def main (generate : Except Err (List Bool)) (docker : Str → Option Dir) (testData : Dir) (out : Str → Dir) : Except Err (List (Str × Mat)) := do
  let (numValid, numInvalid) ← samples generate testData
  let out ← execute docker sdks out
  analyse numValid numInvalid out sdks

/-- bin/check_sdks.py 36 with the present `file.py` -/
def noGenerator : Except Err (List Bool) := .error .attributeError

end Verif.Sdks
