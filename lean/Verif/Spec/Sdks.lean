import Verif.Sdks

/-!
# Samples and results of libraries
-/

namespace Verif.Spec.Sdks
open Verif Verif.Sdks

/-- names of invalid samples begin with "i" -/
def invalid (name : Str) : Bool := name.head? == some (pc! 'i')

/-- the results of a library: those that are there already, otherwise those of its container -/
def HasResults (docker : Str → Option Dir) (out : Str → Dir) (sdk : Str) (files : List Str) : Prop :=
  if out sdk = none ∨ out sdk = some [] then docker sdk = some (some files) else out sdk = some files

/-- the number of samples with a property -/
def number (l : List Str) (p : Str → Bool) : Int := (l.filter p).length

end Verif.Spec.Sdks
