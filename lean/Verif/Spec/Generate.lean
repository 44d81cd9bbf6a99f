import Verif.Generate
import Verif.Spec.Http
import Verif.Spec.Context

/-!
# Which values are valid for an argument of an API operation (C53)

The specification talks about the text that a server gets to see.
-/

namespace Verif.Spec.Generate
open Verif Verif.Parse Verif.Generate Verif.Spec

/-- what is sent to the server for a value: the value of enumerations, the text of other values -/
def wire : ArgVal → Except PyExc Str
  | .member _ value => .ok value
  | .dummy value => .ok value
  | v => v.pyStr

/-- decodable as base64url, with any number of padding characters -/
def Decodable (text : Str) : Prop :=
  ∃ digits k bytes, text = digits ++ List.replicate k (pc! '=') ∧ (∀ b ∈ bytes, b < 256) ∧ Base64Of digits bytes

/-- a truth value in any spelling -/
def Truth (text : Str) : Prop := text.map lowerChar = py!"true" ∨ text.map lowerChar = py!"false"

/-- the text is in the domain of an argument of the type. There is no invalid text for strings. -/
def Valid {C E S : Type} (k : Classes C E S) : Ty C E S → Str → Prop
  | .number, text => ∃ n, text = Py.natStr n
  | .str, _ => True
  | .sfv s, text => k.base64 s = true → Decodable text
  | .enum e, text => text ∈ k.enumValues e
  | .bool, text => Truth text
  | .cls c, text => k.isAssetId c = true → Decodable text
  | _, _ => True

/-- the value of a keyword argument -/
def Value (kw : Kwargs) (name : Str) (v : ArgVal) : Prop := (name, v) ∈ kw

/-- the call `kw'` is the call `kw` with another value for exactly one argument -/
structure OnlyChanged (kw kw' : Kwargs) (name : Str) (v : ArgVal) : Prop where
  changed : ∀ w, Value kw' name w ↔ w = v
  others : ∀ n, n ≠ name → ∀ w, Value kw' n w ↔ Value kw n w
  distinct : (kw'.map (·.1)).Nodup

/-- the calls of all invalid values of all arguments, in order -/
def expectedCalls (valid : Kwargs) : List (Str × List ArgVal) → List (Str × ArgVal × Kwargs)
  | [] => []
  | (name, vs) :: rest => vs.map (fun v => (name, v, Kwargs.set name v valid)) ++ expectedCalls valid rest

/-- `invalid` are the invalid values of the arguments, one list for each argument -/
inductive Generated {C E S : Type} (k : Classes C E S) : List (Argument C E S) → List (List ArgVal) → Prop
  | nil : Generated k [] []
  | cons {a as vs rest} : generateInvalidValues k a = .ok vs → Generated k as rest → Generated k (a :: as) (vs :: rest)

end Verif.Spec.Generate
