import Verif.Cli
import Verif.Spec.Api
import Verif.Spec.Routes

/-!
# What the command line promises
-/

namespace Verif.Spec.Cli
open Verif Verif.Cli Verif.Http Verif.Api Verif.Spec.Api

/-- the exit code of the process -/
def code (x : Out Outcome × List Sent) : Nat :=
  match x.1 with
  | .val o => o.ended.code
  | _ => 1

/-- the text occurs in the other one -/
def Contains (s t : Str) : Prop := ∃ a b, s = a ++ t ++ b

/-- exactly one of the names contains the text -/
def Only (names : List Str) (t s : Str) : Prop := s ∈ names ∧ Contains s t ∧ ∀ s' ∈ names, Contains s' t → s' = s

/-- the result can be printed in this format -/
def Printable (c : Console) (output : Output) (r : Res Str) : Prop := ∀ l ∈ linesOf c output r, c.encodes l = true

/-- the format that the text stands for; no text stands for `text` -/
inductive ReadsOutput : Option Str → Output → Prop
  | default : ReadsOutput none .text
  | text : ReadsOutput (some py!"text") .text
  | json : ReadsOutput (some py!"json") .json
  | html : ReadsOutput (some py!"html") .html

inductive ReadsFormat : Option Str → Format → Prop
  | default : ReadsFormat none .aasx
  | xml : ReadsFormat (some py!"xml") .xml
  | json : ReadsFormat (some py!"json") .json
  | aasx : ReadsFormat (some py!"aasx") .aasx

/-- a header in the format `name:value`: spaces around both are dropped, the name has no colon -/
def ReadsHeader (s : Str) (h : Str × Str) : Prop :=
  ∃ a b, s = a ++ pc! ':' :: b ∧ pc! ':' ∉ a ∧ h = (Py.strip a, Py.strip b)

/-- the headers of a list, in order -/
inductive ReadsHeaders : List Str → List (Str × Str) → Prop
  | nil : ReadsHeaders [] []
  | cons {s h l hs} : ReadsHeader s h → ReadsHeaders l hs → ReadsHeaders (s :: l) (h :: hs)

/-- the filter of the option -/
inductive ReadsFilter : Option Str → Option Config.Filter → Prop
  | default : ReadsFilter none none
  | given {s f} : Config.mkFilter s = some f → ReadsFilter (some s) (some f)

/-- the value is the last one that is given for the name -/
def LastValue (l : List (Str × Str)) (k v : Str) : Prop := ∃ a b, l = a ++ (k, v) :: b ∧ ∀ e ∈ b, e.1 ≠ k

end Verif.Spec.Cli
