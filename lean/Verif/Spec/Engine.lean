import Verif.Spec.Templates
import Verif.AasWorld

/-!
# What is checked when a model type is given, and when the code raises
-/

namespace Verif.Spec.Engine
open Verif Verif.Parse Verif.Aas Verif.Reflect Verif.Spec.Model Verif.Spec.Templates

/-- the name of a class that can be selected: the classes of the meta-model and the classes of restricted texts -/
def nameOf : AAnn → Option Str
  | .cls c => some c.pyName
  | .sfv s => some s.pyName
  | _ => none

/-- `T` selects a class: it is the name, or the name with a part of the name of the module in front (starting after a dot) -/
def Selects (T : Str) (a : AAnn) : Prop := ∃ n pre, nameOf a = some n ∧ modName n = pre ++ pc! '.' :: T

/-- on these valid documents the check for templates, made for environments, raises -/
def LateRaise (c : Cls) (v : AVal) : Prop :=
  match c with
  | .environment => ∃ p ∈ templated (elems v .submodels), RaisesSubmodel p.2 p.1
  | .assetAdministrationShell => Set v .submodels
  | _ => True

/-- the submodels follow their templates -/
def FollowsAll (c : Cls) (v : AVal) : Prop :=
  c = .environment → ∀ p ∈ templated (elems v .submodels), Follows true p.2 p.1

end Verif.Spec.Engine
