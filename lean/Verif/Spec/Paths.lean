import Verif.Spec.Model

/-!
# Elements below a submodel, their positions and idShort paths

Part 1 of the AAS specification: an element is addressed in its submodel by the idShorts of the collections around it and, within lists,
by its index.
-/

namespace Verif.Spec.Paths
open Verif Verif.Parse Verif.Aas Verif.Spec.Model

/-- how an element is called in a submodel or a collection: by its idShort -/
def called (x : AVal) : Tok :=
  match idShort? x with
  | some s => .name s
  | none => .unnamed

/-- `Child v i t x`: the element `x` is the `i`-th one (from 0) in `v` and is called `t` there -/
inductive Child : AVal → Nat → Tok → AVal → Prop
  | submodel {attrs i x} : (elems (.obj .submodel attrs) .submodelElements)[i]? = some x → Child (.obj .submodel attrs) i (called x) x
  | collection {attrs i x} : (elems (.obj .submodelElementCollection attrs) .value)[i]? = some x →
      Child (.obj .submodelElementCollection attrs) i (called x) x
  | list {attrs i x} : (elems (.obj .submodelElementList attrs) .value)[i]? = some x →
      Child (.obj .submodelElementList attrs) i (.idx i) x

/-- `Under v is ts x`: `x` is reached from `v` going down through the children at the positions `is`, called `ts` -/
inductive Under : AVal → List Nat → List Tok → AVal → Prop
  | here {x} : Under x [] [] x
  | step {x y z i t is ts} : Child x i t y → Under y is ts z → Under x (i :: is) (t :: ts) z

/-- the idShort path of `x` is `ts` in the submodel `root` -/
def HasPath (root : AVal) (ts : List Tok) (x : AVal) : Prop := get x .idShortPath = .path (idShort? root) (txt root .id) ts

/-- The list enumerates the elements below `root`, each once, in document order: parents before their children, siblings in their order -/
def Enumerates (root : AVal) (l : List AVal) : Prop :=
  ∃ poss : List (List Nat), poss.length = l.length ∧ poss.Pairwise (· < ·) ∧
    ∀ is x, (is, x) ∈ poss.zip l ↔ is ≠ [] ∧ ∃ ts, Under root is ts x

/-- how an element is written in the text of a path: by its idShort, by its index, or as `?` -/
inductive TokText : Tok → Str → Prop
  | name {s} : TokText (.name s) s
  | idx {n} : TokText (.idx n) (Py.natStr n)
  | unnamed : TokText .unnamed py!"?"

/-- the text of a path, with dots between the names -/
inductive Written : List Tok → Str → Prop
  | one {t s} : TokText t s → Written [t] s
  | more {t s ts r} : TokText t s → Written ts r → Written (t :: ts) (s ++ py!"." ++ r)

end Verif.Spec.Paths
