import Verif.Reflect

/-!
# Reachable types, and what a symbol says about a type
-/

namespace Verif.Spec.Reflect
open Verif Verif.Reflect

variable {C E S : Type}

/-- the class hierarchy has no cycles, and its height is bounded by `w.height` -/
def Grounded (w : World C E S) : Prop := ∃ rank : C → Nat, (∀ c, rank c < w.height) ∧ ∀ c, ∀ d ∈ w.direct c, rank d < rank c

/-- what an annotation means: forward references are names of other annotations -/
def Means (w : World C E S) (a b : Ann C E S) : Prop :=
  match a with
  | .forward n => w.names n = some b
  | _ => b = a

/-- the type of a field, without `Optional` -/
def bare : Ann C E S → Ann C E S
  | .optional a => a
  | a => a

/-- proper subclasses, direct and indirect -/
inductive Subclass (w : World C E S) : C → C → Prop
  | direct {c d} : d ∈ w.direct c → Subclass w c d
  | deeper {c d e} : d ∈ w.direct c → Subclass w d e → Subclass w c e

/-- `b` is used by `a`: items of lists; types of attributes and concrete subclasses of classes -/
inductive Uses (w : World C E S) : Ann C E S → Ann C E S → Prop
  | item {i b ae} : Means w i b → Uses w (.list i ae) b
  | attr {c f b} : f ∈ w.fields c → f.exclude = false → Means w (bare f.type) b → Uses w (.cls c) b
  | sub {c d} : Subclass w c d → w.isAbstract d = false → Uses w (.cls c) (.cls d)

inductive Reachable (w : World C E S) : Ann C E S → Ann C E S → Prop
  | refl {a} : Reachable w a a
  | step {a b c} : Uses w a b → Reachable w b c → Reachable w a c

/-- the kinds of annotations that can be reflected: classes must be dataclasses, forward references must have a meaning, `Optional` is for
attributes only -/
def Supported (w : World C E S) : Ann C E S → Prop
  | .list i _ => ∃ b, Means w i b
  | .cls c => w.isDataclass c = true ∧ ∀ f ∈ w.fields c, f.exclude = false → ∃ b, Means w (bare f.type) b
  | .optional _ => False
  | .forward _ => False
  | .other _ => False
  | _ => True

/-- the attribute of a field -/
def IsAttribute (w : World C E S) (f : PField C E S) (a : Attribute Str) : Prop :=
  a.name = f.name ∧ (a.required = true ↔ ∀ x, f.type ≠ .optional x) ∧ a.forceName = f.forceName ∧ ∃ b, Means w (bare f.type) b ∧ a.type = w.key b

/-- the symbol describes the type -/
def Describes (w : World C E S) : Ann C E S → Sym C E S Str → Prop
  | .none, s => s = .none
  | .bool, s => s = .bool
  | .str, s => s = .str
  | .any, s => s = .any
  | .int, s => s = .number
  | .bytes, s => s = .bytes
  | .enum e, s => s = .enum e
  | .sfv x, s => s = .sfv x
  | .list i ae, s => ∃ b, Means w i b ∧ s = .list (w.key b) ae
  | .cls c, s => ∃ attrs subs, s = .cls c attrs ((w.fields c).filterMap fun f => if f.exclude then some f.name else none) subs ∧
      attrs.length = ((w.fields c).filter fun f => !f.exclude).length ∧
      (∀ p ∈ ((w.fields c).filter fun f => !f.exclude).zip attrs, IsAttribute w p.1 p.2) ∧
      (∀ k, k ∈ subs ↔ ∃ d, Subclass w c d ∧ w.isAbstract d = false ∧ k = w.key (.cls d))
  | _, _ => False

/-- the symbol with the texts of the types it refers to -/
def byText (w : World C E S) : Sym C E S (Ann C E S) → Sym C E S Str
  | .none => .none
  | .bool => .bool
  | .str => .str
  | .any => .any
  | .number => .number
  | .bytes => .bytes
  | .enum e => .enum e
  | .sfv s => .sfv s
  | .list i ae => .list (w.key i) ae
  | .cls c attrs static subs => .cls c (attrs.map fun a => ⟨a.name, w.key a.type, a.required, a.forceName⟩) static (subs.map w.key)

/-- the annotated parameters of a function -/
def parameters (annotations : List (Str × Ann C E S)) : List (Str × Ann C E S) := annotations.filter fun p => decide (p.1 ≠ py!"return")

/-- the annotation of the result, `None` without one -/
def IsResult (annotations : List (Str × Ann C E S)) (a : Ann C E S) : Prop :=
  (py!"return", a) ∈ annotations ∨ (a = .none ∧ ∀ x, (py!"return", x) ∉ annotations)

/-- the types occurring in a signature -/
def InSignature (w : World C E S) (annotations : List (Str × Ann C E S)) (b : Ann C E S) : Prop :=
  (∃ a, IsResult annotations a ∧ Reachable w a b) ∨ ∃ p ∈ parameters annotations, Reachable w (bare p.2) b

end Verif.Spec.Reflect
