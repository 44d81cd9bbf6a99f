import Verif.ContextLemmas

/-! # Sequencing of programs -/

namespace Verif
open Spec

instance {Q A : Type} : Monad (Prog Q A) where
  pure := Prog.pure
  bind := Prog.bind

variable {Q A : Type} (env : List Q → Q → A)

theorem Meaning.after_after {α : Type} (es es' : List Ent) (l l' : List Ev) (m : Meaning Q α) :
    (m.after es' l').after es l = m.after (es ++ es') (l ++ l') := by
  simp [Meaning.after]

theorem Meaning.after_nil {α : Type} (m : Meaning Q α) : m.after [] [] = m := by
  simp [Meaning.after]

/-- the rest of a program after its first part -/
def Spec.Meaning.andThen {α β : Type} (m : Meaning Q α) (k : α → List Q → Meaning Q β) : Meaning Q β :=
  match m.out with
  | .val a => (k a m.hist).after m.ents m.log
  | .aborted r => ⟨m.ents, .aborted r, m.hist, m.log⟩
  | .raised e => ⟨m.ents, .raised e, m.hist, m.log⟩

theorem Spec.Meaning.after_andThen {α β : Type} (es : List Ent) (l : List Ev) (m : Meaning Q α) (k : α → List Q → Meaning Q β) :
    (m.after es l).andThen k = (m.andThen k).after es l := by
  unfold Meaning.andThen
  cases h : m.out <;> simp [Meaning.after, h]

theorem meaning_bind {α β : Type} (p : Prog Q A α) (f : α → Prog Q A β) : ∀ (o : Bool) (h : List Q),
    meaning env (p.bind f) o h = (meaning env p o h).andThen fun a h => meaning env (f a) o h := by
  induction p with
  | pure a => intro o h; simp [Prog.bind, meaning, Meaning.andThen, Meaning.after]
  | abort r => intro o h; simp [Prog.bind, meaning, Meaning.andThen]
  | raise e => intro o h; simp [Prog.bind, meaning, Meaning.andThen]
  | write r k ih =>
    intro o h
    cases o with
    | true => simp only [Prog.bind, meaning, ih, Meaning.after_andThen]
    | false => simp [Prog.bind, meaning, Meaning.andThen]
  | query q k ih => intro o h; simp only [Prog.bind, meaning, ih]
  | block r c body k ihb ihk =>
    intro o h
    simp only [Prog.bind, meaning]
    cases ho : (meaning env body true h).out with
    | val v => simp only [ihk, Meaning.after_andThen]
    | aborted x => simp only [ihk, Meaning.after_andThen]
    | raised x =>
      cases c with
      | true => simp only [if_true, ihk, Meaning.after_andThen]
      | false => simp [Meaning.andThen]

theorem prog_bind {α β : Type} (p : Prog Q A α) (f : α → Prog Q A β) : (p >>= f) = p.bind f := rfl
theorem prog_pure {α : Type} (a : α) : (Pure.pure a : Prog Q A α) = Prog.pure a := rfl

end Verif
