import Verif.Context

/-!
# Specification of result contexts (C06-C09): a meaning of programs without any stack
-/

namespace Verif.Spec
open Verif

/-- An entry of a block: something written, or a nested block with its entries. -/
inductive Ent where
  | leaf (r : Res Str)
  | blk (r : Res Str) (subs : List Ent)

mutual
/-- the result object an entry becomes -/
def Ent.toRes : Ent → Res Str
  | .leaf r => r
  | .blk r es => r.appendAll (Ent.toResL es)
def Ent.toResL : List Ent → List (Res Str)
  | [] => []
  | e :: es => e.toRes :: Ent.toResL es
end

/-- What happened, in program order: a block was opened, an entry was noted (by `write`, by `abort`
or by a catch-all block), an exception was raised, a block was left by an exception it does not
catch. -/
inductive Ev where
  | opened (r : Res Str)
  | note (r : Res Str)
  | exc (e : Exc)
  | unwound

mutual
/-- the events that an entry stands for -/
def Ent.flat : Ent → List Ev
  | .leaf r => [.note r]
  | .blk r es => .opened r :: Ent.flatL es
def Ent.flatL : List Ent → List Ev
  | [] => []
  | e :: es => e.flat ++ Ent.flatL es
end

/-- The meaning of running a program: the entries it contributes to the enclosing block, how it ends,
all questions asked, and what happened. -/
structure Meaning (Q α : Type) where
  ents : List Ent
  out : Out α
  hist : List Q
  log : List Ev

/-- continue after some events -/
def Meaning.after {Q α : Type} (es : List Ent) (log : List Ev) (m : Meaning Q α) : Meaning Q α :=
  ⟨es ++ m.ents, m.out, m.hist, log ++ m.log⟩

/-- The meaning of a program; `opn` tells if there is an enclosing block. -/
def meaning {Q A : Type} (env : List Q → Q → A) : {α : Type} → Prog Q A α → (opn : Bool) → List Q → Meaning Q α
  | _, .pure a, _, h => ⟨[], .val a, h, []⟩
  | _, .abort r, _, h => ⟨[], .aborted r, h, [.note r]⟩
  | _, .raise e, _, h => ⟨[], .raised e, h, [.exc e]⟩
  | _, .write r k, true, h => (meaning env k true h).after [.leaf r] [.note r]
  | _, .write _ _, false, h =>
    let e : Exc := ⟨.runtimeError, py!"No open context"⟩
    ⟨[], .raised e, h, [.exc e]⟩
  | _, .query q k, opn, h => meaning env (k (env h q)) opn (h ++ [q])
  | _, .block r c body k, opn, h =>
    let b := meaning env body true h
    match b.out with
    | .val v =>
      let e := Ent.blk r b.ents
      (meaning env (k e.toRes (some v)) opn b.hist).after [e] (.opened r :: b.log)
    | .aborted x =>
      let e := Ent.blk r (b.ents ++ [.leaf x])
      (meaning env (k e.toRes none) opn b.hist).after [e] (.opened r :: b.log)
    | .raised x =>
      if c then
        let crit := Res.new (py!"Internal error: " ++ x.text) .critical
        let e := Ent.blk r (b.ents ++ [.leaf crit])
        (meaning env (k e.toRes none) opn b.hist).after [e] (.opened r :: b.log ++ [.note crit])
      else ⟨[], .raised x, b.hist, .opened r :: b.log ++ [.unwound]⟩

end Verif.Spec
