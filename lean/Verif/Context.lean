import Verif.ResultLemmas

/-!
# Model of `aas_test_engines/result.py`, part 3: result contexts

`start`, `write` and `abort` work on the global list `managers`. Python code that uses them is
modelled as a program (`Prog`) whose primitive steps are these functions, raising an exception, and
asking the environment (e.g. sending an HTTP request). `exec` runs a program on the explicit stack
`managers` exactly as the context manager protocol does.
-/

namespace Verif

/-- An exception that is not a `ResultException`: its class and its text `str(e)` -/
structure Exc where
  kind : PyExc
  text : Str
  deriving DecidableEq

/-- Python code that uses result contexts. `Q`/`A` are questions to and answers from the environment. -/
inductive Prog (Q A : Type) : Type → Type 1
  /-- normal end with a value -/
  | pure {α : Type} (a : α) : Prog Q A α
  /-- `abort(r)`, i.e. `raise ResultException(r)` -/
  | abort {α : Type} (r : Res Str) : Prog Q A α
  /-- any other exception is raised -/
  | raise {α : Type} (e : Exc) : Prog Q A α
  /-- `write(r)`, then go on -/
  | write {α : Type} (r : Res Str) (k : Prog Q A α) : Prog Q A α
  /-- ask the environment, then go on with its answer -/
  | query {α : Type} (q : Q) (k : A → Prog Q A α) : Prog Q A α
  /-- `with start(r, catchAll) as x: body`, then go on. The code after the block sees the result
  object of the block and the value of the body (`none` if the body ended with an exception that
  was caught by the block). -/
  | block {α β : Type} (r : Res Str) (catchAll : Bool) (body : Prog Q A β)
      (k : Res Str → Option β → Prog Q A α) : Prog Q A α

namespace Prog
variable {Q A : Type}

/-- sequencing -/
def bind {α β : Type} : Prog Q A α → (α → Prog Q A β) → Prog Q A β
  | .pure a, f => f a
  | .abort r, _ => .abort r
  | .raise e, _ => .raise e
  | .write r k, f => .write r (bind k f)
  | .query q k, f => .query q fun a => bind (k a) f
  | .block r c body k, f => .block r c body fun x v => bind (k x v) f

/-- `write(m)` for a string (result.py:152-156, level INFO) -/
def writeMsg {α : Type} (m : Str) (k : Prog Q A α) : Prog Q A α := .write (Res.new m .info) k

/-- `abort(m)` for a string (result.py:164-166, level ERROR) -/
def abortMsg {α : Type} (m : Str) : Prog Q A α := .abort (Res.new m .error)

end Prog

/-- How a piece of code ends: value, `ResultException`, other exception -/
inductive Out (α : Type) where
  | val (a : α)
  | aborted (r : Res Str)
  | raised (e : Exc)

/-- result.py:109-113 a `ContextManager` object; `id` is its identity. -/
structure Frame where
  id : Nat
  result : Res Str
  catchAll : Bool

/-- Machine state: `managers` (result.py:106, innermost first), the next object identity, and the
questions asked so far. -/
structure St (Q : Type) where
  managers : List Frame
  next : Nat
  hist : List Q

/-- result.py:154 `raise RuntimeError("No open context")` -/
def noOpenContext : Exc := ⟨.runtimeError, py!"No open context"⟩

/-- result.py:121, 126, 131 `if managers: managers[-1].result.append(self.result)` -/
def attach (managers : List Frame) (r : Res Str) : List Frame :=
  match managers with
  | [] => []
  | f :: fs => { f with result := f.result.append r } :: fs

/-- result.py:130 the entry for an exception caught by a catch-all block -/
def internalError (e : Exc) : Res Str := Res.new (py!"Internal error: " ++ e.text) .critical

/-- Running a program (result.py:115-166). The environment answers depending on all questions
asked before. -/
def exec {Q A : Type} (env : List Q → Q → A) : {α : Type} → Prog Q A α → St Q → St Q × Out α
  | _, .pure a, st => (st, .val a)
  | _, .abort r, st => (st, .aborted r)
  | _, .raise e, st => (st, .raised e)
  | _, .write r k, st =>
    match st.managers with
    | [] => (st, .raised noOpenContext)
    | f :: fs => exec env k { st with managers := { f with result := f.result.append r } :: fs }
  | _, .query q k, st => exec env (k (env st.hist q)) { st with hist := st.hist ++ [q] }
  | _, .block r c body k, st =>
    -- __enter__
    let self := st.next
    let (st1, out) := exec env body
      { st with managers := ⟨self, r, c⟩ :: st.managers, next := self + 1 }
    -- __exit__
    match st1.managers with
    | [] => (st1, .raised ⟨.indexError, py!"pop from empty list"⟩)
    | m :: ms =>
      if m.id ≠ self then ({ st1 with managers := ms }, .raised ⟨.generic, py!"AssertionError"⟩)
      else
        match out with
        | .val v => exec env (k m.result (some v)) { st1 with managers := attach ms m.result }
        | .aborted x =>
          let res := m.result.append x
          exec env (k res none) { st1 with managers := attach ms res }
        | .raised e =>
          if m.catchAll then
            let res := m.result.append (internalError e)
            exec env (k res none) { st1 with managers := attach ms res }
          else ({ st1 with managers := ms }, .raised e)

end Verif
