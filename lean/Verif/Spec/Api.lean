import Verif.Spec.Context
import Verif.Spec.Generate
import Verif.Api

/-!
# What a run of the API tests should report

The report is a tree of results: first the connection to the server, then one result per operation, finally the summary. The result of
an operation has the parts `Setup`, `Negative Tests` and `Positive Tests`, whose children are the tests. `h` and `h'` are the requests
that were sent before and after.
-/

namespace Verif.Spec.Api
open Verif Verif.Spec Verif.Spec.Generate Verif.Generate Verif.Api Verif.Http

/-- Running a program without any open context: how it ends and what it sent. -/
def run {α : Type} (env : List Sent → Sent → Answer) (p : ApiM α) : Out α × List Sent :=
  let r := exec env p ⟨[], 0, []⟩
  (r.2, r.1.hist)

/-! ## the report -/

/-- a result with these children that is as bad as the worst of them -/
structure IsBlock (title : Str) (children : List (Res Str)) (r : Res Str) : Prop where
  msg : r.msg = title
  subs : r.subs = children
  ok : r.ok = true ↔ ∀ s ∈ children, s.ok = true
  critical : (∃ s ∈ children, s.level = .critical) → r.level = .critical

/-- A program ended with this value, or without one because it was aborted. All it wrote, and the reason for its abort, are the children of `r`. -/
def Ends {α : Type} (env : List Sent → Sent → Answer) (title : Str) (p : ApiM α) (h : List Sent) (v : Option α) (r : Res Str) (h' : List Sent) : Prop :=
  let m := meaning env p true h
  m.hist = h' ∧
  ((∃ a, m.out = .val a ∧ v = some a ∧ IsBlock title (Ent.toResL m.ents) r) ∨
   (∃ x, m.out = .aborted x ∧ v = none ∧ IsBlock title (Ent.toResL m.ents ++ [x]) r))

/-- tests ran one after the other -/
inductive Ran (env : List Sent → Sent → Answer) : List (Str × ApiM Unit) → List Sent → List (Res Str) → List Sent → Prop
  | nil (h) : Ran env [] h [] h
  | cons {title p rest h v r h' rs h''} : Ends env title p h v r h' → Ran env rest h' rs h'' → Ran env ((title, p) :: rest) h (r :: rs) h''

/-- the negative tests: a call for each invalid value of each argument -/
def negativeTests (suite : Suite) (client : Client) (st : suite.σ) (invalid : List (List ArgVal)) : List (Str × ApiM Unit) :=
  (expectedCalls (suite.valid st) ((suite.errorArgs.map (·.name)).zip invalid)).map fun (name, v, kw) =>
    (py!"Set " ++ name ++ py!" = '" ++ (match v.pyStr with | .ok t => t | .error _ => []) ++ py!"'", suite.invokeError client kw)

/-- the positive tests -/
def positiveTests {σ : Type} (client : Client) (profile : Str) (st : σ) (ts : List (Test σ)) : List (Str × ApiM Unit) :=
  ts.map fun t => (if t.doc.getD [] = [] then t.name else t.doc.getD [], t.run client profile st)

def passed (l : List (Res Str)) : Nat := l.countP (fun r => r.ok)
def failed (l : List (Res Str)) : Nat := l.countP (fun r => !r.ok)

/-- the parts of the result of an operation, and what they add to the counters -/
inductive Parts (env : List Sent → Sent → Answer) (conf : Conf) (client : Client) (op : Op) :
    List Sent → List (Res Str) → Mat → List Sent → Prop
  | dry {h} : conf.dry = true → Parts env conf client op h [] ⟨0, 0, 0, 0⟩ h
  | setupFailed {h v s h'} : conf.dry = false → Ends env py!"Setup" (setupOp client op) h v s h' → s.ok = false →
      Parts env conf client op h [s] ⟨0, 0, 0, 0⟩ h'
  | tested {h c st s h1 invalid n ns h2 ts p ps h3} : conf.dry = false →
      Ends env py!"Setup" (setupOp client op) h (some (c, st)) s h1 → s.ok = true →
      Generated argClasses op.suite.errorArgs invalid →
      Ran env (negativeTests op.suite c st invalid) h1 ns h2 → IsBlock py!"Negative Tests" ns n →
      ts.Perm op.suite.tests → ts.Pairwise (fun t u => t.line ≤ u.line) →
      Ran env (positiveTests c conf.suite st ts) h2 ps h3 → IsBlock py!"Positive Tests" ps p →
      Parts env conf client op h [s, n, p] ⟨passed ps, failed ps, failed ns, passed ns⟩ h3

/-- reports of operations, in their order, and the sums of their counters -/
inductive Reports (env : List Sent → Sent → Answer) (conf : Conf) (client : Client) :
    List Op → List Sent → List (Res Str) → Mat → List Sent → Prop
  | nil (h) : Reports env conf client [] h [] ⟨0, 0, 0, 0⟩ h
  | cons {op ops h parts m h' r rs ms h''} : Parts env conf client op h parts m h' → IsBlock (py!"Checking " ++ op.suite.operation) parts r →
      Reports env conf client ops h' rs ms h'' →
      Reports env conf client (op :: ops) h (r :: rs)
        ⟨m.validAccepted + ms.validAccepted, m.validRejected + ms.validRejected, m.invalidAccepted + ms.invalidAccepted,
          m.invalidRejected + ms.invalidRejected⟩ h''

/-- the operations that are to be tested -/
def selected (conf : Conf) (ops : List Op) : List Op :=
  ops.filter fun op => match conf.filter with
    | none => true
    | some f => f.selects op.suite.operation

/-- the request that checks whether the server can be reached -/
def probe (client : Client) : Except PyExc Sent := client.send (fun _ => []) { path := [] }

/-- the lines of the summary -/
def summaryLines (m : Mat) : List (Res Str) :=
  [Res.new (py!"Negative tests passed: " ++ Py.natStr m.invalidRejected ++ py!" / " ++ Py.natStr (m.invalidAccepted + m.invalidRejected)),
   Res.new (py!"Positive tests passed: " ++ Py.natStr m.validAccepted ++ py!" / " ++ Py.natStr (m.validAccepted + m.validRejected))]

/-- the report on the connection to the server -/
inductive Reached (env : List Sent → Sent → Answer) (conf : Conf) (client : Client) : List Sent → Res Str → List Sent → Prop
  | dry {h r} : conf.dry = true → IsBlock (py!"Trying to reach " ++ client.host) [Res.new py!"Skipped due to dry run" .warning] r →
      Reached env conf client h r h
  | answer {h q a r} : conf.dry = false → probe client = .ok q → env h q = .response a →
      IsBlock (py!"Trying to reach " ++ client.host) [Res.new py!"OK"] r → Reached env conf client h r (h ++ [q])

/-- the whole report and its counters -/
inductive Complete (env : List Sent → Sent → Answer) (conf : Conf) (client : Client) (ops : List Op) :
    List Sent → Res Str → Mat → List Sent → Prop
  | unreachable {h q e server root} : conf.dry = false → probe client = .ok q → env h q = .failed e →
      IsBlock (py!"Trying to reach " ++ client.host) [Res.new (py!"Failed to reach: " ++ e) .critical] server →
      IsBlock (py!"Checking compliance to " ++ conf.suite) [server] root →
      Complete env conf client ops h root ⟨0, 0, 0, 0⟩ (h ++ [q])
  | reached {h server h1 rs m h2 last root} : Reached env conf client h server h1 →
      Reports env conf client (selected conf ops) h1 rs m h2 → IsBlock py!"Summary:" (summaryLines m) last →
      IsBlock (py!"Checking compliance to " ++ conf.suite) (server :: rs ++ [last]) root →
      Complete env conf client ops h root m h2

/-- all tests in the parts of this title -/
def testsIn (title : Str) (root : Res Str) : List (Res Str) :=
  root.subs.flatMap fun op => op.subs.flatMap fun part => if part.msg = title then part.subs else []

end Verif.Spec.Api
