import Verif.Spec.Api

/-!
# Operations are tested independently of each other (C106)
-/

namespace Verif.Spec.Alone
open Verif Verif.Spec Verif.Spec.Api Verif.Api Verif.Http

/-- a server that always gives the same answer to the same request -/
def Stateless (env : List Sent → Sent → Answer) : Prop := ∀ h h' q, env h q = env h' q

/-- what the check of an operation contributes: its result, its counters and its requests -/
structure Share where
  result : Res Str
  counters : Mat
  sent : List Sent

/-- A run for this operation alone: it reports on the server, on the operation and the summary, and counts and sends (after the
requests `start` of the check of the connection) what belongs to the operation. -/
def RunsAlone (env : List Sent → Sent → Answer) (conf : Conf) (client : Client) (server : Res Str) (start : List Sent) (op : Op) (s : Share) : Prop :=
  ∃ root last, run env (executeOps { conf with filter := none } client [op]) = (.val (root, s.counters), start ++ s.sent) ∧
    root.subs = [server, s.result, last]

/-- counters added -/
def total (l : List Mat) : Mat :=
  ⟨(l.map (·.validAccepted)).sum, (l.map (·.validRejected)).sum, (l.map (·.invalidAccepted)).sum, (l.map (·.invalidRejected)).sum⟩

end Verif.Spec.Alone
