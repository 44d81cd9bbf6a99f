import Verif.Spec.Setups

/-!
# Servers that fulfil the demands of the tests

What a server has to answer so that all tests of an operation pass, and what the server has answered if they did.
-/

namespace Verif.Spec.Suites
open Verif Verif.Parse Verif.Aas Verif.Spec Verif.Spec.Parse Verif.Spec.Api Verif.Spec.Routes Verif.Http Verif.Generate Verif.Props
open Verif.Api hiding sane supported

/-! ## all requests -/

/-- all requests of this form are answered, at any time and as demanded -/
def Answered (S : Setting) (template : List Seg) (params : List (Str × Str)) (good : Demand) : Prop :=
  ∀ h q, At S.client template params q → ∃ r, S.env h q = .response r ∧ good S.lim r

/-- the server fulfils the demand of the test -/
def Positive.Fulfilled (S : Setting) : Positive → Prop
  | .get params good => Answered S S.template params good
  | .warn params good _ => Answered S S.template params good
  | .filter param value good => ∀ s, value S s → Answered S S.template [(param, s)] (good s)
  | .encoded param value good => ∀ s t, value S s → Encodes s t → Answered S S.template [(param, t)] (good s)
  | .byId value good => ∀ i t, value S i → Encodes i t → Answered S (replaced t S.template) [] (good i)
  | .next cursor params good => ∀ c, cursor S c → c ≠ .none → Answered S S.template params good
  | .types params supported good => ∀ l, Elements S l → ∀ c ∈ elementTypes, ∀ path, Located l c path →
      Answered S (replaced path S.template) params (if c ∈ supported then good else Rejection)
  | .file good => ∀ l, Elements S l → ∀ path, Located l .file path → Answered S (replaced path S.template) [] good

/-- all requests with the invalid value are rejected, at any time -/
def Rejected (env : List Sent → Sent → Answer) (lim : Option Nat) (client : Client) (template : List Seg) (b : Bad) : Prop :=
  ∀ h q, Carries client template b q → ∃ r, env h q = .response r ∧ Rejection lim r

/-- the server has what a setup needs: all its requests are answered at any time with a valid response in which the ids are found -/
def Supplies (env : List Sent → Sent → Answer) (lim : Option Nat) (client : Client) : List Ask → List Str → Prop
  | [], _ => True
  | a :: as, ids => ∀ vs h q, Encoded ids vs → At client (put vs a.path) a.params q →
      ∃ r v, env h q = .response r ∧ Good lim a.type r v ∧ (∃ new, a.finds v new) ∧ ∀ new, a.finds v new → Supplies env lim client as (ids ++ new)

/-- the server fulfils the demands of the tests of an operation, with the ids that the setup finds -/
structure Complies (env : List Sent → Sent → Answer) (lim : Option Nat) (client : Client) (profile : Str) (e : Str × List Seg) : Prop where
  setup : Supplies env lim client (plan e) []
  negative : ∀ h qs ids vs, Follows env lim client (plan e) [] h qs (.ready ids) → Encoded ids vs →
    ∀ b ∈ negativesOf e.1, Rejected env lim client (put vs (sentTo e)) b
  positive : ∀ h qs ids vs, Follows env lim client (plan e) [] h qs (.ready ids) → Encoded ids vs →
    ∀ t ∈ positivesOf e.1, t.2.Fulfilled ⟨env, lim, client, put vs (sentTo e), profile⟩

/-! ## the requests of a run -/

/-- one of these requests has this form and was answered as demanded -/
def Observed (S : Setting) (sent : List Sent) (template : List Seg) (params : List (Str × Str)) (good : Demand) : Prop :=
  ∃ h q r, h ++ [q] <+: sent ∧ At S.client template params q ∧ S.env h q = .response r ∧ good S.lim r

/-- the demand of the test was fulfilled -/
def Positive.Observed (S : Setting) (sent : List Sent) : Positive → Prop
  | .get params good => Suites.Observed S sent S.template params good
  | .warn params good _ => Suites.Observed S sent S.template params good
  | .filter param value good => ∃ s, value S s ∧ Suites.Observed S sent S.template [(param, s)] (good s)
  | .encoded param value good => ∃ s t, value S s ∧ Encodes s t ∧ Suites.Observed S sent S.template [(param, t)] (good s)
  | .byId value good => ∃ i t, value S i ∧ Encodes i t ∧ Suites.Observed S sent (replaced t S.template) [] (good i)
  | .next cursor params good => ∃ c, cursor S c ∧ (c ≠ .none → Suites.Observed S sent S.template params good)
  | .types params supported good => ∃ l, Elements S l ∧ ∀ c ∈ elementTypes, (∃ path, Located l c path) →
      ∃ path, Located l c path ∧ Suites.Observed S sent (replaced path S.template) params (if c ∈ supported then good else Rejection)
  | .file good => ∃ l, Elements S l ∧ ((∃ path, Located l .file path) →
      ∃ path, Located l .file path ∧ Suites.Observed S sent (replaced path S.template) [] good)

/-- the requests of the setup were answered as needed, all requests with invalid values were rejected, and the demands of all positive tests
were fulfilled -/
def Passed (env : List Sent → Sent → Answer) (lim : Option Nat) (client : Client) (profile : Str) (sent : List Sent) (e : Str × List Seg) : Prop :=
  ∃ h qs ids vs, h ++ qs <+: sent ∧ Follows env lim client (plan e) [] h qs (.ready ids) ∧ Encoded ids vs ∧
    (∀ b ∈ negativesOf e.1, ∃ h q r, h ++ [q] <+: sent ∧ Carries client (put vs (sentTo e)) b q ∧ env h q = .response r ∧ Rejection lim r) ∧
    ∀ t ∈ positivesOf e.1, t.2.Observed ⟨env, lim, client, put vs (sentTo e), profile⟩ sent

/-! ## runs -/

/-- the operations of a service that are to be tested -/
def chosen (conf : Conf) (es : List (Str × List Seg)) : List (Str × List Seg) :=
  es.filter fun e => match conf.filter with
    | none => true
    | some f => f.selects e.1

/-- the numbers of positive and of negative tests -/
def positiveCount (es : List (Str × List Seg)) : Nat := (es.map fun e => (positivesOf e.1).length).sum
def negativeCount (es : List (Str × List Seg)) : Nat := (es.map fun e => (negativesOf e.1).length).sum

end Verif.Spec.Suites
