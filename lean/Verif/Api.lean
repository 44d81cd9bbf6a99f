import Verif.Responses
import Verif.Config
import Verif.Engine
import Verif.ProgLemmas

/-!
# Model of the API tests: `aas_test_engines/api.py`, `test_cases/v3_0/api.py` and `test_cases/v3_0/interfaces/shared.py`

Programs ask the environment to send a request (`Http.Sent`, the arguments of `requests.request`) and go on with its answer. What
`requests` does with the request, and how it decodes the body of the response, is not modelled: the answer is arbitrary.
-/

namespace Verif.Api
open Verif Verif.Parse Verif.Aas Verif.Http Verif.Generate

/-- the outcome of `response.json()` if it is not a value -/
inductive JsonFail
  /-- `requests.exceptions.JSONDecodeError` -/
  | decode (text : Str)
  /-- any other exception, for example for numbers with too many digits -/
  | other (e : Exc)

/-- `requests.models.Response` -/
structure Response where
  status : Nat
  /-- the content as text, `none` if it is not UTF-8 -/
  content : Option Str
  json : Except JsonFail Json

/-- the outcome of `requests.request` -/
inductive Answer
  | response (r : Response)
  /-- `requests.exceptions.RequestException` -/
  | failed (text : Str)
  /-- any other exception -/
  | broken (e : Exc)

abbrev ApiM := Prog Sent Answer

/-- Python's limit on digits, and the wording of messages of the parser -/
structure Cfg where
  lim : Option Nat
  text : Note → Str

/-! ## shared.py -/

/-- shared.py 29-33 `_assert` -/
def assert_ (predicate : Bool) (message : Str) (level : Level := .error) : ApiM Unit :=
  if predicate then .writeMsg (message ++ py!": OK") (.pure ())
  else .abort (Res.new (message ++ py!": Fail") level)

/-- shared.py 40-47 `_shorten` -/
def shorten (content : Option Str) (maxLen : Nat := 300) : Str :=
  match content with
  | none => py!"<binary-data>"
  | some s => if maxLen < s.length then s.take maxLen ++ py!"..." else s

/-- `str(type(data))` -/
def typeText : Json → Str
  | .null => py!"<class 'NoneType'>"
  | .bool _ => py!"<class 'bool'>"
  | .num _ => py!"<class 'int'>"
  | .float _ => py!"<class 'float'>"
  | .str _ => py!"<class 'str'>"
  | .arr _ => py!"<class 'list'>"
  | .obj _ => py!"<class 'dict'>"

/-- shared.py 50-57 `extract_json` -/
def extractJson (response : Response) : ApiM Json :=
  match response.json with
  | .error (.decode e) => .abortMsg (py!"Cannot decode as JSON: " ++ e)
  | .error (.other e) => .raise e
  | .ok (.arr l) => .pure (.arr l)
  | .ok (.obj kvs) => .pure (.obj kvs)
  | .ok data => .abortMsg (py!"Expected JSON, got " ++ typeText data)

/-- http.py 53-77 `client.send`; requests of the tests have no body. A failure of the transport is an exception. -/
def send (client : Client) (request : Request) : ApiM Answer :=
  match client.send (fun _ => []) request with
  | .error e => .raise (excOf e)
  | .ok sent => .query sent .pure

/-- the answer of the transport where no exception is caught -/
def received : Answer → ApiM Response
  | .response r => .pure r
  | .failed text => .raise ⟨.generic, text⟩
  | .broken e => .raise e

/-- shared.py 60-65 `invoke` -/
def invoke (client : Client) (request : Request) : ApiM Response :=
  match request.makeUrl with
  | .error e => .raise (excOf e)
  | .ok u =>
    .writeMsg (py!"Invoke " ++ (client.prefixes.flatten ++ u)) <|
    (send client request).bind fun answer =>
    (received answer).bind fun response =>
    .writeMsg (py!"Response: (" ++ (Py.natStr response.status ++ (py!"): " ++ shorten response.content))) <|
    .pure response

/-- `headers[name] = value` -/
def setHeader (name value : Str) : List (Str × Str) → List (Str × Str)
  | [] => [(name, value)]
  | (n, v) :: rest => if n = name then (n, value) :: rest else (n, v) :: setHeader name value rest

/-- shared.py 77-91 the part after the response; `expected` is `_ in expected_status` -/
def decode (cfg : Cfg) (response : Response) (ty : RTy) (expected : Nat → Bool) : ApiM RVal :=
  if 500 ≤ response.status then .abort (Res.new (py!"Got unexpected status code " ++ Py.natStr response.status) .critical)
  else if !expected response.status then .abort (Res.new (py!"Got unexpected status code " ++ Py.natStr response.status) .error)
  else
    (extractJson response).bind fun data =>
    match parseResponse cfg.lim ty data with
    | .error e => .raise (excOf e)
    | .ok (result, parsed) =>
      if result.ok then .write (Engine.render cfg.text result) (.pure parsed)
      else .abort (Engine.render cfg.text result)

/-- shared.py 68-91 `invoke_and_decode` -/
def invokeAndDecode (cfg : Cfg) (client : Client) (request : Request) (ty : RTy) (expected : Nat → Bool) : ApiM RVal :=
  (invoke client { request with headers := setHeader py!"content-type" py!"application/json" request.headers }).bind fun response =>
  decode cfg response ty expected

/-- `{200}` -/
def success : Nat → Bool := fun s => s == 200

/-- `range(400, 500)` -/
def clientError : Nat → Bool := fun s => decide (400 ≤ s) && decide (s < 500)

/-! ## suites -/

/-- the classes of arguments of operations: `AssetId`, `Level` and `Extent`, `Base64String` -/
inductive ArgCls
  | assetId
  deriving DecidableEq, Repr
inductive ArgEnum
  | level | extent
  deriving DecidableEq, Repr
inductive ArgSfv
  | base64String
  deriving DecidableEq, Repr

abbrev Arg := Argument ArgCls ArgEnum ArgSfv

/-- shared.py 36-37, 132-139, 185-192 -/
def argClasses : Classes ArgCls ArgEnum ArgSfv where
  enumValues
    | .level => [py!"core", py!"deep"]
    | .extent => [py!"withBlobValue", py!"withoutBlobValue"]
  base64 | .base64String => true
  isAssetId | .assetId => true

/-- a method `test_...`: its name, its line (`__code__.co_firstlineno`), its docstring -/
structure Test (σ : Type) where
  name : Str
  line : Nat
  doc : Option Str
  run : Client → Str → σ → ApiM Unit

/-- v3_0/api.py 203 `test_fn.__doc__ or test_fn.__name__` -/
def Test.title {σ : Type} (t : Test σ) : Str :=
  match t.doc with
  | some (c :: s) => c :: s
  | _ => t.name

/-- A subclass of `ApiTestSuite` (shared.py 142-157); `σ` are the attributes that `setup` sets. Methods get the client and (tests) the
profile. The tests are listed by name, as `dir` does. -/
structure Suite where
  operation : Str
  /-- the parameters of `invoke_error` -/
  errorArgs : List Arg
  /-- the parameters of `invoke_success` -/
  successArgs : List Arg
  σ : Type
  setup : Client → ApiM σ
  /-- `valid_arguments` -/
  valid : σ → Kwargs
  invokeError : Client → Kwargs → ApiM Unit
  tests : List (Test σ)

/-- v3_0/api.py 189-196 `_execute_syntactic_tests` -/
def executeSyntacticTests (suite : Suite) (client : Client) (st : suite.σ) : ApiM Unit :=
  if sameArgs suite.errorArgs suite.successArgs then
    generateCalls argClasses suite.operation (suite.invokeError client) (suite.valid st) suite.errorArgs
  else .raise ⟨.generic, py!"AssertionError"⟩

/-- insertion into a sorted list, behind the tests of the same line -/
def insertTest {σ : Type} (t : Test σ) : List (Test σ) → List (Test σ)
  | [] => [t]
  | u :: us => if u.line ≤ t.line then u :: insertTest t us else t :: u :: us

/-- v3_0/api.py 201 `fns.sort(key=lambda x: x.__code__.co_firstlineno)`, a stable sort -/
def sortTests {σ : Type} (ts : List (Test σ)) : List (Test σ) := ts.foldl (fun acc t => insertTest t acc) []

/-- v3_0/api.py 202-204 the loop over the tests -/
def runTests {σ : Type} (client : Client) (profile : Str) (st : σ) : List (Test σ) → ApiM Unit
  | [] => .pure ()
  | t :: ts => .block (Res.new t.title) false (t.run client profile st) fun _ _ => runTests client profile st ts

/-- v3_0/api.py 199-204 `_execute_semantic_tests` -/
def executeSemanticTests (suite : Suite) (client : Client) (profile : Str) (st : suite.σ) : ApiM Unit :=
  runTests client profile st (sortTests suite.tests)

/-- `fences.core.util.ConfusionMatrix`, a library class: four counters that are added one by one -/
structure Mat where
  validAccepted : Nat
  validRejected : Nat
  invalidAccepted : Nat
  invalidRejected : Nat
  deriving DecidableEq, Repr

def Mat.zero : Mat := ⟨0, 0, 0, 0⟩

def Mat.add (a b : Mat) : Mat :=
  ⟨a.validAccepted + b.validAccepted, a.validRejected + b.validRejected, a.invalidAccepted + b.invalidAccepted,
    a.invalidRejected + b.invalidRejected⟩

/-- v3_0/api.py 207-217 `_execute` -/
def execute (suite : Suite) (client : Client) (profile : Str) (st : suite.σ) : ApiM Mat :=
  .block (Res.new py!"Negative Tests") false (executeSyntacticTests suite client st) fun neg _ =>
  let invalidRejected := (neg.subs.filter (·.ok)).length
  let invalidAccepted := neg.subs.length - invalidRejected
  .block (Res.new py!"Positive Tests") false (executeSemanticTests suite client profile st) fun pos _ =>
  let validAccepted := (pos.subs.filter (·.ok)).length
  .pure ⟨validAccepted, pos.subs.length - validAccepted, invalidAccepted, invalidRejected⟩

/-- config.py 34-39 `CheckApiConfig` -/
structure Conf where
  suite : Str
  version : Option Str := none
  dry : Bool := false
  filter : Option Config.Filter := none

/-- v3_0/api.py 175-186 `_check_server` -/
def checkServer {α : Type} (dry : Bool) (client : Client) (k : Bool → ApiM α) : ApiM α :=
  .block (Res.new (py!"Trying to reach " ++ client.host)) false
    (if dry then .write (Res.new py!"Skipped due to dry run" .warning) (.pure true)
    else
      (send client { path := [] }).bind fun
      | .response _ => .writeMsg py!"OK" (.pure true)
      | .failed e => .write (Res.new (py!"Failed to reach: " ++ e) .critical) (.pure false)
      | .broken e => .raise e)
    fun _ v => k (v.getD false)

/-- an entry of `available_suites` (v3_0/api.py 62-172) -/
structure Op where
  prefixOf : Client → ApiM Str
  suite : Suite

/-- v3_0/api.py 247-251 -/
def setupOp (client : Client) (op : Op) : ApiM (Client × op.suite.σ) :=
  (op.prefixOf client).bind fun pre =>
  (op.suite.setup (client.descend pre)).bind fun st =>
  .pure (client.descend pre, st)

/-- v3_0/api.py 237 -/
def skipped (conf : Conf) (op : Op) : Bool :=
  match conf.filter with
  | none => false
  | some f => !f.selects op.suite.operation

/-- v3_0/api.py 253-255. A setup that is aborted with a result that counts as ok would leave the variable `test_suite` unset (or with
the suite before); no setup does. -/
def afterSetup (conf : Conf) (suite : Suite) (result : Res Str) (v : Option (Client × suite.σ)) : ApiM Mat :=
  if result.ok then
    match v with
    | some (subClient, st) => execute suite subClient conf.suite st
    | none => .raise ⟨.unboundLocalError, py!"test_suite"⟩
  else .pure Mat.zero

/-- v3_0/api.py 240-255 the block of one operation -/
def runOp (conf : Conf) (client : Client) (op : Op) (k : Mat → ApiM Mat) : ApiM Mat :=
  .block (Res.new (py!"Checking " ++ op.suite.operation)) false
    (if conf.dry then .pure Mat.zero
    else .block (Res.new py!"Setup") false (setupOp client op) (afterSetup conf op.suite))
    fun _ m => k (m.getD Mat.zero)

/-- v3_0/api.py 236-255 the loop over the operations -/
def runOps (conf : Conf) (client : Client) : List Op → Mat → ApiM Mat
  | [], mat => .pure mat
  | op :: ops, mat =>
    if skipped conf op then runOps conf client ops mat
    else runOp conf client op fun sub => runOps conf client ops (mat.add sub)

/-- v3_0/api.py 257-259 -/
def summary (mat : Mat) : ApiM Mat :=
  .block (Res.new py!"Summary:") false
    (.writeMsg (py!"Negative tests passed: " ++ (Py.natStr mat.invalidRejected ++ (py!" / " ++ Py.natStr (mat.invalidAccepted + mat.invalidRejected)))) <|
     .writeMsg (py!"Positive tests passed: " ++ (Py.natStr mat.validAccepted ++ (py!" / " ++ Py.natStr (mat.validAccepted + mat.validRejected)))) <|
     .pure ())
    fun _ _ => .pure mat

/-- v3_0/api.py 227-260 `execute_tests` for the operations of a suite -/
def executeOps (conf : Conf) (client : Client) (ops : List Op) : ApiM (Res Str × Mat) :=
  .block (Res.new (py!"Checking compliance to " ++ conf.suite)) false
    (checkServer conf.dry client fun reached =>
      if !reached then .pure Mat.zero
      else (runOps conf client ops Mat.zero).bind summary)
    fun root mat => .pure (root, mat.getD Mat.zero)

/-- v3_0/api.py 221-225 -/
def executeSuite (suites : List (Str × List Op)) (client : Client) (conf : Conf) : ApiM (Res Str × Mat) :=
  match suites.find? (fun s => s.1 == conf.suite) with
  | none => .raise ⟨.generic, py!"Unknown suite"⟩
  | some (_, ops) => executeOps conf client ops

/-- api.py 20-24 `execute_tests`; an empty version counts as none -/
def executeTests (suites : List (Str × List Op)) (client : Client) (conf : Conf) : ApiM (Res Str × Mat) :=
  let version := match conf.version with
    | some (c :: v) => c :: v
    | _ => py!"3.0"
  if version ≠ py!"3.0" then .raise ⟨.generic, py!"Unknown version"⟩
  else executeSuite suites client conf

end Verif.Api
