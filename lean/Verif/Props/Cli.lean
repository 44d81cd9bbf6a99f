import Verif.CliLemmas
import Verif.Props.SuiteSamples

/-!
# C58, C59, C71, C72, C94: the command line
-/

namespace Verif.Props
open Verif.Parse (Xml)
open Verif Verif.Cli Verif.Spec Verif.Spec.Cli Verif.Spec.Api Verif.Spec.Suites Verif.Spec.Routes Verif.Http Verif.Generate
open Verif.Api hiding sane supported
open Verif.Api.Suites

variable (c : Console)

/-! ## C58 -/

/-- C58: `check_file` exits with 0 iff its options are valid, the check of the file in this format gives a positive result, and this can
be printed. -/
theorem C58_file_partial (g : File.Engine Json Xml) (args : FileArgs) :
    (runFileTest c g args).ended.code = 0 ↔ ∃ format output r, ReadsFormat args.format format ∧ ReadsOutput args.output output ∧
      checkFile g args.file (args.modelType.getD py!"Environment") format = .ok r ∧ r.ok = true ∧ Printable c output r := by
  unfold runFileTest
  cases hf : Format.ofText (args.format.getD py!"aasx") with
  | none =>
    refine ⟨fun h => (by cases h), fun ⟨f, o, r, h, _⟩ => ?_⟩
    rw [(format_iff _ _).mpr h] at hf; cases hf
  | some format =>
    cases ho : Output.ofText (args.output.getD py!"text") with
    | none =>
      refine ⟨fun h => (by cases h), fun ⟨f, o, r, _, h, _⟩ => ?_⟩
      rw [(output_iff _ _).mpr h] at ho; cases ho
    | some output =>
      have hf' : ∀ f, ReadsFormat args.format f → f = format := fun f h => by
        have := (format_iff _ _).mpr h; rw [hf] at this; cases this; rfl
      have ho' : ∀ o, ReadsOutput args.output o → o = output := fun o h => by
        have := (output_iff _ _).mpr h; rw [ho] at this; cases this; rfl
      dsimp only
      cases hc : checkFile g args.file (args.modelType.getD py!"Environment") format with
      | error e =>
        refine ⟨fun h => (by cases h), fun ⟨f, o, r, h1, h2, h3, _⟩ => ?_⟩
        obtain rfl := hf' f h1
        rw [hc] at h3; cases h3
      | ok result =>
        dsimp only
        rw [report_code]
        constructor
        · rintro ⟨h1, h2⟩
          exact ⟨format, output, result, (format_iff _ _).mp hf, (output_iff _ _).mp ho, hc, h1, h2⟩
        · rintro ⟨f, o, r, h1, h2, h3, h4, h5⟩
          obtain rfl := hf' f h1
          obtain rfl := ho' o h2
          rw [hc] at h3
          cases h3
          exact ⟨h4, h5⟩

/-- C58: a result that can be printed is printed, in the format that is asked for, and nothing else. -/
theorem C58_printed (g : File.Engine Json Xml) (args : FileArgs) (format : Format) (output : Output) (r : Res Str) (h1 : ReadsFormat args.format format)
    (h2 : ReadsOutput args.output output) (h3 : checkFile g args.file (args.modelType.getD py!"Environment") format = .ok r) (h4 : Printable c output r) :
    runFileTest c g args = { out := linesOf c output r, ended := .exit (if r.ok then 0 else 1) } := by
  unfold runFileTest
  rw [(format_iff _ _).mpr h1, (output_iff _ _).mpr h2]
  dsimp only
  rw [h3]
  exact report_printable h4

/-- C58: exceptions of the check are not caught, so the exit code is 1. -/
theorem C58_exception (g : File.Engine Json Xml) (args : FileArgs) (format : Format) (output : Output) (e : Exc) (h1 : ReadsFormat args.format format)
    (h2 : ReadsOutput args.output output) (h3 : checkFile g args.file (args.modelType.getD py!"Environment") format = .error e) :
    runFileTest c g args = { ended := .raised e } := by
  unfold runFileTest
  rw [(format_iff _ _).mpr h1, (output_iff _ _).mpr h2]
  dsimp only
  rw [h3]

/-! ## C59 -/

theorem names_nodup (cfg : Cfg) : ((availableSuites cfg).map (·.1)).Nodup := by
  have : (services.map (·.1)).Nodup := by decide +kernel
  exact this

/-- the options of `check_server` are valid -/
structure Valid (args : ServerArgs) (headers : List (Str × Str)) (filter : Option Config.Filter) (output : Output) : Prop where
  headers : ReadsHeaders args.header headers
  filter : ReadsFilter args.filter filter
  output : ReadsOutput args.output output
  version : args.version = none ∨ args.version = some py!"3.0"

theorem runApi_valid (suites : List (Str × List Op)) {args : ServerArgs} {headers : List (Str × Str)} {filter : Option Config.Filter} {output : Output}
    (h : Valid args headers filter output) : runApiTest c suites args = runSuites c suites args headers filter output := by
  unfold runApiTest
  rw [(headers_iff _ _).mpr h.headers]
  dsimp only
  rw [(filter_iff _ _).mpr h.filter]
  dsimp only
  rw [(output_iff _ _).mpr h.output]

theorem version_getD {args : ServerArgs} (h : args.version = none ∨ args.version = some py!"3.0") : args.version.getD py!"3.0" = py!"3.0" := by
  rcases h with h | h <;> rw [h] <;> rfl

theorem find_version (suites : List (Str × List Op)) (v : Str) :
    (supportedVersions suites).find? (fun x => x.1 == v) = if v = py!"3.0" then some (py!"3.0", suites.map (·.1)) else none := by
  unfold supportedVersions
  rw [List.find?_cons]
  by_cases h : v = py!"3.0"
  · subst h; rfl
  · rw [if_neg h]
    rw [show ((py!"3.0", suites.map (·.1)).1 == v) = false from by simpa using fun hh : _ = v => h hh.symm]
    rfl

variable (env : List Sent → Sent → Answer) (cfg : Cfg)

/-- the configuration of the run -/
def confFor (args : ServerArgs) (suite : Str) (filter : Option Config.Filter) : Conf :=
  { suite := suite, version := some py!"3.0", dry := args.dry, filter := filter }

/-- how the process ends if the run ends so -/
def reported (output : Output) : Out (Res Str × Mat) → Out Outcome
  | .val (r, _) => .val (report c output r)
  | .aborted x => .aborted x
  | .raised e => .raised e

/-- C59: if exactly one suite contains the given text, then this one is run; the requests are those of the run, and its result is reported. -/
theorem C59_unique {args : ServerArgs} {headers : List (Str × Str)} {filter : Option Config.Filter} {output : Output}
    (h : Valid args headers filter output) (suite : Str) (hs : Only (services.map (·.1)) args.suite suite) :
    run env (runApiTest c (availableSuites cfg) args) =
      (reported c output (run env (executeTests (availableSuites cfg) (clientOf args headers) (confFor args suite filter))).1,
       (run env (executeTests (availableSuites cfg) (clientOf args headers) (confFor args suite filter))).2) := by
  have hn : services.map (·.1) = (availableSuites cfg).map (·.1) := rfl
  rw [hn] at hs
  have hf : ((availableSuites cfg).map (·.1)).filter (fun i => Py.contains i args.suite) = [suite] := by
    rcases filter_cases _ (names_nodup cfg) args.suite with ⟨s, h1, h2⟩ | ⟨_, h2⟩
    · rw [h1, h2.2.2 suite hs.1 hs.2.1]
    · exact absurd ⟨suite, hs⟩ h2
  rw [runApi_valid c _ h, runSuites]
  rw [version_getD h.version, find_version, if_pos rfl]
  dsimp only
  rw [hf]
  dsimp only
  rw [Api.run_eq, Api.run_eq]
  rw [meaning_bind]
  unfold Meaning.andThen
  show _ = (reported c output (meaning env (executeTests (availableSuites cfg) (clientOf args headers) (confOf args py!"3.0" suite filter)) false []).out, (meaning env (executeTests (availableSuites cfg) (clientOf args headers) (confOf args py!"3.0" suite filter)) false []).hist)
  cases (meaning env (executeTests (availableSuites cfg) (clientOf args headers) (confOf args py!"3.0" suite filter)) false []).out with
  | val a => obtain ⟨r, m⟩ := a; simp only [Meaning.after, meaning, reported]
  | aborted x => rfl
  | raised e => rfl

/-- C59: in all other cases (no suite contains the text, several do, an option is not valid) nothing is sent, nothing is reported, and the
exit code is not 0. -/
theorem C59_otherwise (args : ServerArgs)
    (h : ¬ ∃ headers filter output suite, Valid args headers filter output ∧ Only (services.map (·.1)) args.suite suite) :
    (run env (runApiTest c (availableSuites cfg) args)).2 = [] ∧ code (run env (runApiTest c (availableSuites cfg) args)) ≠ 0 ∧
    ∀ o, (run env (runApiTest c (availableSuites cfg) args)).1 = .val o → o.out = [] := by
  have pure' : ∀ o : Outcome, o.ended.code ≠ 0 → o.out = [] →
      (run env (.pure o : ApiM Outcome)).2 = [] ∧ code (run env (.pure o : ApiM Outcome)) ≠ 0 ∧ ∀ o', (run env (.pure o : ApiM Outcome)).1 = .val o' → o'.out = [] := by
    intro o h1 h2
    rw [Api.run_eq]
    refine ⟨rfl, h1, fun o' h => ?_⟩
    cases h
    exact h2
  unfold runApiTest
  cases hh : parseHeaders args.header with
  | none => exact pure' _ (by decide) rfl
  | some headers =>
    dsimp only
    cases hf : filterOf args.filter with
    | none =>
      dsimp only
      rw [Api.run_eq]
      exact ⟨rfl, fun h => (by cases h), fun o' h => (by cases h)⟩
    | some filter =>
      dsimp only
      cases ho : Output.ofText (args.output.getD py!"text") with
      | none => exact pure' _ (by decide) rfl
      | some output =>
        dsimp only
        unfold runSuites
        dsimp only
        rw [find_version]
        by_cases hv : args.version.getD py!"3.0" = py!"3.0"
        · rw [if_pos hv]
          dsimp only
          have hv' : args.version = none ∨ args.version = some py!"3.0" := by
            cases hx : args.version with
            | none => exact .inl rfl
            | some v => rw [hx] at hv; exact .inr (by rw [show v = py!"3.0" from hv])
          have hno : ¬ ∃ s, Only (services.map (·.1)) args.suite s := fun ⟨s, hs⟩ =>
            h ⟨headers, filter, output, s, ⟨(headers_iff _ _).mp hh, (filter_iff _ _).mp hf, (output_iff _ _).mp ho, hv'⟩, hs⟩
          rcases filter_cases _ (names_nodup cfg) args.suite with ⟨s, h1, h2⟩ | ⟨h1, _⟩
          · exact absurd ⟨s, h2⟩ hno
          · split
            · exact pure' _ (fun h => (by cases h)) rfl
            · rename_i s hs; exact absurd hs (h1 s)
            · exact pure' _ (fun h => (by cases h)) rfl
        · rw [if_neg hv]
          exact pure' _ (by decide) rfl

/-- C59: the full name of a suite selects it, although names of suites are similar. -/
theorem C59_full (s : Str) (hs : s ∈ services.map (·.1)) : Only (services.map (·.1)) s s := by
  refine ⟨hs, ⟨[], [], by simp⟩, fun s' hs' hc => ?_⟩
  have key : ∀ s ∈ services.map (·.1), ∀ s' ∈ services.map (·.1), Py.contains s' s = true → s' = s := by decide +kernel
  exact key s hs s' hs' ((contains_iff s' s).mpr hc)

example : Only (services.map (·.1)) py!"ShellRepository" (service 0) := by
  have key : ∀ s' ∈ services.map (·.1), Py.contains s' py!"ShellRepository" = true → s' = service 0 := by decide +kernel
  exact ⟨by decide +kernel, (contains_iff _ _).mp (by decide +kernel), fun s' h1 h2 => key s' h1 ((contains_iff _ _).mpr h2)⟩
/-- a text that two suites contain -/
example : ¬ ∃ s, Only (services.map (·.1)) py!"Submodel" s := by
  rintro ⟨s, -, -, h⟩
  have h1 := h (service 1) (by decide +kernel) ((contains_iff _ _).mp (by decide +kernel))
  have h2 := h (service 3) (by decide +kernel) ((contains_iff _ _).mp (by decide +kernel))
  exact absurd (h1.trans h2.symm) (by decide +kernel)

/-- C58: `check_server` exits with 0 iff its options are valid, exactly one suite contains the given text, its run ends with a positive
result, and this can be printed. -/
theorem C58_server_partial (args : ServerArgs) :
    code (run env (runApiTest c (availableSuites cfg) args)) = 0 ↔
      ∃ headers filter output suite r m, Valid args headers filter output ∧ Only (services.map (·.1)) args.suite suite ∧
        (run env (executeTests (availableSuites cfg) (clientOf args headers) (confFor args suite filter))).1 = .val (r, m) ∧ r.ok = true ∧ Printable c output r := by
  constructor
  · intro h
    by_cases hx : ∃ headers filter output suite, Valid args headers filter output ∧ Only (services.map (·.1)) args.suite suite
    · obtain ⟨headers, filter, output, suite, h1, h2⟩ := hx
      rw [C59_unique c env cfg h1 suite h2] at h
      cases ho : (run env (executeTests (availableSuites cfg) (clientOf args headers) (confFor args suite filter))).1 with
      | val a =>
        obtain ⟨r, m⟩ := a
        rw [ho] at h
        obtain ⟨h3, h4⟩ := (report_code c output r).mp h
        exact ⟨headers, filter, output, suite, r, m, h1, h2, ho, h3, h4⟩
      | aborted x => rw [ho] at h; cases h
      | raised e => rw [ho] at h; cases h
    · exact absurd h (C59_otherwise c env cfg args hx).2.1
  · rintro ⟨headers, filter, output, suite, r, m, h1, h2, h3, h4, h5⟩
    rw [C59_unique c env cfg h1 suite h2, h3]
    exact (report_code c output r).mpr ⟨h4, h5⟩

/-- standard output in UTF-8; `json.dumps` escapes everything else than ASCII -/
def utf8Console : Console := { encodes := fun l => l.all fun x => !(0xD800 ≤ x && x < 0xE000), page := id }

def dryRun (host : Str) (output : Str) : ServerArgs := { server := host, suite := py!"ShellRepository", dry := true, output := some output }

example : code (run (server []) (runApiTest utf8Console (availableSuites plainCfg) (dryRun py!"http://h" py!"text"))) = 0 := by decide +kernel
example : code (run (server []) (runApiTest utf8Console (availableSuites plainCfg) { server := py!"http://h", suite := py!"ShellRepository" })) = 0 := by
  decide +kernel
example : code (run (server [(py!"/shells/*/asset-information", .obj [])]) (runApiTest utf8Console (availableSuites plainCfg)
    { server := py!"http://h", suite := py!"ShellRepository" })) = 1 := by
  decide +kernel

/-- C58 fails if the result cannot be printed: the exit code then depends on the format. -/
theorem C58_unprintable_violated :
    code (run (server []) (runApiTest utf8Console (availableSuites plainCfg) (dryRun [0xDCFF] py!"text"))) = 1 ∧
    code (run (server []) (runApiTest utf8Console (availableSuites plainCfg) (dryRun [0xDCFF] py!"json"))) = 0 := by
  decide +kernel

/-- files: an empty environment, something else, text that is no JSON -/
def jsonFile (j : Except File.Unread Json) (output : Option Str) : FileArgs :=
  { file := ⟨.error [], ⟨j, .error (.malformed [])⟩⟩, format := some py!"json", output := output }
example : [some py!"text", some py!"json", some py!"html", none].map (fun o =>
    [.ok (.obj []), .ok (.num 1), .error (.malformed py!"no JSON")].map fun j => (runFileTest utf8Console (Engine.engine (fun _ => []) none) (jsonFile j o)).ended.code) =
    [[0, 1, 1], [0, 1, 1], [0, 1, 1], [0, 1, 1]] := by decide +kernel
example : (runFileTest utf8Console (Engine.engine (fun _ => []) none) (jsonFile (.ok (.obj [])) (some py!"xml"))).ended = .exit 2 := by decide +kernel
example : (runFileTest utf8Console (Engine.engine (fun _ => []) none)
    { jsonFile (.ok (.obj [])) none with format := none, modelType := some py!"Submodel" }).ended.code = 1 := by decide +kernel

/-! ## C71 -/

/-- C71: a text is a header iff it has a colon; the name is what is before the first one. -/
theorem C71_header (s : Str) (h : Str × Str) : parseHeaderValue s = some h ↔ ReadsHeader s h := header_iff s h

theorem C71_rejected (s : Str) : parseHeaderValue s = none ↔ pc! ':' ∉ s := by
  rw [Option.eq_none_iff_forall_ne_some]
  constructor
  · intro h hm
    have : ∃ r, splitOnce (pc! ':') s = some r := by
      clear h
      induction s with
      | nil => cases hm
      | cons x s ih =>
        unfold splitOnce
        split
        · exact ⟨_, rfl⟩
        · rename_i hx
          rcases List.mem_cons.mp hm with rfl | hm
          · exact absurd rfl hx
          · obtain ⟨r, hr⟩ := ih hm
            exact ⟨_, by rw [hr]; rfl⟩
    obtain ⟨r, hr⟩ := this
    exact h (Py.strip r.1, Py.strip r.2) (by rw [parseHeaderValue, hr]; rfl)
  · intro hn h he
    obtain ⟨a, b, rfl, _⟩ := (header_iff s h).mp he
    exact hn (by simp)

/-- C71: the client has one value for each name that is given: the last one. Missing: it does not send them. -/
theorem C71_last_partial (args : ServerArgs) (headers : List (Str × Str)) :
    ((clientOf args headers).additionalHeaders.map (·.1)).Nodup ∧
    ∀ k v, (k, v) ∈ (clientOf args headers).additionalHeaders ↔ LastValue headers k v := by
  obtain ⟨h1, h2⟩ := dict_from headers [] (by simp)
  refine ⟨h1, fun k v => (h2 k v).trans ?_⟩
  simp

example : ReadsHeader py!"Authorization: Basic a:b" (py!"Authorization", py!"Basic a:b") :=
  ⟨py!"Authorization", py!" Basic a:b", rfl, by decide, by decide +kernel⟩
example : (clientOf { server := [], suite := [] } [(py!"a", py!"1"), (py!"b", py!"2"), (py!"a", py!"3")]).additionalHeaders = [(py!"a", py!"3"), (py!"b", py!"2")] := by
  decide +kernel

/-- C71 fails: no request of any run has the headers that are given. -/
theorem C71_sent_violated (hs : Sound env) (args : ServerArgs) :
    ∀ q ∈ (run env (runApiTest c (availableSuites cfg) args)).2, q.headers = [] ∨ q.headers = [(py!"content-type", py!"application/json")] := by
  intro q hq
  by_cases hx : ∃ headers filter output suite, Valid args headers filter output ∧ Only (services.map (·.1)) args.suite suite
  · obtain ⟨headers, filter, output, suite, h1, h2⟩ := hx
    rw [C59_unique c env cfg h1 suite h2] at hq
    exact (C67_read_only env cfg hs _ rfl _ q hq).headers
  · rw [(C59_otherwise c env cfg args hx).1] at hq
    cases hq

/-! ## C94 -/

/-- C94: a run of `check_server` only reads, only from the given server, and checks certificates unless `--no-verify` is given. -/
theorem C94_requests (hs : Sound env) (args : ServerArgs) :
    ∀ q ∈ (run env (runApiTest c (availableSuites cfg) args)).2, q.method = py!"get" ∧ q.data = none ∧ (q.verify = true ↔ args.noVerify = false) ∧
      ∃ host rest, (args.server = host ++ py!"/" ∨ (args.server = host ∧ ∀ x, args.server ≠ x ++ py!"/")) ∧
        q.url = host ++ rest ∧ (rest = [] ∨ rest.head? = some (pc! '/')) := by
  intro q hq
  by_cases hx : ∃ headers filter output suite, Valid args headers filter output ∧ Only (services.map (·.1)) args.suite suite
  · obtain ⟨headers, filter, output, suite, h1, h2⟩ := hx
    rw [C59_unique c env cfg h1 suite h2] at hq
    have h := C67_read_only env cfg hs _ rfl _ q hq
    obtain ⟨rest, hu, hr⟩ := h.url
    refine ⟨h.method, h.data, ?_, hostOf args.server, rest, ?_, hu, hr⟩
    · rw [h.verify]
      show (!args.noVerify) = true ↔ _
      simp
    · unfold hostOf
      split
      · rename_i he
        left
        obtain ⟨t, ht⟩ := List.isSuffixOf_iff_suffix.mp he
        rw [← ht]; simp
      · rename_i he
        exact .inr ⟨rfl, fun x hx => he (List.isSuffixOf_iff_suffix.mpr ⟨x, hx.symm⟩)⟩
  · rw [(C59_otherwise c env cfg args hx).1] at hq
    cases hq

example : ((run (server []) (runApiTest utf8Console (availableSuites plainCfg) { server := py!"http://h/", suite := py!"ShellRepository" })).2.take 2).map
    (fun q => (q.verify, q.url)) = [(true, py!"http://h"), (true, py!"http://h/shells?limit=1")] := by
  decide +kernel

/-- C94: the options reach the client and the configuration: what is sent is what the suite sends with a client for this server, which checks
certificates unless `--no-verify` is given, removes the prefix of `--remove-path-prefix`, and has the last value of each header. -/
theorem C94_client {args : ServerArgs} {headers : List (Str × Str)} {filter : Option Config.Filter} {output : Output}
    (h : Valid args headers filter output) (suite : Str) (hs : Only (services.map (·.1)) args.suite suite) :
    ∃ (client : Client) (conf : Conf), client.host = args.server ∧ (client.verify = true ↔ args.noVerify = false) ∧ client.prefixes = [] ∧
      (args.removePathPrefix = some client.removePathPrefix ∨ args.removePathPrefix = none ∧ client.removePathPrefix = []) ∧
      (client.additionalHeaders.map (·.1)).Nodup ∧ (∀ k v, (k, v) ∈ client.additionalHeaders ↔ LastValue headers k v) ∧
      conf.suite = suite ∧ (conf.dry = true ↔ args.dry = true) ∧ conf.filter = filter ∧
      (run env (runApiTest c (availableSuites cfg) args)).2 = (run env (executeTests (availableSuites cfg) client conf)).2 := by
  refine ⟨clientOf args headers, confFor args suite filter, rfl, ?_, rfl, ?_, (C71_last_partial args headers).1, (C71_last_partial args headers).2,
    rfl, Iff.rfl, rfl, by rw [C59_unique c env cfg h suite hs]⟩
  · show (!args.noVerify) = true ↔ _
    simp
  · show args.removePathPrefix = some (args.removePathPrefix.getD []) ∨ args.removePathPrefix = none ∧ args.removePathPrefix.getD [] = []
    cases args.removePathPrefix <;> simp

example : ((run (server []) (runApiTest utf8Console (availableSuites plainCfg)
      { server := py!"http://h", suite := py!"ShellRepository", removePathPrefix := some py!"/shells" })).2.take 2).map (fun q => q.url) =
    [py!"http://h", py!"http://h/shells?limit=1"] := by
  decide +kernel

/-- C94: with `--dry` nothing is sent, whatever the other options are. -/
theorem C94_dry (args : ServerArgs) (hd : args.dry = true) : (run env (runApiTest c (availableSuites cfg) args)).2 = [] := by
  by_cases hx : ∃ headers filter output suite, Valid args headers filter output ∧ Only (services.map (·.1)) args.suite suite
  · obtain ⟨headers, filter, output, suite, h1, h2⟩ := hx
    rw [C59_unique c env cfg h1 suite h2]
    rcases run_cases env cfg (clientOf args headers) (confFor args suite filter) with ⟨text, -, h⟩ | ⟨ops, -, h⟩
    · rw [h]
    · rw [h]
      obtain ⟨_, _, _, _, h, -⟩ := C55_dry (env := env) (conf := confFor args suite filter) (client := clientOf args headers) (ops := ops) hd
      rw [h]
  · exact (C59_otherwise c env cfg args hx).1

/-- C94: the content of a JSON file is checked as the given type, `Environment` if none is given; the result is printed, and the exit code is its verdict. -/
theorem C94_json (g : File.Engine Json Xml) (args : FileArgs) (output : Output) (data : Json) (type : Str) (r : Res Str)
    (h1 : ReadsFormat args.format .json) (h2 : ReadsOutput args.output output) (h3 : args.modelType = some type ∨ args.modelType = none ∧ type = py!"Environment")
    (h4 : args.file.content.json = .ok data) (h5 : g.json data type = .ok r) (h6 : Printable c output r) :
    runFileTest c g args = { out := linesOf c output r, ended := .exit (if r.ok then 0 else 1) } := by
  refine C58_printed c g args .json output r h1 h2 ?_ h6
  have ht : args.modelType.getD py!"Environment" = type := by
    rcases h3 with h | ⟨h, rfl⟩ <;> rw [h] <;> rfl
  rw [ht]
  show (File.checkJsonFile g args.file.content type).mapError excOf = _
  unfold File.checkJsonFile
  rw [h4]
  show (g.json data type).mapError excOf = _
  rw [h5]
  rfl

/-- C94: the same for XML. Missing: other types, see below. -/
theorem C94_xml_partial (g : File.Engine Json Xml) (args : FileArgs) (output : Output) (data : Xml) (r : Res Str)
    (h1 : ReadsFormat args.format .xml) (h2 : ReadsOutput args.output output)
    (h4 : args.file.content.xml = .ok data) (h5 : g.xml data py!"Environment" = .ok r) (h6 : Printable c output r) :
    runFileTest c g args = { out := linesOf c output r, ended := .exit (if r.ok then 0 else 1) } := by
  refine C58_printed c g args .xml output r h1 h2 ?_ h6
  show (File.checkXmlFile g args.file.content _).mapError excOf = _
  unfold File.checkXmlFile
  rw [h4]
  show (g.xml data py!"Environment").mapError excOf = _
  rw [h5]
  rfl

/-- C94 fails for XML: the given type has no effect. -/
theorem C94_xml_violated (g : File.Engine Json Xml) (args : FileArgs) (type : Str) (h : ReadsFormat args.format .xml) :
    runFileTest c g { args with modelType := some type } = runFileTest c g args := by
  unfold runFileTest
  dsimp only
  rw [(format_iff _ _).mpr h]
  rfl

/-- C94: packages can only be checked as environments; any other type is refused, whatever the package is. -/
theorem C94_package (g : File.Engine Json Xml) (args : FileArgs) (output : Output) (type : Str) (h1 : ReadsFormat args.format .aasx)
    (h2 : ReadsOutput args.output output) (h3 : args.modelType = some type) (h4 : type ≠ py!"Environment") :
    (runFileTest c g args).out = [] ∧ (runFileTest c g args).ended.code = 1 := by
  have : checkFile g args.file (args.modelType.getD py!"Environment") .aasx = .error ⟨.generic, py!"Cannot set --model_type for --format aasx"⟩ := by
    rw [h3]
    show (if type ≠ py!"Environment" then _ else _) = _
    rw [if_pos h4]
  rw [C58_exception c g args .aasx output _ h1 h2 this]
  exact ⟨rfl, rfl⟩

/-! ## C72 -/

/-- C72: a command is run with its options, and nothing else. Missing: `generate_files` can not succeed. -/
theorem C72_file_partial (p : Parsers) (g : File.Engine Json Xml) (suites : List (Str × List Op)) (rest : List Str) (args : FileArgs) (h : p.file rest = .ok args) :
    run env (main p c g suites (py!"check_file" :: rest)) = (.val (runFileTest c g args), []) := by
  unfold main
  dsimp only
  rw [if_pos rfl, h, Api.run_eq]
  rfl

theorem C72_server (p : Parsers) (g : File.Engine Json Xml) (suites : List (Str × List Op)) (rest : List Str) (args : ServerArgs) (h : p.server rest = .ok args) :
    run env (main p c g suites (py!"check_server" :: rest)) = run env (runApiTest c suites args) := by
  unfold main
  dsimp only
  rw [if_neg (by decide), if_pos rfl, h]

/-- C72: without a command, or with an unknown one, nothing is sent and the exit code is 1. -/
theorem C72_unknown (p : Parsers) (g : File.Engine Json Xml) (suites : List (Str × List Op)) (argv : List Str)
    (h : ∀ command ∈ argv.head?, command ∉ [py!"check_file", py!"check_server", py!"generate_files"]) :
    (run env (main p c g suites argv)).2 = [] ∧ code (run env (main p c g suites argv)) = 1 := by
  unfold main
  cases argv with
  | nil => rw [Api.run_eq]; exact ⟨rfl, rfl⟩
  | cons command rest =>
    have := h command rfl
    simp only [List.mem_cons, List.not_mem_nil, or_false, not_or] at this
    dsimp only
    rw [if_neg this.1, if_neg this.2.1, if_neg this.2.2, Api.run_eq]
    exact ⟨rfl, rfl⟩

/-- C72 fails for `generate_files`: it never succeeds. An existing directory is reported; for a new one there is an exception, since the
function that it calls does not exist. -/
theorem C72_generate_violated (directory : Str) (directoryExists : Bool) :
    (generateFiles directory directoryExists).ended.code = 1 ∧
    (if directoryExists then
      (generateFiles directory directoryExists).ended = .exit 1 ∧
      (generateFiles directory directoryExists).out = [py!"Directory '" ++ directory ++ py!"' already exists, please remove it"]
    else (generateFiles directory directoryExists).ended = .raised (excOf .attributeError) ∧ (generateFiles directory directoryExists).out = []) := by
  cases directoryExists
  · exact ⟨rfl, rfl, rfl⟩
  · exact ⟨rfl, rfl, by simp [generateFiles]⟩

end Verif.Props
