import Verif.Servers
import Verif.Props.SuiteSamples

/-!
# C98: the check of the servers

`bin/check_servers.py` checks every server against every service, at the paths of its repository of shells.
-/

namespace Verif.Spec.Servers
open Verif Verif.Spec.Routes Verif.Spec.Suites Verif.Servers

/-- the operations of a repository of shells -/
def repository : List (Str × List Seg) := (services.headD ([], [])).2

/-- operations of a single shell or submodel, and those of the repository that get it by its id -/
def byId : List (Str × Str) :=
  [(py!"GetAssetAdministrationShell", py!"GetAssetAdministrationShellById"),
   (py!"GetAssetAdministrationShell-Reference", py!"GetAssetAdministrationShellById-Reference"),
   (py!"GetSubmodel", py!"GetSubmodelById"), (py!"GetSubmodel-Metadata", py!"GetSubmodelById-Metadata"),
   (py!"GetSubmodel-ValueOnly", py!"GetSubmodelById-ValueOnly"), (py!"GetSubmodel-Reference", py!"GetSubmodelById-Reference"),
   (py!"GetSubmodel-Path", py!"GetSubmodelById-Path")]

/-- the template with these texts for the first identifiers and arguments -/
def fill : List Str → List Seg → List Seg
  | v :: vs, .id :: rest => .text v :: fill vs rest
  | v :: vs, .value :: rest => .text v :: fill vs rest
  | vs, x :: rest => x :: fill vs rest
  | _, [] => []

/-- the path of an operation in the repository, with these texts for the first identifiers -/
def inRepository (ids : List Str) (operation : Str) : Option (List Seg) :=
  ((repository.find? fun e => e.1 == ((byId.find? fun n => n.1 == operation).map (·.2)).getD operation).map (·.2)).map (fill ids)

/-- The server offers a service for a single shell or submodel below the path of this shell or submodel in its repository: where an operation
of a service is expected. The texts are the identifiers of the shell and of the submodel. -/
def expectedAt (shell submodel : Str) (p : Profile) (e : Str × List Seg) : Option (List Seg) :=
  if p.shortName = py!"aas" then inRepository [shell] e.1
  else if p.shortName = py!"submodel" then inRepository [shell, submodel] e.1
  else some e.2

/-- the request goes to this server and to a path of this form, with or without a query -/
def SentTo (s : Server) (template : List Seg) (q : Http.Sent) : Prop :=
  ∃ path query, Fills template path ∧ (query = [] ∨ query.head? = some (pc! '?')) ∧ q.url = s.url ++ (path ++ query)

/-- these operations have a path of their own in each service -/
def general : List Str := [py!"GetDescription", py!"GenerateSerializationByIds"]

end Verif.Spec.Servers

namespace Verif.Props
open Verif Verif.Spec Verif.Spec.Api Verif.Spec.Suites Verif.Spec.Routes Verif.Http Verif.Servers Verif.Spec.Servers
open Verif.Api hiding sane supported
open Verif.Api.Suites hiding sspPrefix

/-! ## helpers -/

theorem removePrefix_slash {pre x : Str} (h : x.head? = some (pc! '/')) : removePrefix pre (pre ++ x) = x := by
  cases x with
  | nil => cases h
  | cons c x =>
    simp only [List.head?_cons, Option.some.injEq] at h
    subst h
    simp [removePrefix, Py.startsWith]

theorem removePrefix_nil (u : Str) : removePrefix [] u = u := by simp [removePrefix]

/-- the text after the prefix begins with a slash -/
def slashNext (t : Str) (rest : List Seg) : Bool :=
  match t, rest with
  | c :: _, _ => c == pc! '/'
  | [], .text (c :: _) :: _ => c == pc! '/'
  | _, _ => false

theorem slashNext_head {t r : Str} {rest : List Seg} (h : slashNext t rest = true) (hr : Fills rest r) : (t ++ r).head? = some (pc! '/') := by
  unfold slashNext at h
  split at h
  · simpa using h
  · obtain ⟨r', rfl, -⟩ := hr
    simpa using h
  · cases h

def slash (e : Str × List Seg) : List Seg := if e.1 ∈ slashed then [.text py!"/"] else []

/-- for an operation of the table: the template begins with the prefix, and continues as expected -/
def placed (p : Profile) (e : Str × List Seg) (target : List Seg) : Bool :=
  match sentTo e with
  | .text t :: rest =>
    p.discardPrefix.isPrefixOf t && slashNext (t.drop p.discardPrefix.length) rest &&
      (norm (.text p.urlSuffix :: .text (t.drop p.discardPrefix.length) :: rest) == norm (target ++ slash e))
  | _ => false

theorem to_of_placed {p : Profile} {s : Server} {e : Str × List Seg} {target : List Seg} {q : Sent} (hh : hostOf (s.url ++ p.urlSuffix) = s.url ++ p.urlSuffix)
    (h : placed p e target = true) (hq : To (client p s) (sentTo e) q) : SentTo s (target ++ slash e) q := by
  obtain ⟨path, query, hf, hqu, hu⟩ := hq
  unfold placed at h
  split at h
  · rename_i t rest ht
    rw [ht] at hf
    obtain ⟨r, rfl, hr⟩ := hf
    simp only [Bool.and_eq_true, beq_iff_eq] at h
    obtain ⟨⟨h1, h2⟩, h3⟩ := h
    obtain ⟨t1, rfl⟩ := List.isPrefixOf_iff_prefix.mp h1
    rw [List.drop_left] at h2 h3
    refine ⟨p.urlSuffix ++ (t1 ++ r), query, ?_, hqu, ?_⟩
    · rw [← fills_norm, ← h3, fills_norm]
      exact ⟨_, rfl, _, rfl, hr⟩
    · have hs := slashNext_head h2 hr
      rw [hu]
      simp only [client, Client.init]
      rw [hh]
      simp only [List.append_assoc]
      rw [removePrefix_slash]
      · cases hx : t1 ++ r with
        | nil => rw [hx] at hs; cases hs
        | cons c x =>
          rw [← List.append_assoc, hx]
          rw [hx] at hs
          exact hs
  · cases h

theorem entry_mem {cfg : Cfg} {service : Str} {e : Str × List Seg} {op : Op} (h : Entry cfg service e op) :
    ∃ x ∈ services, x.1 = service ∧ e ∈ x.2 := by
  obtain ⟨⟨a, b⟩, hm, rfl, hz⟩ := h
  exact ⟨a, (List.of_mem_zip hm).1, rfl, (List.of_mem_zip hz).1⟩

theorem hosts : ∀ p ∈ profiles, ∀ s ∈ servers, hostOf (s.url ++ p.urlSuffix) = s.url ++ p.urlSuffix := by decide +kernel

/-- the whole table -/
def allPlaced : Bool :=
  profiles.all fun p => services.all fun x => x.1 != p.specName || x.2.all fun e =>
    match expectedAt aasId submodelId p e with
    | some t => (e.1 ∈ general && !p.urlSuffix.isEmpty) || placed p e t
    | none => e.1 ∈ general && !p.urlSuffix.isEmpty

theorem allPlaced_true : allPlaced = true := by decide +kernel

/-- the result of a run that ends -/
def got (w : World) (p : Profile) (s : Server) : Res Str × Mat := match w.run p s with | .ok r => r | .error _ => (Res.new [], Mat.zero)
/-- the cell for a matrix -/
def shown (w : World) (m : Mat) : Str := match w.cell m with | .ok c => c | .error _ => []

theorem checkProfile_spec (w : World) (p : Profile) : ∀ (ss : List Server) (files : List (Str × Str)) (mats : List Mat) {files' : List (Str × Str)} {mats' : List Mat},
    checkProfile w p ss files mats = .ok (files', mats') →
      (∀ s ∈ ss, w.run p s = .ok (got w p s) ∧ w.write (resultFile p s) (w.html (got w p s).1) = .ok ()) ∧ mats' = mats ++ ss.map (fun s => (got w p s).2) ∧
        files' = files ++ ss.map fun s => (resultFile p s, w.html (got w p s).1)
  | [], files, mats, _, _, h => by cases h; simp
  | s :: ss, files, mats, files', mats', h => by
    rw [checkProfile] at h
    cases hr : w.run p s with
    | error e => rw [hr] at h; cases h
    | ok r =>
      rw [hr] at h
      have hg : got w p s = r := by simp [got, hr]
      cases hw : w.write (resultFile p s) (w.html r.1) with
      | error e => simp [bind, Except.bind, hw] at h
      | ok u =>
        simp only [bind, Except.bind, hw] at h
        obtain ⟨h1, h2, h3⟩ := checkProfile_spec w p ss _ _ h
        refine ⟨fun x hx => ?_, by simp [h2, hg], by simp [h3, hg]⟩
        rcases List.mem_cons.mp hx with rfl | hx
        · rw [hg]; exact ⟨hr, hw⟩
        · exact h1 x hx

theorem checkProfile_ok (w : World) (p : Profile) : ∀ (ss : List Server) (files : List (Str × Str)) (mats : List Mat),
    (∀ s ∈ ss, ∃ r m, w.run p s = .ok (r, m) ∧ w.write (resultFile p s) (w.html r) = .ok ()) → ∃ x, checkProfile w p ss files mats = .ok x
  | [], _, _, _ => ⟨_, rfl⟩
  | s :: ss, files, mats, h => by
    obtain ⟨r, m, h1, h2⟩ := h s (by simp)
    rw [checkProfile]
    simp only [bind, Except.bind, h1, h2]
    exact checkProfile_ok w p ss _ _ fun s hs => h s (by simp [hs])

theorem checkProfiles_spec (w : World) (ss : List Server) : ∀ (ps : List Profile) (files : List (Str × Str)) {files' : List (Str × Str)} {all : List (Profile × List Mat)},
    checkProfiles w ss ps files = .ok (files', all) →
      (∀ p ∈ ps, ∀ s ∈ ss, w.run p s = .ok (got w p s) ∧ w.write (resultFile p s) (w.html (got w p s).1) = .ok ()) ∧
        all = ps.map (fun p => (p, ss.map fun s => (got w p s).2)) ∧
        files' = files ++ ps.flatMap fun p => ss.map fun s => (resultFile p s, w.html (got w p s).1)
  | [], files, _, _, h => by cases h; simp
  | p :: ps, files, files', all, h => by
    rw [checkProfiles] at h
    cases h1 : checkProfile w p ss files [] with
    | error e => rw [h1] at h; cases h
    | ok x =>
      obtain ⟨files1, mats⟩ := x
      rw [h1] at h
      cases h2 : checkProfiles w ss ps files1 with
      | error e => simp [bind, Except.bind, h2] at h
      | ok y =>
        obtain ⟨files2, more⟩ := y
        simp only [bind, Except.bind, h2, pure, Except.pure, Except.ok.injEq, Prod.mk.injEq] at h
        obtain ⟨rfl, rfl⟩ := h
        obtain ⟨a1, a2, a3⟩ := checkProfile_spec w p ss _ _ h1
        obtain ⟨b1, b2, b3⟩ := checkProfiles_spec w ss ps _ h2
        refine ⟨fun x hx => ?_, by simp [a2, b2], by simp [a3, b3]⟩
        rcases List.mem_cons.mp hx with rfl | hx
        · exact a1
        · exact b1 x hx

theorem checkProfiles_ok (w : World) (ss : List Server) : ∀ (ps : List Profile) (files : List (Str × Str)),
    (∀ p ∈ ps, ∀ s ∈ ss, ∃ r m, w.run p s = .ok (r, m) ∧ w.write (resultFile p s) (w.html r) = .ok ()) → ∃ x, checkProfiles w ss ps files = .ok x
  | [], _, _ => ⟨_, rfl⟩
  | p :: ps, files, h => by
    obtain ⟨⟨f, m⟩, h1⟩ := checkProfile_ok w p ss files [] (h p (by simp))
    obtain ⟨⟨f', m'⟩, h2⟩ := checkProfiles_ok w ss ps f fun p hp => h p (by simp [hp])
    rw [checkProfiles]
    simp only [bind, Except.bind, h1, h2]
    exact ⟨_, rfl⟩

theorem cells_spec (w : World) (g : Server → Mat) : ∀ (ss : List Server) {cs : List Str},
    cells w ((ss.map g).zip ss) = .ok cs → (∀ s ∈ ss, w.cell (g s) = .ok (shown w (g s))) ∧ cs = ss.map fun s => shown w (g s)
  | [], _, h => by cases h; simp
  | s :: ss, cs, h => by
    rw [List.map_cons, List.zip_cons_cons, cells] at h
    cases h1 : w.cell (g s) with
    | error e => rw [h1] at h; cases h
    | ok c =>
      rw [h1] at h
      cases h2 : cells w ((ss.map g).zip ss) with
      | error e => simp [bind, Except.bind, h2] at h
      | ok cs' =>
        simp only [bind, Except.bind, h2, pure, Except.pure, Except.ok.injEq] at h
        subst h
        obtain ⟨a1, a2⟩ := cells_spec w g ss h2
        have hg : shown w (g s) = c := by simp [shown, h1]
        refine ⟨fun x hx => ?_, by simp [a2, hg]⟩
        rcases List.mem_cons.mp hx with rfl | hx
        · rw [hg]; exact h1
        · exact a1 x hx

theorem cells_ok (w : World) (g : Server → Mat) : ∀ (ss : List Server), (∀ s ∈ ss, ∃ c, w.cell (g s) = .ok c) → ∃ cs, cells w ((ss.map g).zip ss) = .ok cs
  | [], _ => ⟨_, rfl⟩
  | s :: ss, h => by
    obtain ⟨c, h1⟩ := h s (by simp)
    obtain ⟨cs, h2⟩ := cells_ok w g ss fun s hs => h s (by simp [hs])
    rw [List.map_cons, List.zip_cons_cons, cells]
    simp only [bind, Except.bind, h1, h2]
    exact ⟨_, rfl⟩

theorem rows_spec (w : World) (ss : List Server) (g : Profile → Server → Mat) : ∀ (ps : List Profile) {t : List Row},
    rows w ss (ps.map fun p => (p, ss.map (g p))) = .ok t →
      (∀ p ∈ ps, ∀ s ∈ ss, w.cell (g p s) = .ok (shown w (g p s))) ∧ t = ps.map fun p => some (p.shortName :: ss.map fun s => shown w (g p s))
  | [], _, h => by cases h; simp
  | p :: ps, t, h => by
    rw [List.map_cons, rows] at h
    cases h1 : cells w ((ss.map (g p)).zip ss) with
    | error e => rw [h1] at h; cases h
    | ok cs =>
      rw [h1] at h
      cases h2 : rows w ss (ps.map fun p => (p, ss.map (g p))) with
      | error e => simp [bind, Except.bind, h2] at h
      | ok t' =>
        simp only [bind, Except.bind, h2, pure, Except.pure, Except.ok.injEq] at h
        subst h
        obtain ⟨a1, a2⟩ := cells_spec w (g p) ss h1
        obtain ⟨b1, b2⟩ := rows_spec w ss g ps h2
        refine ⟨fun x hx => ?_, by simp [a2, b2]⟩
        rcases List.mem_cons.mp hx with rfl | hx
        · exact a1
        · exact b1 x hx

theorem rows_ok (w : World) (ss : List Server) (g : Profile → Server → Mat) : ∀ (ps : List Profile),
    (∀ p ∈ ps, ∀ s ∈ ss, ∃ c, w.cell (g p s) = .ok c) → ∃ t, rows w ss (ps.map fun p => (p, ss.map (g p))) = .ok t
  | [], _ => ⟨_, rfl⟩
  | p :: ps, h => by
    obtain ⟨c, h1⟩ := cells_ok w (g p) ss (h p (by simp))
    obtain ⟨cs, h2⟩ := rows_ok w ss g ps fun p hp => h p (by simp [hp])
    rw [List.map_cons, rows]
    simp only [bind, Except.bind, h1, h2]
    exact ⟨_, rfl⟩

/-! ## C98 -/

/-- C98: the services that are checked are those of the engine, each once, and each run tests all operations of its service: no run is refused
for its suite or version. -/
theorem C98_services (cfg : Cfg) :
    profiles.map (·.specName) = services.map (·.1) ∧ (profiles.map (·.specName)).Nodup ∧
    ∀ p ∈ profiles, ∀ s ∈ servers, ∃ ops, (p.specName, ops) ∈ availableSuites cfg ∧
      executeTests (availableSuites cfg) (client p s) (conf p) = executeOps (conf p) (client p s) ops := by
  refine ⟨by decide +kernel, by decide +kernel, fun p hp s _ => ?_⟩
  have hp : p ∈ [_, _, _, _] := hp
  simp only [List.mem_cons, List.not_mem_nil, or_false] at hp
  rcases hp with rfl | rfl | rfl | rfl
  · exact ⟨shellRepoOps cfg, .head _, rfl⟩
  · exact ⟨submodelRepoOps cfg, .tail _ (.head _), rfl⟩
  · exact ⟨shellOps cfg, .tail _ (.tail _ (.head _)), rfl⟩
  · exact ⟨submodelOps cfg, .tail _ (.tail _ (.tail _ (.head _))), rfl⟩

/-- C98: if the script ends, every server was checked against every service. There is one page for each pair, no page is overwritten by
another one, and each cell of the table shows the result of its own pair. The script ends iff no run, write or cell raises. -/
theorem C98_report (w : World) :
    (∀ files table, Servers.main w = .ok (files, table) →
      ∃ (res : Profile → Server → Res Str × Mat) (cell : Profile → Server → Str),
        (∀ p ∈ profiles, ∀ s ∈ servers, w.run p s = .ok (res p s) ∧ w.cell (res p s).2 = .ok (cell p s) ∧
          w.write (resultFile p s) (w.html (res p s).1) = .ok ()) ∧
        files = profiles.flatMap (fun p => servers.map fun s => (resultFile p s, w.html (res p s).1)) ∧ (files.map (·.1)).Nodup ∧
        table = some (py!"Profile" :: servers.map (·.name)) :: none :: profiles.map fun p => some (p.shortName :: servers.map (cell p))) ∧
    ((∀ p ∈ profiles, ∀ s ∈ servers, ∃ r m c, w.run p s = .ok (r, m) ∧ w.write (resultFile p s) (w.html r) = .ok () ∧ w.cell m = .ok c) →
      ∃ x, Servers.main w = .ok x) := by
  refine ⟨fun files table h => ?_, fun h => ?_⟩
  · rw [Servers.main] at h
    cases h1 : checkProfiles w servers profiles [] with
    | error e => rw [h1] at h; cases h
    | ok x =>
      obtain ⟨files1, all⟩ := x
      rw [h1] at h
      obtain ⟨a1, rfl, a3⟩ := checkProfiles_spec w servers profiles [] h1
      cases h2 : rows w servers (profiles.map fun p => (p, servers.map fun s => (got w p s).2)) with
      | error e => simp [bind, Except.bind, h2] at h
      | ok t =>
        simp only [bind, Except.bind, h2, pure, Except.pure, Except.ok.injEq, Prod.mk.injEq] at h
        obtain ⟨rfl, rfl⟩ := h
        obtain ⟨b1, rfl⟩ := rows_spec w servers (fun p s => (got w p s).2) profiles h2
        refine ⟨got w, fun p s => shown w (got w p s).2, fun p hp s hs => ⟨(a1 p hp s hs).1, b1 p hp s hs, (a1 p hp s hs).2⟩, by simpa using a3, ?_, rfl⟩
        have hn : (profiles.flatMap fun p => servers.map (resultFile p)).Nodup := by decide +kernel
        rw [a3]
        simpa [List.map_flatMap, Function.comp_def] using hn
  · obtain ⟨⟨files, all⟩, h1⟩ := checkProfiles_ok w servers profiles [] fun p hp s hs => by
      obtain ⟨r, m, c, h1, h2, h3⟩ := h p hp s hs
      exact ⟨r, m, h1, h2⟩
    obtain ⟨a1, rfl, a3⟩ := checkProfiles_spec w servers profiles [] h1
    obtain ⟨t, h2⟩ := rows_ok w servers (fun p s => (got w p s).2) profiles fun p hp s hs => by
      obtain ⟨r, m, c, h1, h2, h3⟩ := h p hp s hs
      exact ⟨c, by rw [show got w p s = (r, m) by simp [got, h1]]; exact h3⟩
    rw [Servers.main]
    simp only [bind, Except.bind, h1, h2]
    exact ⟨_, rfl⟩

/-- C98: the requests of every operation go to the server and to the path of this operation in the repository of shells (or of submodels), for the
shell and the submodel of the test data; apart from `GetDescription` and `GenerateSerializationByIds` below a shell or submodel. Two operations
have a slash at the end (see C69). -/
theorem C98_paths_partial (env : List Sent → Sent → Answer) (cfg : Cfg) (hs : Sound env) {p : Profile} (hp : p ∈ profiles) {s : Server} (hsv : s ∈ servers)
    {e : Str × List Seg} {op : Op} (hop : Entry cfg p.specName e op) (hg : e.1 ∈ general → p.urlSuffix = [])
    (h : List Sent) (c : Client) (st : op.suite.σ) (hu : SetUp env (client p s) op h (c, st)) (h' : List Sent) :
    ∃ template, expectedAt aasId submodelId p e = some template ∧
      ∀ q ∈ sentBy env (execute op.suite c (conf p).suite st) h', SentTo s (if e.1 ∈ slashed then template ++ [.text py!"/"] else template) q := by
  obtain ⟨x, hx, hx1, hx2⟩ := entry_mem hop
  have ha := allPlaced_true
  simp only [allPlaced, List.all_eq_true, Bool.or_eq_true, bne_iff_ne] at ha
  have hg' : ¬ ((decide (e.1 ∈ general) && !p.urlSuffix.isEmpty) = true) := by
    simp only [Bool.and_eq_true, decide_eq_true_eq, Bool.not_eq_true', not_and, Bool.not_eq_false]
    intro h
    simp [hg h]
  rcases ha p hp x hx with h1 | h1
  · exact absurd hx1 h1
  · have h2 := h1 e hx2
    split at h2
    · rename_i t ht
      refine ⟨t, ht, fun q hq => ?_⟩
      have h3 := to_of_placed (hosts p hp s hsv) ((Bool.or_eq_true_iff.mp h2).resolve_left hg') ((C69_paths_partial env cfg hs hop (client p s) rfl h c st hu _ h').2 q hq)
      unfold slash at h3
      split at h3
      · rename_i hsl; rw [if_pos hsl]; exact h3
      · rename_i hsl; rw [if_neg hsl]; simpa using h3
    · exact absurd h2 hg'

/-- the sample server, with the paths of a server of the script -/
def repositoryServer : List Sent → Sent → Answer := fun _ q => reply contents (q.url.drop 21)
def aasProfile : Profile := ⟨py!"aas", sspPrefix ++ py!"AssetAdministrationShellServiceSpecification/SSP-002", py!"/shells/" ++ aasId, py!"/aas"⟩
def javaServer : Server := ⟨py!"basyx_java", py!"http://localhost:8000"⟩
/-- a run of the script -/
def scriptRun (env : List Sent → Sent → Answer) (p : Profile) (s : Server) : Out (Res Str × Mat) × List Sent :=
  run env (executeTests (availableSuites plainCfg) (client p s) (conf p))

/-- C98 fails for two operations: for a single shell, `GetDescription` is requested below the shell, and the setup of
`GenerateSerializationByIds` requests all shells below the shell. -/
theorem C98_paths_violated :
    aasProfile ∈ profiles ∧ javaServer ∈ servers ∧
    sentUrl (scriptRun repositoryServer aasProfile javaServer) (javaServer.url ++ (py!"/shells/" ++ (aasId ++ py!"/description"))) = true ∧
    sentUrl (scriptRun repositoryServer aasProfile javaServer) (javaServer.url ++ py!"/description") = false ∧
    sentUrl (scriptRun repositoryServer aasProfile javaServer) (javaServer.url ++ (py!"/shells/" ++ (aasId ++ py!"/shells?limit=1"))) = true := by
  refine ⟨.tail _ (.tail _ (.head _)), .tail _ (.head _), ?_, ?_, ?_⟩ <;> decide +kernel

/-- C98: the identifier of the submodel is in base64url. -/
theorem C98_ids_partial : EncodedId submodelId :=
  ⟨py!"www.example.com/ids/sm/8132_4102_8042_1861", py!"www.example.com/ids/sm/8132_4102_8042_1861", by decide, by decide,
    ⟨by decide +kernel, 0, by decide, by decide +kernel⟩, by decide +kernel⟩

/-- C98 fails for the identifier of the shell: it ends in padding, which base64url identifiers do not have. Without the padding it is that of the
shell of the test data. So the paths of the services for a single shell or submodel are no paths of the repository. -/
theorem C98_ids_violated :
    ¬ EncodedId aasId ∧ EncodedId (aasId.take 58) ∧ aasId = aasId.take 58 ++ py!"==" ∧
    (∀ p ∈ profiles, p.shortName = py!"aas" → ¬ Fills [.text py!"/shells/", .id] p.urlSuffix) ∧
    (∀ p ∈ profiles, p.shortName = py!"submodel" → ¬ Fills [.text py!"/shells/", .id, .text py!"/submodels/", .id] p.urlSuffix) := by
  have hc : ∀ c ∈ aasId, c = pc! '=' → c ∉ base64url := by decide +kernel
  have hm : pc! '=' ∈ aasId := by decide +kernel
  have hn : ¬ EncodedId aasId := fun ⟨_, _, _, _, hb, _⟩ => hc _ hm rfl (hb.1 _ hm)
  refine ⟨hn, ⟨py!"www.example.com/ids/aas/8132_4102_8042_7561", py!"www.example.com/ids/aas/8132_4102_8042_7561", by decide, by decide,
    ⟨by decide +kernel, 4, by decide, by decide +kernel⟩, by decide +kernel⟩, by decide +kernel, ?_, ?_⟩
  · intro p hp hn'
    have hp : p ∈ [_, _, _, _] := hp
    simp only [List.mem_cons, List.not_mem_nil, or_false] at hp
    rcases hp with rfl | rfl | rfl | rfl
    · exact absurd hn' (by decide)
    · exact absurd hn' (by decide)
    · rintro ⟨r, h1, v, r', h2, h3, h4⟩
      rw [show r' = [] from h4, List.append_nil] at h2
      rw [← h2, ← List.append_cancel_left h1] at h3
      exact hn h3
    · exact absurd hn' (by decide)
  · intro p hp hn'
    have hp : p ∈ [_, _, _, _] := hp
    simp only [List.mem_cons, List.not_mem_nil, or_false] at hp
    rcases hp with rfl | rfl | rfl | rfl
    · exact absurd hn' (by decide)
    · exact absurd hn' (by decide)
    · exact absurd hn' (by decide)
    · rintro ⟨r, h1, v, r', h2, ⟨_, _, _, _, hb, _⟩, r'', h4, -⟩
      have h5 : aasId ++ (py!"/submodels/" ++ submodelId) = v ++ (py!"/submodels/" ++ r'') := by
        rw [← h4, ← h2]; exact List.append_cancel_left h1
      -- no slash and no `=` in `v`: it ends before the padding, but then comes a slash
      have key : ∀ (a b : Str) (t t' : Str), (∀ c ∈ a, c ∈ base64url) → a ++ pc! '=' :: t = b ++ pc! '/' :: t' → (∀ c ∈ b, c ∈ base64url) → False := by
        intro a
        induction a with
        | nil =>
          intro b t t' _ h hb
          cases b with
          | nil => cases h
          | cons c b =>
            simp only [List.nil_append, List.cons_append, List.cons.injEq] at h
            exact absurd (hb c (by simp)) (by rw [← h.1]; decide)
        | cons c a ih =>
          intro b t t' ha h hb
          cases b with
          | nil =>
            simp only [List.nil_append, List.cons_append, List.cons.injEq] at h
            exact absurd (ha c (by simp)) (by rw [h.1]; decide)
          | cons d b =>
            simp only [List.cons_append, List.cons.injEq] at h
            exact ih b t t' (fun c hc => ha c (by simp [hc])) h.2 fun c hc => hb c (by simp [hc])
      refine key (aasId.take 58) v (pc! '=' :: (py!"/submodels/" ++ submodelId)) (py!"submodels/" ++ r'') (by decide +kernel) ?_ hb.1
      exact h5

/-! ## concrete cases -/

/-- a world in which all runs pass: the report is complete -/
example : ∃ files table, Servers.main ⟨fun _ _ => .ok (Res.new py!"r", ⟨1, 0, 0, 0⟩), fun _ => py!"<html>", fun _ _ => .ok (), fun _ => .ok py!"100%"⟩ = .ok (files, table) ∧
    files.length = 16 ∧ table.length = 6 ∧ table[2]? = some (some [py!"aas-repo", py!"100%", py!"100%", py!"100%", py!"100%"]) :=
  ⟨_, _, rfl, rfl, rfl, rfl⟩
/-- an operation on a single shell goes to the shell in the repository -/
example : expectedAt aasId submodelId aasProfile (py!"GetAssetInformation", [.text py!"/aas", .text py!"/asset-information"]) =
    some [.text py!"/shells/", .text aasId, .text py!"/asset-information"] := by decide +kernel
example : sentUrl (scriptRun repositoryServer aasProfile javaServer) (javaServer.url ++ (py!"/shells/" ++ (aasId ++ py!"/asset-information"))) = true := by
  decide +kernel

end Verif.Props
