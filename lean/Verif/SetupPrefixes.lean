import Verif.SetupElements

/-! # Which ids the prefixes of the paths contain -/

namespace Verif.Api.Suites
open Verif Verif.Parse Verif.Aas Verif.Spec Verif.Spec.Parse Verif.Spec.Api Verif.Spec.Suites Verif.Spec.Routes Verif.Spec.Generate Verif.Generate Verif.Http Verif.Props
open Verif.Api hiding sane supported

variable {env : List Sent → Sent → Answer} {lim : Option Nat} {text : Note → Str}

theorem encoded_id {s : Str} (h : IdOk s) : ∃ t, (ArgVal.sfv true s).pyStr = .ok t ∧ Encodes s t ∧ encoded s = .ok t := by
  obtain ⟨t, ht, -⟩ := encode_ok h
  have hcp : CodePoints s := fun c hc => by
    have := (xml_iff s).mp h.1 c hc
    unfold XmlChar at this
    omega
  exact ⟨t, ht, encodes_of hcp ht, by unfold encoded; rw [base64String_ok h.1]; exact ht⟩

theorem sends_top {client : Client} (h : client.prefixes = []) {c : Call} {kw : Kwargs} {q : Sent} (hq : SendsWith client c kw q) : SendsWith (client.descend []) c kw q := by
  obtain ⟨hro, r, hd, h1, h2⟩ := hq
  refine ⟨?_, r, hd, h1, ?_⟩
  · exact ⟨hro.method, hro.data, hro.verify, hro.url, hro.headers⟩
  · rw [← h2]
    unfold Client.send
    simp [Client.descend, Client.init, h]

theorem constPrefix_plan {p : Str} {base : List Seg} (hp : Slash p) (hf : Fills base p) (hn : noIds base = true) : PrefixPlan env lim base [] fun _ => .pure p :=
  fun _ _ h => ⟨[], _, .done, by simp [meaning], (fun _ h => by cases h), fun ids hi => by
    cases hi
    exact ⟨p, [], rfl, trivial, hp, by rw [put_noIds _ hn]; exact hf⟩⟩

theorem noPrefix_plan : PrefixPlan env lim [] [] noPrefix := constPrefix_plan (.inl rfl) rfl rfl
theorem aasPrefix_plan : PrefixPlan env lim [.text py!"/aas"] [] aasPrefix := constPrefix_plan (.inr rfl) ⟨[], rfl, rfl⟩ rfl
theorem submodelPrefix_plan : PrefixPlan env lim [.text py!"/submodel"] [] submodelPrefix := constPrefix_plan (.inr rfl) ⟨[], rfl, rfl⟩ rfl

theorem askPrefix_plan (hs : Sound env) {base : List Seg} {pre : Client → ApiM Str} {c : Call} (hc : callOk c = true) {a : Ask} (hm : c.mode = .decode a.type) {kw : Kwargs}
    (hf : Fits c kw) (hq : asks c kw = some a.params) (ha : asciiParams a.params = true) (hp : norm a.path = norm (segs c.route.path))
    {f : RVal → Except PyExc Str} (hset : ∀ client, pre client = (c.success ⟨lim, text⟩ client kw).bind fun v => lift (f v))
    (hok : ∀ v x, HasType (respSchema lim) a.type v → f v = .ok x → ∃ ids, a.finds v ids ∧ ∃ vs, Encoded ids vs ∧ Slash x ∧ Fills (put vs base) x)
    (hno : ∀ v e, HasType (respSchema lim) a.type v → f v = .error e → a.lacks v e) : PrefixPlan env lim base [a] pre := by
  intro client hcl h
  have hat : ∀ q, SendsWith client c kw q → At client (put [] a.path) a.params q := fun q hq' => by
    refine At.congr (fun p hp' => ?_) (asks_base (base := []) rfl (sends_top hcl hq') hq (ascii_params ha))
    rw [put_nil]
    rw [List.nil_append, ← fills_norm, ← hp, fills_norm] at hp'
    exact hp'
  have hr : Rooted client := by unfold Rooted; rw [hcl]; exact .inl rfl
  obtain ⟨qs, o, h1, h2, h3, h4⟩ := ask_plan (text := text) (ids := []) (vs := []) (R := fun x ids => ∃ vs, Encoded ids vs ∧ Slash x ∧ Fills (put vs base) x) hs (sane_of hc) hm hf hr
    trivial hat (fun v _ => does_lift (f v)) hok hno h
  rw [hset]
  refine ⟨qs, o, h1, h2, h3, fun ids' ho => ?_⟩
  obtain ⟨new, x, rfl, hx, vs, hv⟩ := h4 ids' ho
  exact ⟨x, vs, hx, hv⟩

theorem fills_one {t v : Str} : Fills [.text t, .text v] (t ++ v) := ⟨v, rfl, [], by simp, rfl⟩

theorem aasSubmodelPrefix_plan (hs : Sound env) : PrefixPlan env lim [.text py!"/aas/submodels/", .id]
    [{ path := [.text py!"/"], params := [], type := obj .assetAdministrationShell, finds := fun x ids => ∃ s, FirstSubmodel x s ∧ ids = [s],
       lacks := noSubmodels }] (aasSubmodelPrefix ⟨lim, text⟩) := by
  refine askPrefix_plan (text := text) hs (c := getShell) rfl rfl (kw := []) ⟨rfl, fun _ h => by cases h⟩ rfl rfl rfl (fun _ => rfl) (fun v x hv hx => ?_) fun v e hv he => ?_
  · obtain ⟨a, rfl, ha⟩ := model_obj (c := .assetAdministrationShell) rfl hv
    obtain ⟨i, hi, hx⟩ := bind_ok.mp hx
    obtain ⟨h1, h2⟩ := (shell_submodel ha).2 i hi
    obtain ⟨t, -, he, ht⟩ := encoded_id h2
    rw [ht] at hx
    cases hx
    exact ⟨_, ⟨i, h1, rfl⟩, [t], ⟨he, trivial⟩, .inr rfl, fills_one⟩
  · obtain ⟨a, rfl, ha⟩ := model_obj (c := .assetAdministrationShell) rfl hv
    cases hi : firstSubmodel (embVal a) with
    | error e' => rw [hi] at he; cases he; exact (shell_submodel ha).1 _ hi
    | ok i =>
      obtain ⟨t, -, -, ht⟩ := encoded_id ((shell_submodel ha).2 i hi).2
      rw [hi] at he
      simp only [bind, Except.bind, ht] at he
      cases he

theorem listPrefix_plan (hs : Sound env) {c : Call} {p : Page} {d : Cls} (hc : callOk c = true) (hm : c.mode = .decode (pageTy p)) (hf : fits c limit1 = true)
    (hq : asks c limit1 = some [(py!"limit", py!"1")]) {path : List Seg} (hpath : norm path = norm (segs c.route.path))
    (hp : p.item = modelTy d) (hd : isAbstract d = false) (hi : slotOf d .id = some (.attr py!"id" (.sfv .identifierString) true))
    {pre : Str} (hpre : pre.head? = some (pc! '/')) :
    PrefixPlan env lim [.text pre, .id] [firstEntry path p theId] fun client => (c.success ⟨lim, text⟩ client limit1).bind fun page => lift (do
      let i ← firstId page
      let s ← encoded i
      return pre ++ s) := by
  refine askPrefix_plan (text := text) (a := firstEntry path p theId) hs hc hm ⟨hf, enc_limit1⟩ hq (show asciiParams [(py!"limit", py!"1")] = true by decide) hpath (fun _ => rfl)
    (fun v x hv hx => ?_) fun v e hv he => ?_
  · obtain ⟨i, h1, hx⟩ := bind_ok.mp hx
    obtain ⟨t, -, he, ht⟩ := encoded_id ((firstId_ok hp hd hi hv).1 i h1)
    rw [ht] at hx
    cases hx
    obtain ⟨y, l, h2, h3⟩ := firstId_iff.mp h1
    refine ⟨[i], ⟨y, l, h2, i, h3, rfl⟩, [t], ⟨he, trivial⟩, .inr ?_, fills_one⟩
    cases pre with
    | nil => cases hpre
    | cons c pre => exact hpre
  · cases h1 : firstId v with
    | error e' =>
      rw [h1] at he
      cases he
      obtain rfl := (firstId_ok hp hd hi hv).2 _ h1
      obtain ⟨l, h2, h3, h4⟩ := entries_typed hv
      cases l with
      | nil => exact .inl ⟨h2, rfl⟩
      | cons y l =>
        exfalso
        obtain ⟨a, rfl, ha⟩ := model_obj (c := d) hd (hp ▸ h4 y List.mem_cons_self)
        obtain ⟨t, ht, -⟩ := id_ok hi ha
        unfold firstId at h1
        rw [h3] at h1
        simp [rfirst, bind, Except.bind, ht] at h1
    | ok i =>
      obtain ⟨t, -, -, ht⟩ := encoded_id ((firstId_ok hp hd hi hv).1 i h1)
      rw [h1] at he
      simp only [bind, Except.bind, ht] at he
      cases he

theorem aasRepoPrefix_plan (hs : Sound env) : PrefixPlan env lim [.text py!"/shells/", .id] [firstEntry [.text py!"/shells"] .shells theId] (aasRepoPrefix ⟨lim, text⟩) :=
  listPrefix_plan hs (c := getAllShells) (p := .shells) (d := .assetAdministrationShell) rfl rfl rfl rfl rfl rfl rfl rfl rfl

theorem submodelRepoSubmodelPrefix_plan (hs : Sound env) :
    PrefixPlan env lim [.text py!"/submodels/", .id] [firstEntry [.text py!"/submodels"] .submodels theId] (submodelRepoSubmodelPrefix ⟨lim, text⟩) :=
  listPrefix_plan hs (c := getAllSubmodels) (p := .submodels) (d := .submodel) rfl rfl rfl rfl rfl rfl rfl rfl rfl

theorem aasRepoSubmodelPrefix_plan (hs : Sound env) : PrefixPlan env lim [.text py!"/shells/", .id, .text py!"/submodels/", .id]
    [firstEntry [.text py!"/shells"] .shells (fun x ids => ∃ i s, HasId x i ∧ FirstSubmodel x s ∧ ids = [i, s]) noSubmodels] (aasRepoSubmodelPrefix ⟨lim, text⟩) := by
  refine askPrefix_plan (text := text) (a := firstEntry [.text py!"/shells"] .shells (fun x ids => ∃ i s, HasId x i ∧ FirstSubmodel x s ∧ ids = [i, s]) noSubmodels)
    hs (c := getAllShells) rfl rfl ⟨rfl, enc_limit1⟩ rfl (show asciiParams [(py!"limit", py!"1")] = true by decide) rfl (fun _ => rfl)
    (fun v x hv hx => ?_) fun v e hv he => ?_
  · obtain ⟨l, h2, h3, h4⟩ := entries_typed hv
    rw [h3] at hx
    cases l with
    | nil => cases hx
    | cons y l =>
      obtain ⟨a, rfl, ha⟩ := model_obj (c := .assetAdministrationShell) rfl (h4 y List.mem_cons_self)
      obtain ⟨i, hi, hio⟩ := shell_id ha
      obtain ⟨t, ht, hte, -⟩ := encoded_id hio
      cases h1 : firstSubmodel (embVal a) with
      | error e' =>
        simp only [rfirst, bind, Except.bind, hi, base64String_ok hio.1, h1] at hx
        cases hx
      | ok s =>
        obtain ⟨h5, h6⟩ := (shell_submodel ha).2 s h1
        obtain ⟨u, hu, hue, -⟩ := encoded_id h6
        simp only [rfirst, bind, Except.bind, hi, base64String_ok hio.1, h1, base64String_ok h6.1, ht, hu] at hx
        cases hx
        exact ⟨[i, s], ⟨_, l, h2, i, s, idOf_iff.mp hi, h5, rfl⟩, [t, u], ⟨hte, hue, trivial⟩, .inr rfl, fills_text ⟨_, rfl, fills_text ⟨[], by simp, rfl⟩⟩⟩
  · obtain ⟨l, h2, h3, h4⟩ := entries_typed hv
    rw [h3] at he
    cases l with
    | nil => cases he; exact .inl ⟨h2, rfl⟩
    | cons y l =>
      obtain ⟨a, rfl, ha⟩ := model_obj (c := .assetAdministrationShell) rfl (h4 y List.mem_cons_self)
      obtain ⟨i, hi, hio⟩ := shell_id ha
      obtain ⟨t, ht, hte, -⟩ := encoded_id hio
      cases h1 : firstSubmodel (embVal a) with
      | error e' =>
        simp only [rfirst, bind, Except.bind, hi, base64String_ok hio.1, h1] at he
        cases he
        exact .inr ⟨_, l, h2, (shell_submodel ha).1 _ h1⟩
      | ok s =>
        obtain ⟨h5, h6⟩ := (shell_submodel ha).2 s h1
        obtain ⟨u, hu, hue, -⟩ := encoded_id h6
        simp only [rfirst, bind, Except.bind, hi, base64String_ok hio.1, h1, base64String_ok h6.1, ht, hu] at he
        cases he

end Verif.Api.Suites
