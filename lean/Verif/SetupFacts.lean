import Verif.SetupLemmas

/-! # Facts about the setups of the suites -/

namespace Verif.Api.Suites
open Verif Verif.Parse Verif.Aas Verif.Spec Verif.Spec.Parse Verif.Spec.Api Verif.Spec.Suites Verif.Spec.Routes Verif.Spec.Generate Verif.Generate Verif.Http Verif.Props
open Verif.Api hiding sane supported

variable {env : List Sent → Sent → Answer} {lim : Option Nat} {text : Note → Str}

/-- the setup of a suite below `base` sends these requests -/
def SuitePlan (env : List Sent → Sent → Answer) (lim : Option Nat) (base : List Seg) (own : List Ask) (suite : Suite) : Prop :=
  ∀ client pre ids vs, Slash pre → Encoded ids vs → Fills (put vs base) pre → ∀ h, ∃ qs o, Follows env lim client own ids h qs o ∧
    (meaning env (suite.setup (client.descend pre)) true h).hist = h ++ qs ∧ EndsAs o (meaning env (suite.setup (client.descend pre)) true h) ∧
    ∀ ids', o = .ready ids' → ids' = ids

/-- the prefix is of this form, after these requests -/
def PrefixPlan (env : List Sent → Sent → Answer) (lim : Option Nat) (base : List Seg) (asked : List Ask) (pre : Client → ApiM Str) : Prop :=
  ∀ client, client.prefixes = [] → ∀ h, ∃ qs o, Follows env lim client asked [] h qs o ∧ (meaning env (pre client) true h).hist = h ++ qs ∧
    EndsAs o (meaning env (pre client) true h) ∧
    ∀ ids, o = .ready ids → ∃ p vs, (meaning env (pre client) true h).out = .val p ∧ Encoded ids vs ∧ Slash p ∧ Fills (put vs base) p

/-! ## suites -/

theorem no_plan {base : List Seg} {suite : Suite} (st : suite.σ) (h : ∀ client, suite.setup client = .pure st) : SuitePlan env lim base [] suite :=
  fun client pre ids vs _ _ _ hist => ⟨[], _, .done, by rw [h]; simp [meaning], by rw [h]; exact (fun _ h => by cases h), fun _ h => by cases h; rfl⟩

/-- a setup with one request -/
theorem one_plan (hs : Sound env) {base : List Seg} {suite : Suite} {c : Call} (hc : callOk c = true) {a : Ask} (hm : c.mode = .decode a.type) {kw : Kwargs}
    (hf : Fits c kw) (hq : asks c kw = some a.params) (ha : asciiParams a.params = true) (hp : norm a.path = norm (base ++ segs c.route.path))
    {k : RVal → ApiM suite.σ} (hset : ∀ client, suite.setup client = (c.success ⟨lim, text⟩ client kw).bind k) {f : RVal → Except PyExc suite.σ}
    (hk : ∀ v, HasType (respSchema lim) a.type v → Does env (k v) (f v))
    (hok : ∀ v x, HasType (respSchema lim) a.type v → f v = .ok x → a.finds v [])
    (hno : ∀ v e, HasType (respSchema lim) a.type v → f v = .error e → a.lacks v e) : SuitePlan env lim base [a] suite := by
  intro client pre ids vs hsl he hfill h
  have hat : ∀ q, SendsWith (client.descend pre) c kw q → At client (put vs a.path) a.params q := fun q hq' => by
    refine At.congr (fun p hp' => ?_) (asks_base hfill hq' hq (ascii_params ha))
    rw [← put_append vs base (segs_noIds _), ← fills_norm, ← put_congr vs hp, fills_norm] at hp'
    exact hp'
  obtain ⟨qs, o, h1, h2, h3, h4⟩ := ask_plan (text := text) (R := fun _ new => new = []) hs (sane_of hc) hm hf (rooted_descend (client := client) hsl) he hat hk
    (fun v x ht hx => ⟨[], hok v x ht hx, rfl⟩) hno h
  rw [hset]
  refine ⟨qs, o, h1, h2, h3, fun ids' ho => ?_⟩
  obtain ⟨new, x, rfl, -, rfl⟩ := h4 ids' ho
  simp

theorem entries_typed {p : Page} {v : RVal} (h : HasType (respSchema lim) (pageTy p) v) : ∃ l, Entries v l ∧ firstResult v = rfirst (.list l) ∧
    ∀ x ∈ l, HasType (respSchema lim) p.item x := by
  obtain ⟨cur, l, rfl, -, hl⟩ := page_shape h
  exact ⟨l, ⟨_, _, rfl, rfl⟩, rfl, hl⟩

theorem paged_plan (hs : Sound env) {base : List Seg} {c : Call} (hc : callOk c = true) {p : Page} (hm : c.mode = .decode (pageTy p)) (hf : fits c limit1 = true)
    (hq : asks c limit1 = some [(py!"limit", py!"1")]) {path : List Seg} (hp : norm path = norm (base ++ segs c.route.path))
    {operation : Str} {call : Call} {tests : List (Test RVal)} :
    SuitePlan env lim base [cursorAsk path p] (pagedSuite ⟨lim, text⟩ operation call c tests) := by
  refine one_plan (text := text) (a := cursorAsk path p) hs hc hm ⟨hf, enc_limit1⟩ hq (show asciiParams [(py!"limit", py!"1")] = true by decide) hp (fun _ => rfl) (fun v _ => does_lift _) (fun _ _ _ _ => rfl) fun v e hv he => ?_
  obtain ⟨cur, l, rfl, -, -⟩ := page_shape (p := p) hv
  cases he

/-- a setup that asks for one entry, and uses the first -/
theorem first_plan (hs : Sound env) {base : List Seg} {suite : Suite} {c : Call} (hc : callOk c = true) {p : Page} (hm : c.mode = .decode (pageTy p)) (hf : fits c limit1 = true)
    (hq : asks c limit1 = some [(py!"limit", py!"1")]) {path : List Seg} (hp : norm path = norm (base ++ segs c.route.path))
    {k : RVal → ApiM suite.σ} (hset : ∀ client, suite.setup client = (c.success ⟨lim, text⟩ client limit1).bind k)
    {g : RVal → RVal → Except PyExc suite.σ} (hk : ∀ v, Does env (k v) (firstResult v >>= g v))
    {finds : RVal → List Str → Prop} {lacks : RVal → PyExc → Prop} (hok : ∀ v x s, HasType (respSchema lim) (pageTy p) v → HasType (respSchema lim) p.item x → g v x = .ok s → finds x [])
    (hno : ∀ v x e, HasType (respSchema lim) (pageTy p) v → HasType (respSchema lim) p.item x → g v x = .error e → lacks x e) :
    SuitePlan env lim base [firstEntry path p finds lacks] suite := by
  refine one_plan (text := text) (a := firstEntry path p finds lacks) hs hc hm ⟨hf, enc_limit1⟩ hq (show asciiParams [(py!"limit", py!"1")] = true by decide) hp hset (fun v _ => hk v) ?_ ?_
  · intro v s hv hx
    obtain ⟨l, h1, h2, h3⟩ := entries_typed hv
    rw [h2] at hx
    cases l with
    | nil => cases hx
    | cons x l => exact ⟨x, l, h1, hok v x s hv (h3 x List.mem_cons_self) hx⟩
  · intro v e hv hx
    obtain ⟨l, h1, h2, h3⟩ := entries_typed hv
    rw [h2] at hx
    cases l with
    | nil => cases hx; exact .inl ⟨h1, rfl⟩
    | cons x l => exact .inr ⟨x, l, h1, hno v x e hv (h3 x List.mem_cons_self) hx⟩

theorem getAllSubmodelReferences_plan (hs : Sound env) {base : List Seg} :
    SuitePlan env lim base [cursorAsk (base ++ [.text py!"/submodel-refs"]) .submodelRefs] (getAllSubmodelReferencesSuite ⟨lim, text⟩) :=
  paged_plan hs (c := getAllSubmodelReferences) rfl rfl rfl rfl rfl

theorem getAllSubmodelElements_plan (hs : Sound env) {base : List Seg} :
    SuitePlan env lim base [cursorAsk (base ++ [.text py!"/submodel-elements"]) .elements] (getAllSubmodelElementsSuite ⟨lim, text⟩) :=
  paged_plan hs (c := getAllSubmodelElements) rfl rfl rfl rfl rfl

theorem getAllSubmodelElementsMeta_plan (hs : Sound env) {base : List Seg} :
    SuitePlan env lim base [cursorAsk (base ++ [.text py!"/submodel-elements/$metadata"]) .elements] (getAllSubmodelElementsMetaSuite ⟨lim, text⟩) :=
  paged_plan hs (c := getAllSubmodelElementsMeta) rfl rfl rfl rfl rfl

theorem getAllSubmodelElementsValue_plan (hs : Sound env) {base : List Seg} :
    SuitePlan env lim base [cursorAsk (base ++ [.text py!"/submodel-elements/$value"]) .elementValues] (getAllSubmodelElementsValueSuite ⟨lim, text⟩) :=
  paged_plan hs (c := getAllSubmodelElementsValue) rfl rfl rfl rfl rfl

theorem getAllSubmodelElementsPath_plan (hs : Sound env) {base : List Seg} :
    SuitePlan env lim base [cursorAsk (base ++ [.text py!"/submodel-elements/$path"]) .elementPaths] (getAllSubmodelElementsPathSuite ⟨lim, text⟩) :=
  paged_plan hs (c := getAllSubmodelElementsPath) rfl rfl rfl rfl rfl

theorem allSubmodels_plan (hs : Sound env) {operation : Str} {call : Call} {line : Nat} :
    SuitePlan env lim [] [cursorAsk [.text py!"/submodels"] .submodels] (allSubmodelsSuite ⟨lim, text⟩ operation call line) :=
  paged_plan hs (c := getAllSubmodels) rfl rfl rfl rfl rfl

theorem shellById_plan (hs : Sound env) {operation : Str} {call : Call} {test : Test Str} :
    SuitePlan env lim [] [firstEntry [.text py!"/shells"] .shells] (shellByIdSuite ⟨lim, text⟩ operation call test) := by
  refine first_plan (text := text) (suite := shellByIdSuite ⟨lim, text⟩ operation call test) hs (c := getAllShells) rfl rfl rfl rfl rfl (fun _ => rfl)
    (g := fun _ x => idOf x) (fun v => does_lift _) (fun _ _ _ _ _ _ => rfl) fun v x e _ hx he => ?_
  obtain ⟨a, rfl, ha⟩ := model_obj (c := .assetAdministrationShell) rfl hx
  obtain ⟨i, hi, -⟩ := shell_id ha
  rw [hi] at he; cases he

theorem shell_submodel {a : AVal} (ha : Obj lim .assetAdministrationShell a) :
    (∀ e, firstSubmodel (embVal a) = .error e → HasAttr (embVal a) (.model .submodels) .none ∧ e = .typeError) ∧
    ∀ t, firstSubmodel (embVal a) = .ok t → FirstSubmodel (embVal a) t ∧ IdOk t := by
  refine ⟨fun e he => ?_, fun t ht => ⟨firstSubmodel_iff.mp ht, ?_⟩⟩
  · rcases ha.list? (f := .submodels) (key := py!"submodels") (ty := .cls .reference) rfl with ⟨h, -⟩ | ⟨h, -, hne, hl⟩
    · refine ⟨hasAttr_iff.mpr (rattr_emb h), ?_⟩
      rcases firstSubmodel_ok ha with h' | ⟨t, h', -⟩
      · rw [h'] at he; cases he; rfl
      · rw [h'] at he; cases he
    · exfalso
      rcases firstSubmodel_ok ha with h' | ⟨t, h', -⟩
      · unfold firstSubmodel at h'
        rw [rattr_emb h] at h'
        cases hx : Model.elems a .submodels with
        | nil => exact hne hx
        | cons r rest =>
          obtain ⟨t, ht, -⟩ := key_ok (obj_of_concrete (lim := lim) (c := .reference) rfl (hl r (by rw [hx]; exact List.mem_cons_self)))
          rw [hx] at h'
          simp [embVal, embVals, bind, Except.bind, rfirst, ht] at h'
      · rw [h'] at he; cases he
  · rcases firstSubmodel_ok ha with h' | ⟨t', h', hi⟩
    · rw [h'] at ht; cases ht
    · rw [h'] at ht; cases ht; exact hi

theorem generateSerialization_plan (hs : Sound env) {base path : List Seg} (hp : norm path = norm (base ++ [.text py!"/shells"])) :
    SuitePlan env lim base [firstEntry path .shells (fun x ids => ids = [] ∧ ∃ s, FirstSubmodel x s) noSubmodels] (generateSerializationSuite ⟨lim, text⟩) := by
  refine first_plan (text := text) (suite := generateSerializationSuite ⟨lim, text⟩) hs (c := getAllShells) rfl rfl rfl rfl hp (fun _ => rfl)
    (g := fun _ shell => do
      let i ← idOf shell
      let validId ← base64String i
      let s ← firstSubmodel shell
      let validSubmodId ← base64String s
      return (validId, validSubmodId)) (fun v => does_lift _) (fun v x s _ hx he => ?_) fun v x e _ hx he => ?_
  · obtain ⟨_, -, he⟩ := bind_ok.mp he
    obtain ⟨_, -, he⟩ := bind_ok.mp he
    obtain ⟨t, h, -⟩ := bind_ok.mp he
    exact ⟨rfl, t, firstSubmodel_iff.mp h⟩
  · obtain ⟨a, rfl, ha⟩ := model_obj (c := .assetAdministrationShell) rfl hx
    obtain ⟨i, hi, hio⟩ := shell_id ha
    obtain ⟨h1, h2⟩ := shell_submodel ha
    simp only [bind, Except.bind, hi, base64String_ok hio.1] at he
    cases hf : firstSubmodel (embVal a) with
    | error e' =>
      rw [hf] at he
      cases he
      exact h1 _ hf
    | ok t =>
      simp only [hf, base64String_ok (h2 t hf).2.1] at he
      cases he

/-- the setups of the suites that get a submodel by its id -/
theorem fromAas_plan (hs : Sound env) {base : List Seg} {operation : Str} {call : Call} {line : Nat} {found : Option ((RVal → Except PyExc Str) × Str)} :
    SuitePlan env lim base [firstEntry (base ++ [.text py!"/submodel-refs"]) .submodelRefs] (submodelByIdSuite ⟨lim, text⟩ .aas operation call line found) := by
  refine first_plan (text := text) (suite := submodelByIdSuite ⟨lim, text⟩ .aas operation call line found) hs (c := getAllSubmodelReferences) rfl rfl rfl rfl rfl (fun _ => rfl)
    (g := fun _ x => do
      let i ← firstKey x
      let _ ← base64String i
      return i) (fun v => ?_) (fun _ _ _ _ _ _ => rfl) fun v x e _ hx he => ?_
  · have := does_bind (env := env) (does_lift (do let r ← firstResult v; firstKey r)) (k := fun i => (lift (base64String i)).bind fun _ => .pure i)
      (f := fun i => do let _ ← base64String i; return i) fun i _ => does_bind (does_lift _) fun _ _ => does_pure i
    rwa [show (do let r ← firstResult v; firstKey r) >>= (fun i => do let _ ← base64String i; return i) = (firstResult v >>= fun x => do
      let i ← firstKey x
      let _ ← base64String i
      return i) by cases firstResult v <;> rfl] at this
  · obtain ⟨a, rfl, ha⟩ := model_obj (c := .reference) rfl hx
    obtain ⟨t, ht, hi⟩ := key_ok ha
    simp only [bind, Except.bind, ht, base64String_ok hi.1] at he
    cases he

theorem fromSubmodel_plan (hs : Sound env) {operation : Str} {call : Call} {line : Nat} {found : Option ((RVal → Except PyExc Str) × Str)} :
    SuitePlan env lim [] [firstEntry [.text py!"/submodels"] .submodels] (submodelByIdSuite ⟨lim, text⟩ .submodel operation call line found) := by
  refine first_plan (text := text) (suite := submodelByIdSuite ⟨lim, text⟩ .submodel operation call line found) hs (c := getAllSubmodels) rfl rfl rfl rfl rfl (fun _ => rfl)
    (g := fun _ x => do
      let i ← idOf x
      let _ ← base64String i
      return i) (fun v => ?_) (fun _ _ _ _ _ _ => rfl) fun v x e _ hx he => ?_
  · have := does_bind (env := env) (does_lift (firstId v)) (k := fun i => (lift (base64String i)).bind fun _ => .pure i)
      (f := fun i => do let _ ← base64String i; return i) fun i _ => does_bind (does_lift _) fun _ _ => does_pure i
    rwa [show firstId v >>= (fun i => do let _ ← base64String i; return i) = (firstResult v >>= fun x => do
      let i ← idOf x
      let _ ← base64String i
      return i) by unfold firstId; cases firstResult v <;> rfl] at this
  · obtain ⟨a, rfl, ha⟩ := model_obj (c := .submodel) rfl hx
    obtain ⟨t, ht, hi⟩ := id_ok rfl ha
    simp only [bind, Except.bind, ht, base64String_ok hi.1] at he
    cases he

end Verif.Api.Suites
