import Verif.SuiteFacts2

/-! # Facts about the table of suites -/

namespace Verif.Api.Suites
open Verif Verif.Parse Verif.Aas Verif.Spec Verif.Spec.Parse Verif.Spec.Api Verif.Spec.Suites Verif.Spec.Generate Verif.Generate Verif.Http Verif.Props
open Verif.Api hiding sane supported

variable {env : List Sent → Sent → Answer} {cfg : Cfg}

theorem TestsSat.nil {σ : Type} {c : Call} {T : List PyExc} {ok : σ → Prop} : TestsSat env cfg c T ok [] := fun _ h => by cases h
theorem TestsSat.cons {σ : Type} {c : Call} {T : List PyExc} {ok : σ → Prop} {t : Test σ} {ts : List (Test σ)} (h : TestSat env cfg c T ok t)
    (hl : TestsSat env cfg c T ok ts) : TestsSat env cfg c T ok (t :: ts) := fun x hx => by
  rcases List.mem_cons.mp hx with rfl | hx
  · exact h
  · exact hl x hx
theorem TestsSat.one {σ : Type} {c : Call} {T : List PyExc} {ok : σ → Prop} {t : Test σ} (h : TestSat env cfg c T ok t) : TestsSat env cfg c T ok [t] := .cons h .nil
theorem TestsSat.append {σ : Type} {c : Call} {T : List PyExc} {ok : σ → Prop} {ts us : List (Test σ)} (h : TestsSat env cfg c T ok ts)
    (h' : TestsSat env cfg c T ok us) : TestsSat env cfg c T ok (ts ++ us) := fun x hx => by
  rcases List.mem_append.mp hx with hx | hx
  · exact h x hx
  · exact h' x hx

theorem fetch_test (hs : Sound env) {σ : Type} {ok : σ → Prop} {c : Call} (hc : callOk c = true) {kw : Kwargs} (hf : fits c kw = true)
    (he : ∀ a ∈ kw, Encodable a.2) {T : List PyExc} {name line title} : TestSat env cfg c T ok (fetch cfg c name line title kw) :=
  fun _ profile st hr _ => fetch_sat hs (sane_of hc) ⟨hf, he⟩ hr profile st

theorem pagination_tests (hs : Sound env) {σ : Type} {ok : σ → Prop} {c : Call} (hc : callOk c = true) {p : Page} (hm : c.mode = .decode (pageTy p))
    (hf : fits c limit1 = true) {T : List PyExc} {cursor : σ → RVal} : TestsSat env cfg c T ok (paginationTests cfg c cursor) :=
  fun t ht _ profile st hr _ => pagination_sat hs (sane_of hc) hm ⟨hf, enc_limit1⟩ hr profile st t ht

/-- a suite with one test that only fetches -/
theorem single_checked (hs : Sound env) {operation : Str} {c : Call} (hc : callOk c = true) (hn : negFits c [] = true) (hf : fits c [] = true) {name line title} :
    Checked env cfg c [] [] (plainSuite cfg operation c [fetch cfg c name line title]) (fun _ => True) :=
  plain_checked hs (sane_of hc) hn (TestsSat.one (fetch_test hs hc hf enc_nil))

/-! ### aas.py -/

theorem getShell_checked (hs : Sound env) : Checked env cfg getShell [] [] (getShellSuite cfg) (fun _ => True) := single_checked hs rfl rfl rfl
theorem getShellReference_checked (hs : Sound env) : Checked env cfg getShellReference [] [] (getShellReferenceSuite cfg) (fun _ => True) := single_checked hs rfl rfl rfl
theorem getAssetInformation_checked (hs : Sound env) : Checked env cfg getAssetInformation [] [] (getAssetInformationSuite cfg) (fun _ => True) := single_checked hs rfl rfl rfl
theorem getThumbnail_checked (hs : Sound env) : Checked env cfg getThumbnail [] [] (getThumbnailSuite cfg) (fun _ => True) := single_checked hs rfl rfl rfl

theorem getAllSubmodelReferences_checked (hs : Sound env) : Checked env cfg getAllSubmodelReferences [] [] (getAllSubmodelReferencesSuite cfg) (fun _ => True) :=
  paged_checked hs (sane_of rfl) (sane_of rfl) (p := .submodelRefs) rfl rfl rfl
    (TestsSat.append (pagination_tests hs rfl (p := .submodelRefs) rfl rfl) (TestsSat.one (fetch_test hs rfl rfl enc_nil)))

/-! ### aas_repo.py -/

/-- the attributes of the suites of all shells -/
def ShellOk (st : ShellState) : Prop := Re.fullmatch xmlRe st.idShort = true ∧ ∃ n v, st.assetId = .assetId n v

theorem shellState_ok {lim : Option Nat} {v : RVal} (h : HasType (respSchema lim) (pageTy .shells) v) :
    (∀ st, shellState v = .ok st → ShellOk st) ∧ ∀ e, shellState v = .error e → e ∈ [PyExc.indexError, .attributeError] := by
  obtain ⟨cur, l, rfl, -, hl⟩ := page_shape h
  unfold shellState
  rw [page_first]
  cases l with
  | nil => exact ⟨fun _ h => (by cases h), fun e h => (by cases h; simp)⟩
  | cons x l =>
    obtain ⟨a, rfl, ha⟩ := model_obj (c := .assetAdministrationShell) rfl (hl x List.mem_cons_self)
    simp only [rfirst, bind, Except.bind]
    obtain ⟨h1, h2⟩ := ha.field (f := .idShort) (key := py!"idShort") (ty := .sfv .nameTypeString) (req := false) rfl
    rw [rattr_emb h1]
    dsimp only
    rcases h2 with ⟨h2, -⟩ | h2
    · rw [h2]
      exact ⟨fun _ h => (by cases h), fun e h => (by cases h; simp)⟩
    · obtain ⟨t, ht, hx⟩ := sfv_raw h2
      rw [ht]
      dsimp only
      obtain ⟨h3, h4⟩ := ha.obj (f := .assetInformation) (key := py!"assetInformation") (d := .assetInformation) rfl rfl
      rw [rattr_emb h3]
      dsimp only
      obtain ⟨h5, h6⟩ := h4.field (f := .globalAssetId) (key := py!"globalAssetId") (ty := .sfv .identifierString) (req := false) rfl
      rw [rattr_emb h5]
      dsimp only
      rcases h6 with ⟨h6, -⟩ | h6
      · rw [h6]
        exact ⟨fun _ h => (by cases h), fun e h => (by cases h; simp)⟩
      · obtain ⟨c, g, hg, -⟩ := identifier_raw h6
        rw [hg]
        simp only [List.isEmpty_cons, Bool.not_false, if_true, pure, Except.pure, page_cursor]
        exact ⟨fun st h => (by cases h; exact ⟨hx, _, _, rfl⟩), fun e h => (by cases h)⟩

theorem shellSetup_sat (hs : Sound env) {client : Client} (hr : Rooted client) :
    Sat env (ReadOnly client) ShellOk (·.ok = false) (fun e => Known env cfg.lim e ∨ Own [.indexError, .attributeError] e) (shellSetup cfg client) :=
  Sat.bind (call_sat hs (sane_of rfl) ⟨rfl, enc_limit1⟩ (fun _ h => h) hr) fun _ hv =>
    lift_own (shellState_ok (lim := cfg.lim) hv).1 (shellState_ok (lim := cfg.lim) hv).2

/-- a test that counts the entries of a page -/
theorem count_sat (hs : Sound env) {c : Call} (hc : callOk c = true) {p : Page} (hm : c.mode = .decode (pageTy p)) {kw : Kwargs} (hf : fits c kw = true)
    (he : ∀ a ∈ kw, Encodable a.2) {T : List PyExc} {client : Client} (hr : Rooted client) {k : RVal → Nat → ApiM Unit}
    (hk : ∀ v n, HasType (respSchema cfg.lim) (pageTy p) v → resultLen v = .ok n →
      Sat env (Sends client c) (fun _ => True) (fun _ => True) (fun e => Known env cfg.lim e ∨ Own T e) (k v n)) :
    Sat env (Sends client c) (fun _ => True) (fun _ => True) (fun e => Known env cfg.lim e ∨ Own T e)
      ((c.success cfg client kw).bind fun page => (lift (resultLen page)).bind (k page)) := by
  refine Sat.bind (call_sat hs (sane_of hc) ⟨hf, he⟩ (fun _ _ => trivial) hr) fun v hv => ?_
  unfold Returned at hv
  rw [hm] at hv
  obtain ⟨cur, l, rfl, -, -⟩ := page_shape hv
  exact Sat.bind (lift_ok (ret := fun n => n = l.length) page_len rfl) fun n hn => hk _ n hv (by rw [page_len, hn])

theorem shellTests_sat (hs : Sound env) {c : Call} (hc : callOk c = true) {p : Page} (hm : c.mode = .decode (pageTy p))
    (h1 : ∀ n v, fits c [(py!"asset_id", .assetId n v)] = true) (h2 : ∀ s, fits c [(py!"id_short", .str s)] = true) (h3 : fits c [] = true) {T : List PyExc} :
    TestsSat env cfg c T ShellOk (shellTests cfg c) := by
  refine .cons ?_ (.cons ?_ (.one (fetch_test hs hc h3 enc_nil)))
  · rintro client profile st hr ⟨-, n, v, ha⟩
    exact count_sat hs hc hm (by rw [ha]; exact h1 n v) (enc_one (by rw [ha]; exact enc_assetId n v)) hr fun _ _ _ _ => assert_any
  · intro client profile st hr _
    exact count_sat hs hc hm (h2 _) (enc_one (enc_str (by unfold NoSurrogates; decide))) hr fun _ _ _ _ => assert_any

theorem getAllShells_checked (hs : Sound env) : Checked env cfg getAllShells [.indexError, .attributeError] [.attributeError] (getAllShellsSuite cfg) ShellOk where
  same := sameArgs_refl _
  setup _ hr := shellSetup_sat hs hr
  generated := neg_generated (c := getAllShells) (valid := []) rfl
  invoke := rfl
  args := rfl
  sane := (sane_of rfl)
  negative _ _ := neg_fits rfl enc_nil
  tests := by
    refine .append (.append (shellTests_sat hs rfl (p := .shells) rfl (fun _ _ => rfl) (fun _ => rfl) rfl) (pagination_tests hs rfl (p := .shells) rfl rfl)) (.one ?_)
    rintro client profile st hr ⟨hi, -⟩
    refine count_sat hs (c := getAllShells) rfl (p := .shells) rfl rfl (enc_one (enc_str (xml_noSurrogates hi))) hr fun v n hv hn => ?_
    obtain ⟨cur, l, rfl, -, hl⟩ := page_shape hv
    rw [page_len] at hn
    cases hn
    refine Sat.bind (assert_sat (ab := fun _ => True) fun _ => trivial) fun _ hpos => ?_
    cases l with
    | nil => cases hpos
    | cons x l =>
      obtain ⟨a, rfl, ha⟩ := model_obj (c := .assetAdministrationShell) rfl (hl x List.mem_cons_self)
      obtain ⟨h1, h2⟩ := ha.field (f := .idShort) (key := py!"idShort") (ty := .sfv .nameTypeString) (req := false) rfl
      refine Sat.bind (lift_own (ret := fun _ => True) (fun _ _ => trivial) ?_) fun _ _ => assert_any
      rw [page_first]
      simp only [rfirst, bind, Except.bind]
      rw [rattr_emb h1]
      dsimp only
      intro e he
      rcases h2 with ⟨h2, -⟩ | h2
      · rw [h2] at he; cases he; simp
      · obtain ⟨t, ht, -⟩ := sfv_raw h2
        rw [ht] at he; cases he

theorem getAllShellsReference_checked (hs : Sound env) : Checked env cfg getAllShellsReference [.indexError, .attributeError] [] (getAllShellsReferenceSuite cfg) ShellOk where
  same := sameArgs_refl _
  setup _ hr := shellSetup_sat hs hr
  generated := neg_generated (c := getAllShellsReference) (valid := []) rfl
  invoke := rfl
  args := rfl
  sane := (sane_of rfl)
  negative _ _ := neg_fits rfl enc_nil
  tests := by
    refine .append (.append (shellTests_sat hs rfl (p := .shellRefs) rfl (fun _ _ => rfl) (fun _ => rfl) rfl) (pagination_tests hs rfl (p := .shellRefs) rfl rfl)) (.one ?_)
    rintro client profile st hr ⟨hi, -⟩
    exact count_sat hs (c := getAllShellsReference) rfl (p := .shellRefs) rfl rfl (enc_one (enc_str (xml_noSurrogates hi))) hr fun _ _ _ _ => assert_any

theorem firstId_ok {lim : Option Nat} {p : Page} {c : Cls} (hp : p.item = modelTy c) (hc : isAbstract c = false)
    (hm : slotOf c .id = some (.attr py!"id" (.sfv .identifierString) true)) {v : RVal} (h : HasType (respSchema lim) (pageTy p) v) :
    (∀ st, firstId v = .ok st → IdOk st) ∧ ∀ e, firstId v = .error e → e = .indexError := by
  unfold firstId
  rcases firstResult_cases h with h | ⟨x, h, hx⟩
  · rw [h]; exact ⟨fun _ h => (by cases h), fun e h => (by cases h; rfl)⟩
  · rw [h]
    rw [hp] at hx
    obtain ⟨a, rfl, ha⟩ := model_obj hc hx
    obtain ⟨t, ht, hx⟩ := id_ok hm ha
    simp only [bind, Except.bind, ht]
    exact ⟨fun _ h => (by cases h; exact hx), fun e h => (by cases h)⟩

theorem shellById_checked (hs : Sound env) {operation : Str} {c : Call} (hc : callOk c = true) (hn : negFits c [] = true)
    (hf : ∀ s, fits c [(py!"aas_id", .sfv true s)] = true) {name line title found}
    (hfound : ∀ f m, found = some (f, m) → ∀ v, Returned cfg c v → ∃ t, f v = .ok t) :
    Checked env cfg c [.indexError] [] (shellByIdSuite cfg operation c (byId cfg c py!"aas_id" name line title found)) IdOk where
  same := sameArgs_refl _
  setup client hr := Sat.bind (call_sat hs (sane_of rfl) ⟨rfl, enc_limit1⟩ (fun _ h => h) hr) fun v hv =>
    lift_own (firstId_ok (lim := cfg.lim) (c := .assetAdministrationShell) rfl rfl rfl hv).1
      fun e he => by rw [(firstId_ok (lim := cfg.lim) (c := .assetAdministrationShell) rfl rfl rfl hv).2 e he]; simp
  generated := neg_generated hn
  invoke := rfl
  args := rfl
  sane := (sane_of hc)
  negative _ _ := neg_fits hn enc_nil
  tests := .one fun _ profile _ hr hst => byId_sat hs (sane_of hc) hf hfound hr profile hst.1

theorem found_id {c : Call} {d : Cls} (hm : c.mode = .decode (modelTy d)) (hd : isAbstract d = false)
    (hs : slotOf d .id = some (.attr py!"id" (.sfv .identifierString) true)) {message : Str} :
    ∀ f m, some (idOf, message) = some (f, m) → ∀ v, Returned cfg c v → ∃ t, f v = .ok t := by
  intro f m h v hv
  cases h
  unfold Returned at hv
  rw [hm] at hv
  obtain ⟨a, rfl, ha⟩ := model_obj hd hv
  obtain ⟨t, ht, -⟩ := id_ok hs ha
  exact ⟨t, ht⟩

theorem found_key {c : Call} (hm : c.mode = .decode (modelTy .reference)) {message : Str} :
    ∀ f m, some (firstKey, message) = some (f, m) → ∀ v, Returned cfg c v → ∃ t, f v = .ok t := by
  intro f m h v hv
  cases h
  unfold Returned at hv
  rw [hm] at hv
  obtain ⟨a, rfl, ha⟩ := model_obj rfl hv
  obtain ⟨t, ht, -⟩ := key_ok ha
  exact ⟨t, ht⟩

theorem getShellById_checked (hs : Sound env) : Checked env cfg getShellById [.indexError] [] (getShellByIdSuite cfg) IdOk :=
  shellById_checked hs rfl rfl (fun _ => rfl) (found_id (d := .assetAdministrationShell) rfl rfl rfl)

theorem getShellByIdReference_checked (hs : Sound env) : Checked env cfg getShellByIdReference [.indexError] [] (getShellByIdReferenceSuite cfg) IdOk :=
  shellById_checked hs rfl rfl (fun _ => rfl) (found_key rfl)

/-! ### description.py, serialization.py -/

theorem description_shape {lim : Option Nat} {v : RVal} (h : HasType (respSchema lim) (.cls .serviceDescription) v) :
    ∃ l, v = .obj .serviceDescription [(.profiles, .list l)] := by
  obtain ⟨c', attrs, rfl, hi, hf⟩ := hasType_cls h
  obtain rfl := isA_self hi rfl
  cases hf with
  | cons h1 hf =>
    cases hf
    rename_i a
    obtain ⟨f, w⟩ := a
    obtain ⟨rfl, ⟨-, hx⟩ | h1⟩ := h1
    · cases hx
    · cases h1 with
      | list => exact ⟨_, rfl⟩

theorem getDescription_checked (hs : Sound env) : Checked env cfg getDescription [] [] (getDescriptionSuite cfg) (fun _ => True) := by
  refine plain_checked hs (sane_of rfl) rfl (.one ?_)
  intro client profile st hr _
  refine Sat.bind (call_sat hs (sane_of rfl) ⟨rfl, enc_nil⟩ (fun _ _ => trivial) hr) fun v hv => ?_
  obtain ⟨l, rfl⟩ := description_shape (lim := cfg.lim) hv
  refine Sat.bind (lift_ok (ret := fun r => r = .list l) rfl rfl) fun r hr => ?_
  subst hr
  exact Sat.bind (lift_ok (ret := fun _ => True) (x := rcontains profile (.list l)) rfl trivial) fun _ _ => assert_any

theorem firstSubmodel_ok {lim : Option Nat} {a : AVal} (ha : Obj lim .assetAdministrationShell a) :
    firstSubmodel (embVal a) = .error .typeError ∨ ∃ t, firstSubmodel (embVal a) = .ok t ∧ IdOk t := by
  unfold firstSubmodel
  rcases ha.list? (f := .submodels) (key := py!"submodels") (ty := .cls .reference) rfl with ⟨h, -⟩ | ⟨h, -, hne, hl⟩
  · rw [rattr_emb h]; exact .inl rfl
  · rw [rattr_emb h]
    cases he : Model.elems a .submodels with
    | nil => exact absurd he hne
    | cons r rest =>
      obtain ⟨t, ht, hx⟩ := key_ok (obj_of_concrete (lim := lim) (c := .reference) rfl (hl r (by rw [he]; exact List.mem_cons_self)))
      exact .inr ⟨t, by simpa [embVal, embVals, bind, Except.bind, rfirst] using ht, hx⟩

theorem shell_id {lim : Option Nat} {a : AVal} (ha : Obj lim .assetAdministrationShell a) : ∃ t, idOf (embVal a) = .ok t ∧ IdOk t :=
  id_ok rfl ha

theorem serializationState_ok {lim : Option Nat} {v : RVal} (h : HasType (respSchema lim) (pageTy .shells) v) :
    (∀ st, serializationState v = .ok st → ∃ a b, st = (.sfv true a, .sfv true b) ∧ IdOk a ∧ IdOk b) ∧
    ∀ e, serializationState v = .error e → e ∈ [PyExc.indexError, .typeError] := by
  unfold serializationState
  rcases firstResult_cases h with h | ⟨x, h, hx⟩
  · rw [h]; exact ⟨fun _ h => (by cases h), fun e h => (by cases h; simp)⟩
  · rw [h]
    obtain ⟨a, rfl, ha⟩ := model_obj (c := .assetAdministrationShell) rfl hx
    obtain ⟨t, ht, hi⟩ := shell_id ha
    simp only [bind, Except.bind, ht, base64String_ok hi.1]
    rcases firstSubmodel_ok ha with h | ⟨u, h, hu⟩
    · rw [h]; exact ⟨fun _ h => (by cases h), fun e h => (by cases h; simp)⟩
    · simp only [h, base64String_ok hu.1]
      exact ⟨fun _ h => (by cases h; exact ⟨t, u, rfl, hi, hu⟩), fun e h => (by cases h)⟩

theorem IdOk.enc {s : Str} (h : IdOk s) : Encodable (.sfv true s) := enc_sfv (xml_noSurrogates h.1)

theorem generateSerialization_checked (hs : Sound env) : Checked env cfg generateSerialization [.indexError, .typeError] [] (generateSerializationSuite cfg)
    (fun st => ∃ a b, st = (.sfv true a, .sfv true b) ∧ IdOk a ∧ IdOk b) where
  same := sameArgs_refl _
  setup client hr := Sat.bind (call_sat hs (sane_of rfl) ⟨rfl, enc_limit1⟩ (fun _ h => h) hr) fun v hv =>
    lift_own (serializationState_ok (lim := cfg.lim) hv).1 (serializationState_ok (lim := cfg.lim) hv).2
  generated := neg_generated (c := generateSerialization) (valid := []) rfl
  invoke := rfl
  args := rfl
  sane := (sane_of rfl)
  negative _ _ := neg_fits rfl enc_nil
  tests := by
    refine .cons ?_ (.cons ?_ (.cons ?_ (.one (fetch_test hs rfl rfl enc_nil))))
    · rintro client profile st hr ⟨a, b, rfl, ha, hb⟩
      exact Sat.bind (call_sat hs (sane_of rfl) ⟨rfl, enc_one ha.enc⟩ (fun _ _ => trivial) hr) fun _ _ => Sat.pure trivial
    · rintro client profile st hr ⟨a, b, rfl, ha, hb⟩
      exact Sat.bind (call_sat hs (sane_of rfl) ⟨rfl, enc_one hb.enc⟩ (fun _ _ => trivial) hr) fun _ _ => Sat.pure trivial
    · intro client profile st hr _
      refine Sat.bind (call_sat hs (sane_of rfl) ⟨rfl, enc_one (enc_bool true)⟩ (fun _ _ => trivial) hr) fun v hv => ?_
      obtain ⟨a, rfl, ha⟩ := model_obj (lim := cfg.lim) (c := .environment) rfl hv
      obtain ⟨h1, -⟩ := ha.field (f := .conceptDescriptions) (key := py!"conceptDescriptions") (ty := .list (.cls .conceptDescription) false) (req := false) rfl
      exact Sat.bind (lift_ok (ret := fun _ => True) (rattr_emb h1) trivial) fun _ _ => assert_any

/-! ### submodel.py -/

theorem getSubmodel_checked (hs : Sound env) : Checked env cfg getSubmodel [] [] (getSubmodelSuite cfg) (fun _ => True) := single_checked hs rfl rfl rfl
theorem getSubmodelMeta_checked (hs : Sound env) : Checked env cfg getSubmodelMeta [] [] (getSubmodelMetaSuite cfg) (fun _ => True) := single_checked hs rfl rfl rfl
theorem getSubmodelValue_checked (hs : Sound env) : Checked env cfg getSubmodelValue [] [] (getSubmodelValueSuite cfg) (fun _ => True) := single_checked hs rfl rfl rfl
theorem getSubmodelReference_checked (hs : Sound env) : Checked env cfg getSubmodelReference [] [] (getSubmodelReferenceSuite cfg) (fun _ => True) := single_checked hs rfl rfl rfl
theorem getSubmodelPath_checked (hs : Sound env) : Checked env cfg getSubmodelPath [] [] (getSubmodelPathSuite cfg) (fun _ => True) := single_checked hs rfl rfl rfl

theorem enc_levelExtent {l e : ArgVal} (hl : Encodable l) (he : Encodable e) : ∀ a ∈ levelExtent l e, Encodable a.2 := enc_cons hl (enc_one he)

theorem getAllSubmodelElements_checked (hs : Sound env) : Checked env cfg getAllSubmodelElements [] [] (getAllSubmodelElementsSuite cfg) (fun _ => True) :=
  paged_checked hs (sane_of rfl) (sane_of rfl) (p := .elements) rfl rfl rfl
    (.append (.append
      (.cons (fetch_test hs rfl rfl (enc_levelExtent enc_deep enc_withBlob)) <|
       .cons (fetch_test hs rfl rfl (enc_levelExtent enc_core enc_withoutBlob)) <|
       .cons (fetch_test hs rfl rfl (enc_levelExtent enc_deep enc_withoutBlob)) <|
       .cons (fetch_test hs rfl rfl (enc_levelExtent enc_deep enc_withoutBlob)) <|
       .cons (fetch_test hs rfl rfl (enc_one enc_withBlob)) <|
       .one (fetch_test hs rfl rfl (enc_one enc_withoutBlob)))
      (pagination_tests hs rfl (p := .elements) rfl rfl))
      (.cons (fetch_test hs rfl rfl (enc_one enc_core)) <| .cons (fetch_test hs rfl rfl (enc_one enc_deep)) <| .one (fetch_test hs rfl rfl enc_nil)))

theorem getAllSubmodelElementsMeta_checked (hs : Sound env) : Checked env cfg getAllSubmodelElementsMeta [] [] (getAllSubmodelElementsMetaSuite cfg) (fun _ => True) :=
  paged_checked hs (sane_of rfl) (sane_of rfl) (p := .elements) rfl rfl rfl
    (.append (pagination_tests hs rfl (p := .elements) rfl rfl) (.one (fetch_test hs rfl rfl enc_nil)))

theorem levelTests_sat (hs : Sound env) {c : Call} (hc : callOk c = true) {p : Page} (hm : c.mode = .decode (pageTy p)) (hf : fits c limit1 = true)
    (h1 : fits c (level core) = true) (h2 : fits c (level deep) = true) (h3 : fits c [] = true) : TestsSat env cfg c [] (fun _ => True) (levelTests cfg c) :=
  .append (pagination_tests hs hc hm hf) (.cons (fetch_test hs hc h1 (enc_one enc_core)) <| .cons (fetch_test hs hc h2 (enc_one enc_deep)) <|
    .one (fetch_test hs hc h3 enc_nil))

theorem getAllSubmodelElementsValue_checked (hs : Sound env) : Checked env cfg getAllSubmodelElementsValue [] [] (getAllSubmodelElementsValueSuite cfg) (fun _ => True) :=
  paged_checked hs (sane_of rfl) (sane_of rfl) (p := .elementValues) rfl rfl rfl (levelTests_sat hs rfl (p := .elementValues) rfl rfl rfl rfl rfl)

theorem getAllSubmodelElementsReference_checked (hs : Sound env) : Checked env cfg getAllSubmodelElementsReference [] [] (getAllSubmodelElementsReferenceSuite cfg) (fun _ => True) :=
  plain_checked hs (sane_of rfl) rfl (.append (pagination_tests hs rfl (p := .elementRefs) rfl rfl) (.one (fetch_test hs rfl rfl enc_nil)))

theorem getAllSubmodelElementsPath_checked (hs : Sound env) : Checked env cfg getAllSubmodelElementsPath [] [] (getAllSubmodelElementsPathSuite cfg) (fun _ => True) :=
  paged_checked hs (sane_of rfl) (sane_of rfl) (p := .elementPaths) rfl rfl rfl (levelTests_sat hs rfl (p := .elementPaths) rfl rfl rfl rfl rfl)

/-- the attributes of suites of elements -/
def ElementOk (st : Paths × Str) : Prop := GoodPaths st.1 ∧ NoSurrogates st.2

theorem elementState_ok {lim : Option Nat} {v : RVal} (h : HasType (respSchema lim) (pageTy .elements) v) :
    (∀ st, elementState v = .ok st → ElementOk st) ∧ ∀ e, elementState v = .error e → e ∈ [PyExc.typeError, .stopIteration] := by
  obtain ⟨cur, l, rfl, -, hl⟩ := page_shape h
  have hc := collectL_good l hl [] 0 [] (fun _ h => by cases h) (fun _ h => by cases h)
  have hr : rattr (.obj (.page .elements) [(.pagingMetadata, .obj .pagingMetadata [(.cursor, cur)]), (.result, .list l)]) .result = .ok (.list l) := rfl
  unfold elementState
  rw [hr]
  simp only [bind, Except.bind]
  cases hx : collectL [] 0 [] l with
  | error e =>
    rw [hx] at hc
    obtain rfl := hc
    exact ⟨fun _ h => (by cases h), fun e h => (by cases h; simp)⟩
  | ok paths =>
    rw [hx] at hc
    dsimp only
    match paths, hc with
    | [], _ => exact ⟨fun _ h => (by cases h), fun e h => (by cases h; simp)⟩
    | (k, p :: ps) :: rest, hc =>
      exact ⟨fun _ h => (by cases h; exact ⟨hc, (hc _ List.mem_cons_self).2 p List.mem_cons_self⟩), fun e h => (by cases h)⟩
    | (k, []) :: rest, hc => exact absurd rfl (hc _ List.mem_cons_self).1

theorem element_checked (hs : Sound env) {operation : Str} {c : Call} (hc : callOk c = true) (hn : ∀ s, negFits c [(py!"id_short_path", .str s)] = true)
    {tests : List (Test (Paths × Str))} (ht : TestsSat env cfg c [] ElementOk tests) :
    Checked env cfg c [.typeError, .stopIteration] [] (elementSuite cfg operation c tests) ElementOk where
  same := sameArgs_refl _
  setup _ hr := Sat.bind (call_sat hs (sane_of rfl) ⟨rfl, enc_nil⟩ (fun _ h => h) hr) fun _ hv =>
    lift_own (elementState_ok (lim := cfg.lim) hv).1 (elementState_ok (lim := cfg.lim) hv).2
  generated := neg_generated (hn [])
  invoke := rfl
  args := rfl
  sane := (sane_of hc)
  negative st hst := neg_fits (hn st.2) (enc_one (enc_str hst.2))
  tests := ht

theorem pathFor_mem {paths : Paths} {k p : Str} (h : pathFor paths k = some p) : ∃ e ∈ paths, p ∈ e.2 := by
  unfold pathFor at h
  split at h
  · rename_i k' p' ps hf
    cases h
    exact ⟨_, List.mem_of_find?_eq_some hf, List.mem_cons_self⟩
  · cases h

theorem checkType_sat (hs : Sound env) {c : Call} (hc : callOk c = true) (hfail : c.canFail = true) {supported : List Cls} {kw : Kwargs}
    (hf : ∀ s, fits c ((py!"id_short_path", .str s) :: kw) = true) (he : ∀ a ∈ kw, Encodable a.2) {client : Client} (hr : Rooted client) {paths : Paths}
    (hp : GoodPaths paths) : ∀ l : List Cls,
    Sat env (Sends client c) (fun _ => True) (fun _ => True) (fun e => Known env cfg.lim e ∨ Own [] e) (checkType cfg c supported kw client paths l)
  | [] => Sat.pure trivial
  | d :: l => by
    rw [checkType]
    refine Sat.block (ret' := fun _ => True) (ab' := fun _ => True) ?_ fun _ _ _ => checkType_sat hs hc hfail hf he hr hp l
    cases hx : pathFor paths d.pyName with
    | none => exact Sat.abort trivial
    | some p =>
      obtain ⟨e, hm, hpe⟩ := pathFor_mem hx
      have hfit : Fits c ((py!"id_short_path", .str p) :: kw) := ⟨hf p, enc_cons (enc_str ((hp e hm).2 p hpe)) he⟩
      dsimp only
      split
      · exact Sat.bind (call_sat hs (sane_of hc) hfit (fun _ _ => trivial) hr) fun _ _ => Sat.pure trivial
      · exact (error_sat hs hr (sane_of hc) hfail hfit).conseq (fun _ h => ⟨_, h⟩) (fun _ h => h) (fun _ _ => trivial) fun _ h => .inl h

theorem typeTest_sat (hs : Sound env) {c : Call} (hc : callOk c = true) (hfail : c.canFail = true) {supported : List Cls} {kw : Kwargs}
    (hf : ∀ s, fits c ((py!"id_short_path", .str s) :: kw) = true) (he : ∀ a ∈ kw, Encodable a.2) {name line} :
    TestSat env cfg c [] ElementOk (typeTest cfg c supported name line kw) :=
  fun _ _ _ hr hst => checkType_sat hs hc hfail hf he hr hst.1 _

theorem typeTests_sat (hs : Sound env) {c : Call} (hc : callOk c = true) (hfail : c.canFail = true) {supported : List Cls} {n : Nat}
    (hf : ∀ s l e, enumLike l = true → enumLike e = true → fits c ((py!"id_short_path", .str s) :: levelExtent l e) = true) :
    TestsSat env cfg c [] ElementOk (typeTests cfg c supported n) :=
  .cons (typeTest_sat hs hc hfail (fun _ => hf _ _ _ rfl rfl) (enc_levelExtent enc_core enc_withBlob)) <|
  .cons (typeTest_sat hs hc hfail (fun _ => hf _ _ _ rfl rfl) (enc_levelExtent enc_core enc_withoutBlob)) <|
  .cons (typeTest_sat hs hc hfail (fun _ => hf _ _ _ rfl rfl) (enc_levelExtent enc_deep enc_withBlob)) <|
  .cons (typeTest_sat hs hc hfail (fun _ => hf _ _ _ rfl rfl) (enc_levelExtent enc_deep enc_withoutBlob)) <|
  .cons (typeTest_sat hs hc hfail (fun _ => hf _ _ _ rfl rfl) (enc_levelExtent enc_none enc_withBlob)) <|
  .cons (typeTest_sat hs hc hfail (fun _ => hf _ _ _ rfl rfl) (enc_levelExtent enc_none enc_withoutBlob)) <|
  .cons (typeTest_sat hs hc hfail (fun _ => hf _ _ _ rfl rfl) (enc_levelExtent enc_core enc_none)) <|
  .cons (typeTest_sat hs hc hfail (fun _ => hf _ _ _ rfl rfl) (enc_levelExtent enc_deep enc_none)) <|
  .one (typeTest_sat hs hc hfail (fun _ => hf _ _ _ rfl rfl) (enc_levelExtent enc_none enc_none))

theorem getElement_checked (hs : Sound env) : Checked env cfg getElement [.typeError, .stopIteration] [] (getElementSuite cfg) ElementOk :=
  element_checked hs rfl (fun _ => rfl) (typeTests_sat hs rfl rfl fun s l e hl he => by
    show (enumLike l && (enumLike e && true)) = true; rw [hl, he]; rfl)
theorem getElementMeta_checked (hs : Sound env) : Checked env cfg getElementMeta [.typeError, .stopIteration] [] (getElementMetaSuite cfg) ElementOk :=
  element_checked hs rfl (fun _ => rfl) (.one (typeTest_sat hs rfl rfl (fun _ => rfl) enc_nil))
theorem getElementValue_checked (hs : Sound env) : Checked env cfg getElementValue [.typeError, .stopIteration] [] (getElementValueSuite cfg) ElementOk :=
  element_checked hs rfl (fun _ => rfl) (typeTests_sat hs rfl rfl fun s l e hl he => by
    show (enumLike l && (enumLike e && true)) = true; rw [hl, he]; rfl)
theorem getElementReference_checked (hs : Sound env) : Checked env cfg getElementReference [.typeError, .stopIteration] [] (getElementReferenceSuite cfg) ElementOk :=
  element_checked hs rfl (fun _ => rfl) (.one (typeTest_sat hs rfl rfl (fun _ => rfl) enc_nil))
theorem getElementPath_checked (hs : Sound env) : Checked env cfg getElementPath [.typeError, .stopIteration] [] (getElementPathSuite cfg) ElementOk :=
  element_checked hs rfl (fun _ => rfl) (.one (typeTest_sat hs rfl rfl (fun _ => rfl) enc_nil))
theorem getFile_checked (hs : Sound env) : Checked env cfg getFile [.typeError, .stopIteration] [] (getFileSuite cfg) ElementOk := by
  refine element_checked hs rfl (fun _ => rfl) (.one ?_)
  intro client profile st hr hst
  dsimp only
  cases hx : pathFor st.1 py!"File" with
  | none => exact Sat.abort trivial
  | some p =>
    obtain ⟨e, hm, hpe⟩ := pathFor_mem hx
    exact Sat.bind (call_sat hs (sane_of rfl) ⟨rfl, enc_one (enc_str ((hst.1 e hm).2 p hpe))⟩ (fun _ _ => trivial) hr) fun _ _ => Sat.pure trivial

/-! ### submodel_repo.py -/

theorem allSubmodels_checked (hs : Sound env) {operation : Str} {c : Call} (hc : callOk c = true) (hn : negFits c [] = true) {p : Page} (hm : c.mode = .decode (pageTy p))
    (hf : fits c limit1 = true) (h0 : fits c [] = true) {line : Nat} : Checked env cfg c [] [] (allSubmodelsSuite cfg operation c line) (fun _ => True) :=
  paged_checked hs (sane_of hc) (sane_of rfl) (p := .submodels) rfl rfl hn
    (.append (pagination_tests hs hc hm hf) (.one (fetch_test hs hc h0 enc_nil)))

theorem getAllSubmodels_checked (hs : Sound env) : Checked env cfg getAllSubmodels [] [] (getAllSubmodelsSuite cfg) (fun _ => True) :=
  allSubmodels_checked hs rfl rfl (p := .submodels) rfl rfl rfl
theorem getAllSubmodelsMeta_checked (hs : Sound env) : Checked env cfg getAllSubmodelsMeta [] [] (getAllSubmodelsMetaSuite cfg) (fun _ => True) :=
  allSubmodels_checked hs rfl rfl (p := .submodels) rfl rfl rfl
theorem getAllSubmodelsValue_checked (hs : Sound env) : Checked env cfg getAllSubmodelsValue [] [] (getAllSubmodelsValueSuite cfg) (fun _ => True) :=
  allSubmodels_checked hs rfl rfl (p := .submodelValues) rfl rfl rfl
theorem getAllSubmodelsReference_checked (hs : Sound env) : Checked env cfg getAllSubmodelsReference [] [] (getAllSubmodelsReferenceSuite cfg) (fun _ => True) :=
  allSubmodels_checked hs rfl rfl (p := .submodelRefs) rfl rfl rfl
theorem getAllSubmodelsPath_checked (hs : Sound env) : Checked env cfg getAllSubmodelsPath [] [] (getAllSubmodelsPathSuite cfg) (fun _ => True) :=
  allSubmodels_checked hs rfl rfl (p := .submodelPaths) rfl rfl rfl

theorem from_sat (hs : Sound env) (from_ : From) {client : Client} (hr : Rooted client) :
    Sat env (ReadOnly client) IdOk (·.ok = false) (fun e => Known env cfg.lim e ∨ Own [.indexError] e) (from_.setup cfg client) := by
  have last : ∀ {i : Str}, IdOk i → Sat env (ReadOnly client) IdOk (·.ok = false) (fun e => Known env cfg.lim e ∨ Own [.indexError] e)
      ((lift (base64String i)).bind fun _ => .pure i) := fun hi =>
    Sat.bind (lift_ok (ret := fun _ => True) (base64String_ok hi.1) trivial) fun _ _ => Sat.pure hi
  cases from_ with
  | aas =>
    refine Sat.bind (call_sat hs (sane_of rfl) ⟨rfl, enc_limit1⟩ (fun _ h => h) hr) fun v hv => ?_
    refine Sat.bind (lift_own (ret := IdOk) ?_ ?_) fun _ => last
    all_goals
      rcases firstResult_cases (lim := cfg.lim) hv with h | ⟨x, h, hx⟩
      · rw [h]; intro _ h; cases h <;> simp
      · obtain ⟨a, rfl, ha⟩ := model_obj (c := .reference) rfl hx
        obtain ⟨t, ht, hi⟩ := key_ok ha
        simp only [h, bind, Except.bind, ht]
        intro _ h; cases h <;> exact hi
  | submodel =>
    refine Sat.bind (call_sat hs (sane_of rfl) ⟨rfl, enc_limit1⟩ (fun _ h => h) hr) fun v hv => ?_
    have := firstId_ok (lim := cfg.lim) (c := .submodel) rfl rfl rfl hv
    exact Sat.bind (lift_own this.1 fun e he => by rw [this.2 e he]; simp) fun _ => last

theorem submodelById_checked (hs : Sound env) (from_ : From) {operation : Str} {c : Call} (hc : callOk c = true) (hn : ∀ s, negFits c [(py!"submodel_id", .sfv true s)] = true)
    (hf : ∀ s, fits c [(py!"submodel_id", .sfv true s)] = true) {line found}
    (hfound : ∀ f m, found = some (f, m) → ∀ v, Returned cfg c v → ∃ t, f v = .ok t) :
    Checked env cfg c [.indexError] [] (submodelByIdSuite cfg from_ operation c line found) IdOk where
  same := sameArgs_refl _
  setup _ hr := from_sat hs from_ hr
  generated := neg_generated (hn [])
  invoke := rfl
  args := rfl
  sane := (sane_of hc)
  negative st hst := neg_fits (hn st) (enc_one hst.enc)
  tests := .one fun _ profile _ hr hst => byId_sat hs (sane_of hc) hf hfound hr profile hst.1

theorem getSubmodelById_checked (hs : Sound env) (from_ : From) : Checked env cfg getSubmodelById [.indexError] [] (getSubmodelByIdSuite cfg from_) IdOk :=
  submodelById_checked hs from_ rfl (fun _ => rfl) (fun _ => rfl) (found_id (d := .submodel) rfl rfl rfl)
theorem getSubmodelByIdMeta_checked (hs : Sound env) (from_ : From) : Checked env cfg getSubmodelByIdMeta [.indexError] [] (getSubmodelByIdMetaSuite cfg from_) IdOk :=
  submodelById_checked hs from_ rfl (fun _ => rfl) (fun _ => rfl) (found_id (d := .submodel) rfl rfl rfl)
theorem getSubmodelByIdValue_checked (hs : Sound env) (from_ : From) : Checked env cfg getSubmodelByIdValue [.indexError] [] (getSubmodelByIdValueSuite cfg from_) IdOk :=
  submodelById_checked hs from_ rfl (fun _ => rfl) (fun _ => rfl) (fun _ _ h => by cases h)
theorem getSubmodelByIdReference_checked (hs : Sound env) (from_ : From) : Checked env cfg getSubmodelByIdReference [.indexError] [] (getSubmodelByIdReferenceSuite cfg from_) IdOk :=
  submodelById_checked hs from_ rfl (fun _ => rfl) (fun _ => rfl) (found_key rfl)
theorem getSubmodelByIdPath_checked (hs : Sound env) (from_ : From) : Checked env cfg getSubmodelByIdPath [.indexError] [] (getSubmodelByIdPathSuite cfg from_) IdOk :=
  submodelById_checked hs from_ rfl (fun _ => rfl) (fun _ => rfl) (fun _ _ h => by cases h)

end Verif.Api.Suites
