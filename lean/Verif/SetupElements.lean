import Verif.SetupFacts

/-! # Which elements the setups of the element operations need -/

namespace Verif.Api.Suites
open Verif Verif.Parse Verif.Aas Verif.Spec Verif.Spec.Parse Verif.Spec.Api Verif.Spec.Suites Verif.Spec.Routes Verif.Spec.Generate Verif.Generate Verif.Http Verif.Props
open Verif.Api hiding sane supported

variable {env : List Sent → Sent → Answer} {lim : Option Nat} {text : Note → Str}

/-- at or below this element there is a container without elements -/
def HollowAt (pre : Str) (i : Nat) (x : RVal) : Prop :=
  ∃ c attrs p, Below pre i x (.obj (.model c) attrs) p ∧ c ∈ [Cls.submodelElementCollection, .submodelElementList] ∧
    HasAttr (.obj (.model c) attrs) (.model .value) .none

theorem hollow_iff {pre : Str} {i : Nat} {c : RCls} {attrs : List (RFld × RVal)} {s : Str} (hs : HasIdShort (.obj c attrs) s) :
    HollowAt pre i (.obj c attrs) ↔
      ((c = .model .submodelElementCollection ∨ c = .model .submodelElementList) ∧ rlookup (.model .value) attrs = some .none) ∨
      (c = .model .submodelElementCollection ∧ ∃ l j z, rlookup (.model .value) attrs = some (.list l) ∧ l[j]? = some z ∧ HollowAt (pre ++ s ++ py!".") j z) ∨
      (c = .model .submodelElementList ∧ ∃ l j z, rlookup (.model .value) attrs = some (.list l) ∧ l[j]? = some z ∧ HollowAt (Py.natStr i ++ py!".") j z) := by
  have hu : ∀ t, HasIdShort (.obj c attrs) t → t = s := by
    rintro t ⟨ct, ht⟩
    obtain ⟨cs, hs⟩ := hs
    rw [hasAttr_obj] at hs ht
    rw [hs] at ht
    cases ht; rfl
  constructor
  · rintro ⟨d, as, p, hb, hd, hv⟩
    cases hb with
    | self h =>
      refine .inl ⟨?_, hasAttr_obj.mp hv⟩
      simpa using hd
    | collection h hl hj hb => rw [hu _ h] at hb; exact .inr (.inl ⟨rfl, _, _, _, hasAttr_obj.mp hl, hj, d, as, p, hb, hd, hv⟩)
    | list h hl hj hb => exact .inr (.inr ⟨rfl, _, _, _, hasAttr_obj.mp hl, hj, d, as, p, hb, hd, hv⟩)
  · rintro (⟨hc, hv⟩ | ⟨rfl, l, j, z, hl, hj, d, as, p, hb, hd, hv⟩ | ⟨rfl, l, j, z, hl, hj, d, as, p, hb, hd, hv⟩)
    · rcases hc with rfl | rfl
      · exact ⟨_, attrs, _, .self hs, by simp, hasAttr_obj.mpr hv⟩
      · exact ⟨_, attrs, _, .self hs, by simp, hasAttr_obj.mpr hv⟩
    · exact ⟨d, as, p, .collection hs (hasAttr_obj.mpr hl) hj hb, hd, hv⟩
    · exact ⟨d, as, p, .list hs (hasAttr_obj.mpr hl) hj hb, hd, hv⟩

theorem below_named {pre : Str} {i : Nat} {x y : RVal} {p : Str} (h : Below pre i x y p) : ∃ s, HasIdShort x s := by
  cases h with
  | self h => exact ⟨_, h⟩
  | collection h _ _ _ => exact ⟨_, h⟩
  | list h _ _ _ => exact ⟨_, h⟩

mutual
theorem collect_full : ∀ (v : RVal) (pre : Str) (idx : Nat) (paths paths' : Paths), collect pre idx paths v = .ok paths' → ¬ HollowAt pre idx v
  | .obj c attrs, pre, idx, paths, paths', h => by
    rw [collect] at h
    cases hi : rlookup (.model .idShort) attrs with
    | none => rw [hi] at h; cases h
    | some w =>
      rw [hi] at h
      cases w with
      | sfv cs s =>
        dsimp only at h
        have hs : HasIdShort (.obj c attrs) s := ⟨cs, hasAttr_obj.mpr hi⟩
        rw [hollow_iff hs]
        by_cases h1 : c = .model .submodelElementCollection
        · rw [if_pos h1] at h
          obtain ⟨l, hl, hh⟩ := collectA_full attrs _ _ _ h
          subst h1
          rw [hl]
          rintro (⟨-, h⟩ | ⟨-, l', j, z, hl', hj, hz⟩ | ⟨h, -⟩)
          · cases h
          · cases hl'; exact hh j z hj hz
          · cases h
        · rw [if_neg h1] at h
          by_cases h2 : c = .model .submodelElementList
          · rw [if_pos h2] at h
            obtain ⟨l, hl, hh⟩ := collectA_full attrs _ _ _ h
            subst h2
            rw [hl]
            rintro (⟨-, h⟩ | ⟨h, -⟩ | ⟨-, l', j, z, hl', hj, hz⟩)
            · cases h
            · cases h
            · cases hl'; exact hh j z hj hz
          · simp [h1, h2]
      | none =>
        rintro ⟨d, as, p, hb, -⟩
        obtain ⟨s, cs, hs⟩ := below_named hb
        rw [hasAttr_obj, hi] at hs; cases hs
      | _ => cases h
  | .none, _, _, _, _, h => by cases h
  | .invalid, _, _, _, _, h => by cases h
  | .foreign, _, _, _, _, h => by cases h
  | .str _, _, _, _, _, h => by cases h
  | .bool _, _, _, _, _, h => by cases h
  | .enum _ _, _, _, _, _, h => by cases h
  | .sfv _ _, _, _, _, _, h => by cases h
  | .list _, _, _, _, _, h => by cases h
  | .path _ _ _, _, _, _, _, h => by cases h
theorem collectA_full : ∀ (attrs : List (RFld × RVal)) (pre : Str) (paths paths' : Paths), collectA pre paths attrs = .ok paths' →
    ∃ l, rlookup (.model .value) attrs = some (.list l) ∧ ∀ j z, l[j]? = some z → ¬ HollowAt pre j z
  | [], _, _, _, h => by cases h
  | (f, v) :: rest, pre, paths, paths', h => by
    by_cases hf : f = .model .value
    · subst hf
      cases v with
      | list l =>
        have h' : collectL pre 0 paths l = .ok paths' := by simpa [collectA] using h
        have := collectL_full l pre 0 paths paths' h'
        exact ⟨l, by simp [rlookup], by simpa using this⟩
      | _ => simp [collectA] at h
    · have h' : collectA pre paths rest = .ok paths' := by cases v <;> simpa [collectA, hf] using h
      obtain ⟨l, hl, hh⟩ := collectA_full rest pre paths paths' h'
      exact ⟨l, by simp [rlookup, hf, hl], hh⟩
theorem collectL_full : ∀ (l : List RVal) (pre : Str) (idx : Nat) (paths paths' : Paths), collectL pre idx paths l = .ok paths' →
    ∀ j z, l[j]? = some z → ¬ HollowAt pre (idx + j) z
  | [], _, _, _, _, h, _, _, hj => by cases hj
  | v :: vs, pre, idx, paths, paths', h, j, z, hj => by
    rw [collectL] at h
    cases hc : collect pre idx paths v with
    | error e => rw [hc] at h; cases h
    | ok p1 =>
      rw [hc] at h
      cases j with
      | zero => cases hj; exact collect_full v pre idx paths p1 hc
      | succ j =>
        rw [show idx + (j + 1) = idx + 1 + j by omega]
        exact collectL_full vs pre (idx + 1) p1 paths' h j z hj
end

mutual
theorem collect_hollow : ∀ (v : RVal), HasType (respSchema lim) elementTy v → ∀ (pre : Str) (idx : Nat) (paths : Paths) (e : PyExc),
    collect pre idx paths v = .error e → e = .typeError ∧ HollowAt pre idx v
  | .obj c attrs, h, pre, idx, paths, e, he => by
    obtain ⟨hi, hf⟩ := hasType_obj.mp h
    obtain ⟨d, rfl, hd⟩ := isA_emb lim hi
    have hd : d ∈ subclassesOf .submodelElement := by
      rcases hd with ⟨ha, -⟩ | ⟨-, hm⟩
      · cases ha
      · exact hm
    obtain ⟨h1, h2⟩ := element_fields d hd
    obtain ⟨w, hw, -, ho⟩ := rlookup_typed hf h1
    rw [collect, hw] at he
    rcases ho with ⟨ho, -⟩ | ho
    · dsimp only at ho; subst ho; cases he
    · dsimp only at ho
      cases ho with
      | @sfv c' s hc =>
        have hs : HasIdShort (.obj (.model d) attrs) s := ⟨_, hasAttr_obj.mpr hw⟩
        dsimp only at he
        rw [hollow_iff hs]
        split at he
        · rename_i hx
          injection hx with hx
          obtain ⟨rfl, hl⟩ := collectA_hollow attrs _ hf (h2 (.inl hx)) _ _ _ he
          subst hx
          rcases hl with hl | ⟨l, j, z, hl, hj, hz⟩
          · exact ⟨rfl, .inl ⟨.inl rfl, hl⟩⟩
          · exact ⟨rfl, .inr (.inl ⟨rfl, l, j, z, hl, hj, hz⟩)⟩
        · split at he
          · rename_i hx
            injection hx with hx
            obtain ⟨rfl, hl⟩ := collectA_hollow attrs _ hf (h2 (.inr hx)) _ _ _ he
            subst hx
            rcases hl with hl | ⟨l, j, z, hl, hj, hz⟩
            · exact ⟨rfl, .inl ⟨.inr rfl, hl⟩⟩
            · exact ⟨rfl, .inr (.inr ⟨rfl, l, j, z, hl, hj, hz⟩)⟩
          · cases he
  | .none, h, _, _, _, _, _ => by cases h
  | .invalid, h, _, _, _, _, _ => by cases h
  | .foreign, h, _, _, _, _, _ => by cases h
  | .str _, h, _, _, _, _, _ => by cases h
  | .bool _, h, _, _, _, _, _ => by cases h
  | .enum _ _, h, _, _, _, _, _ => by cases h
  | .sfv _ _, h, _, _, _, _, _ => by cases h
  | .list _, h, _, _, _, _, _ => by cases h
  | .path _ _ _, h, _, _, _, _, _ => by cases h
theorem collectA_hollow : ∀ (attrs : List (RFld × RVal)) (fs : List RField), FieldsOk (respSchema lim) fs attrs →
    fs.find? (fun g => decide (g.name = .model .value)) = some ⟨.model .value, .attr py!"value" (.list elementTy false) false⟩ →
    ∀ (pre : Str) (paths : Paths) (e : PyExc), collectA pre paths attrs = .error e → e = .typeError ∧
      (rlookup (.model .value) attrs = some .none ∨ ∃ l j z, rlookup (.model .value) attrs = some (.list l) ∧ l[j]? = some z ∧ HollowAt pre j z)
  | [], fs, h, hm, _, _, _, _ => by cases h; cases hm
  | (f, v) :: rest, fs, h, hm, pre, paths, e, he => by
    cases h with
    | @cons g _ fs _ h1 h2 =>
      obtain ⟨hn, hv⟩ := h1
      dsimp only at hn
      rw [List.find?_cons] at hm
      split at hm
      · cases hm
        dsimp only at hn hv
        subst hn
        rcases hv with ⟨hv, -⟩ | hv
        · subst hv
          simp [collectA] at he
          exact ⟨he.symm, .inl (by simp [rlookup])⟩
        · match v, hv with
          | .list l, hv =>
            cases hv with
            | list _ hl =>
              have he : collectL pre 0 paths l = .error e := by simpa [collectA] using he
              obtain ⟨rfl, j, z, hj, hz⟩ := collectL_hollow l hl pre 0 paths e he
              exact ⟨rfl, .inr ⟨l, j, z, by simp [rlookup], hj, by simpa using hz⟩⟩
      · rename_i hx
        have hx : f ≠ .model .value := by rw [hn]; simpa using hx
        have he : collectA pre paths rest = .error e := by cases v <;> simpa [collectA, hx] using he
        have := collectA_hollow rest fs h2 hm pre paths e he
        simpa [rlookup, hx] using this
theorem collectL_hollow : ∀ (l : List RVal), (∀ x ∈ l, HasType (respSchema lim) elementTy x) → ∀ (pre : Str) (idx : Nat) (paths : Paths) (e : PyExc),
    collectL pre idx paths l = .error e → e = .typeError ∧ ∃ j z, l[j]? = some z ∧ HollowAt pre (idx + j) z
  | [], _, _, _, _, _, h => by cases h
  | v :: vs, h, pre, idx, paths, e, he => by
    rw [collectL] at he
    cases hc : collect pre idx paths v with
    | error e' =>
      rw [hc] at he
      cases he
      obtain ⟨rfl, hh⟩ := collect_hollow v (h v List.mem_cons_self) pre idx paths _ hc
      exact ⟨rfl, 0, v, rfl, hh⟩
    | ok p =>
      rw [hc] at he
      obtain ⟨rfl, j, z, hj, hz⟩ := collectL_hollow vs (fun x hx => h x (List.mem_cons_of_mem _ hx)) pre (idx + 1) p e he
      exact ⟨rfl, j + 1, z, hj, by rw [show idx + (j + 1) = idx + 1 + j by omega]; exact hz⟩
end

theorem hollow_at {l : List RVal} : Hollow l ↔ ∃ j z, l[j]? = some z ∧ HollowAt [] j z :=
  ⟨fun ⟨i, x, c, attrs, p, h1, h2⟩ => ⟨i, x, h1, c, attrs, p, h2⟩, fun ⟨i, x, h1, c, attrs, p, h2⟩ => ⟨i, x, c, attrs, p, h1, h2⟩⟩

/-- paths are found iff an element has an idShort -/
theorem paths_iff {l : List RVal} {paths : Paths} (h : collectL [] 0 [] l = .ok paths) (hl : ∀ x ∈ l, HasType (respSchema lim) elementTy x) :
    (∃ x ∈ l, ∃ s, HasIdShort x s) ↔ ∃ k p ps rest, paths = (k, p :: ps) :: rest := by
  have hh := collectL_has l [] 0 [] paths h
  have hg := collectL_good l hl [] 0 [] (fun _ h => by cases h) (fun _ h => by cases h)
  rw [h] at hg
  constructor
  · rintro ⟨x, hx, s, hs⟩
    obtain ⟨j, hj, rfl⟩ := List.mem_iff_getElem.mp hx
    cases hx' : l[j] with
    | obj c attrs =>
      rw [hx'] at hs
      obtain ⟨e, he, -⟩ := (hh (modelType c) s).mpr (.inr ⟨j, l[j], by simp [hj], c, attrs, rfl, by rw [hx']; exact .self hs⟩)
      match paths, he, hg with
      | (k, p :: ps) :: rest, _, _ => exact ⟨k, p, ps, rest, rfl⟩
      | (k, []) :: rest, _, hg => exact absurd rfl (hg _ List.mem_cons_self).1
    | _ => rw [hx'] at hs; obtain ⟨c, hs⟩ := hs; rw [hasAttr_iff] at hs; cases hs
  · rintro ⟨k, p, ps, rest, rfl⟩
    have : Has ((k, p :: ps) :: rest) k p := ⟨_, List.mem_cons_self, rfl, List.mem_cons_self⟩
    rcases (hh k p).mp this with ⟨e, he, -⟩ | ⟨j, z, hj, d, attrs, -, hb⟩
    · cases he
    · exact ⟨z, List.mem_of_getElem? hj, below_named hb⟩

theorem elementSuite_plan (hs : Sound env) {base : List Seg} {operation : Str} {call : Call} {tests : List (Test (Paths × Str))} :
    SuitePlan env lim base [elementsAsk (base ++ [.text py!"/submodel-elements"])] (elementSuite ⟨lim, text⟩ operation call tests) := by
  have hst : ∀ {v : RVal}, HasType (respSchema lim) (pageTy .elements) v → ∃ l, Entries v l ∧ (∀ x ∈ l, HasType (respSchema lim) elementTy x) ∧
      elementState v = (collectL [] 0 [] l >>= fun paths => match paths with
        | [] => .error .stopIteration
        | (_, p :: _) :: _ => .ok (paths, p)
        | (_, []) :: _ => .error .indexError) := fun {v} hv => by
    obtain ⟨cur, l, rfl, -, hl⟩ := page_shape hv
    exact ⟨l, ⟨_, _, rfl, rfl⟩, hl, rfl⟩
  refine one_plan (text := text) (a := elementsAsk (base ++ [.text py!"/submodel-elements"])) (suite := elementSuite ⟨lim, text⟩ operation call tests) hs (c := getAllSubmodelElements) rfl rfl
    (kw := []) ⟨rfl, fun _ h => by cases h⟩ rfl rfl rfl (fun _ => rfl) (fun v _ => does_lift (elementState v)) (fun v x hv hx => ?_) fun v e hv he => ?_
  · obtain ⟨l, h1, h2, h3⟩ := hst hv
    rw [h3] at hx
    obtain ⟨paths, hp, hx⟩ := bind_ok.mp hx
    refine ⟨rfl, l, h1, ?_, (paths_iff hp h2).mpr ?_⟩
    · rw [hollow_at]
      rintro ⟨j, z, hj, hz⟩
      exact collectL_full l [] 0 [] paths hp j z hj (by simpa using hz)
    · match paths, hx with
      | (k, p :: ps) :: rest, _ => exact ⟨k, p, ps, rest, rfl⟩
  · obtain ⟨l, h1, h2, h3⟩ := hst hv
    rw [h3] at he
    refine ⟨l, h1, ?_⟩
    cases hc : collectL [] 0 [] l with
    | error e' =>
      rw [hc] at he
      cases he
      obtain ⟨rfl, j, z, hj, hz⟩ := collectL_hollow l h2 [] 0 [] _ hc
      exact .inl ⟨hollow_at.mpr ⟨j, z, hj, by simpa using hz⟩, rfl⟩
    | ok paths =>
      rw [hc] at he
      refine .inr ⟨?_, ?_⟩
      · rw [hollow_at]
        rintro ⟨j, z, hj, hz⟩
        exact collectL_full l [] 0 [] paths hc j z hj (by simpa using hz)
      · have hg := collectL_good l h2 [] 0 [] (fun _ h => by cases h) (fun _ h => by cases h)
        rw [hc] at hg
        match paths, he, hg, hc with
        | [], he, _, hc =>
          cases he
          refine ⟨fun x hx s hs => ?_, rfl⟩
          obtain ⟨k, p, ps, rest, h⟩ := (paths_iff hc h2).mp ⟨x, hx, s, hs⟩
          cases h
        | (k, []) :: rest, _, hg, _ => exact absurd rfl (hg _ List.mem_cons_self).1

/-- what the setup takes from the first shell -/
def shellValues (page shell : RVal) : Except PyExc ShellState := do
  let i ← rattr shell (.model .idShort)
  let idShort ← rraw i
  let info ← rattr shell (.model .assetInformation)
  let g ← rattr info (.model .globalAssetId)
  let globalAssetId ← rraw g
  let assetId ←
    if !globalAssetId.isEmpty then pure (ArgVal.assetId py!"globalAssetId" globalAssetId)
    else do
      let l ← rattr info (.model .specificAssetIds)
      let s ← rfirst l
      let n ← rattr s (.model .name)
      let n ← rraw n
      let v ← rattr s (.model .value)
      let v ← rraw v
      pure (.assetId n v)
  let cursor ← pageCursor page
  return ⟨idShort, assetId, cursor⟩

theorem shellState_values (v : RVal) : shellState v = firstResult v >>= shellValues v := rfl

theorem shellValues_ok {v x : RVal} {s : ShellState} (h : shellValues v x = .ok s) : named x [] := by
  unfold shellValues at h
  simp only [bind_ok] at h
  obtain ⟨i, h1, t, h2, info, h3, g, h4, u, h5, -⟩ := h
  obtain ⟨c, rfl⟩ := rraw_iff.mp h2
  obtain ⟨c', rfl⟩ := rraw_iff.mp h5
  exact ⟨rfl, ⟨t, c, hasAttr_iff.mpr h1⟩, info, c', u, hasAttr_iff.mpr h3, hasAttr_iff.mpr h4⟩

theorem shellValues_error {v x : RVal} {e : PyExc} (hv : HasType (respSchema lim) (pageTy .shells) v) (hx : HasType (respSchema lim) (Page.shells).item x)
    (h : shellValues v x = .error e) : unnamed x e := by
  obtain ⟨cur, l, rfl, -, -⟩ := page_shape hv
  obtain ⟨a, rfl, ha⟩ := model_obj (c := .assetAdministrationShell) rfl hx
  unfold shellValues at h
  simp only [bind, Except.bind] at h
  obtain ⟨h1, h2⟩ := ha.field (f := .idShort) (key := py!"idShort") (ty := .sfv .nameTypeString) (req := false) rfl
  rw [rattr_emb h1] at h
  dsimp only at h
  rcases h2 with ⟨h2, -⟩ | h2
  · rw [h2] at h h1
    cases h
    exact ⟨rfl, .inl (hasAttr_iff.mpr (rattr_emb h1))⟩
  · obtain ⟨t, ht, -⟩ := sfv_raw h2
    rw [ht] at h
    dsimp only at h
    obtain ⟨h3, h4⟩ := ha.obj (f := .assetInformation) (key := py!"assetInformation") (d := .assetInformation) rfl rfl
    rw [rattr_emb h3] at h
    dsimp only at h
    obtain ⟨h5, h6⟩ := h4.field (f := .globalAssetId) (key := py!"globalAssetId") (ty := .sfv .identifierString) (req := false) rfl
    rw [rattr_emb h5] at h
    dsimp only at h
    rcases h6 with ⟨h6, -⟩ | h6
    · rw [h6] at h h5
      cases h
      exact ⟨rfl, .inr ⟨_, hasAttr_iff.mpr (rattr_emb h3), hasAttr_iff.mpr (rattr_emb h5)⟩⟩
    · obtain ⟨c, g, hg, -⟩ := identifier_raw h6
      rw [hg] at h
      simp only [List.isEmpty_cons, Bool.not_false, if_true, pure, Except.pure, page_cursor] at h
      cases h

theorem getAllShells_plan (hs : Sound env) : SuitePlan env lim [] [firstEntry [.text py!"/shells"] .shells named unnamed] (getAllShellsSuite ⟨lim, text⟩) :=
  first_plan (text := text) (suite := getAllShellsSuite ⟨lim, text⟩) hs (c := getAllShells) rfl rfl rfl rfl rfl (fun _ => rfl)
    (g := shellValues) (fun v => does_lift (shellState v)) (fun _ _ _ _ _ => shellValues_ok) fun _ _ _ => shellValues_error

theorem getAllShellsReference_plan (hs : Sound env) : SuitePlan env lim [] [firstEntry [.text py!"/shells"] .shells named unnamed] (getAllShellsReferenceSuite ⟨lim, text⟩) :=
  first_plan (text := text) (suite := getAllShellsReferenceSuite ⟨lim, text⟩) hs (c := getAllShells) rfl rfl rfl rfl rfl (fun _ => rfl)
    (g := shellValues) (fun v => does_lift (shellState v)) (fun _ _ _ _ _ => shellValues_ok) fun _ _ _ => shellValues_error

end Verif.Api.Suites
