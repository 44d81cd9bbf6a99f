import Verif.TemplateTellLemmas2
import Verif.PlaceLemmas

/-! # The lines of the template parser and the places of elements -/

namespace Verif.Templates.Texts
open Res Verif.Templates Verif Verif.Parse Verif.Aas Verif.Spec.Model Verif.Spec.Templates Verif.Spec.Parse Verif.Spec Verif.Spec.Paths

variable {lim : Option Nat} {v : AVal} {W : Words}

theorem line_eq (w : Str) (p : List PTok) : w ++ py!" @ " ++ pathText p = w ++ py!" @ /" ++ Py.join py!"/" (p.map PTok.text) := by
  rw [pathText, ← List.append_assoc, List.append_assoc w]
  rfl

theorem line_of_flaw {c : TCls} {els : List AVal} {b : Bool} {ty : TTy} {x : AVal} {p : List PTok} {m : M} (h : FlawT W b ty x p m) :
    ∀ {s}, At c els s (p.map PTok.text) ty x → LineOf W c els b (s ++ m.1, m.2) := by
  induction h with
  | here hw => intro s ha; rw [line_eq, List.append_nil]; exact .element ha hw
  | number hc hf hn => exact fun ha => .number (.inr ⟨_, _, ha, hc, rfl⟩) hf hn
  | single hc hf hw hm hy _ ih =>
    intro s ha
    have := ih (by rw [List.map_append]; exact .deeper ha hc (.single hf hw hm hy))
    rwa [List.append_assoc] at this
  | item hc hf hw hm hy _ ih =>
    intro s ha
    have := ih (by rw [List.map_append]; exact .deeper ha hc (.item hf hw hm hy (decimal_iff.mpr rfl)))
    rwa [List.append_assoc] at this

theorem names_plain (c : TCls) : ∀ f ∈ tfieldsOf c, (PTok.key (fieldName f)).Plain := by
  have h : ∀ f ∈ tfieldsOf c, (fieldName f).head?.any (fun a => decide (57 < a)) = true ∧ (fieldName f).contains (pc! '/') = false ∧
      (fieldName f).contains (pc! ' ') = false := by cases c <;> decide +kernel
  intro f hf
  obtain ⟨h1, h2, h3⟩ := h f hf
  simp only [PTok.Plain, PTok.text]
  cases hn : fieldName f with
  | nil => rw [hn] at h1; cases h1
  | cons a s =>
    rw [hn] at h1 h2 h3
    refine ⟨by simp, fun hm => ?_, fun hm => ?_, ?_⟩
    · rw [List.contains_iff_mem.mpr hm] at h2; cases h2
    · rw [List.contains_iff_mem.mpr hm] at h3; cases h3
    · rintro k i ⟨⟩ he
      have := Res.natStr_digits i a (he ▸ .head _)
      simp at h1
      omega

theorem fields_nodup (c : TCls) : (tfieldsOf c).Nodup := by
  have h : (tfieldsOf c).Pairwise fun f g => f.name ≠ g.name := by cases c <;> decide +kernel
  exact h.imp fun hne e => hne (congrArg TField.name e)

theorem names_inj (c : TCls) : ∀ f ∈ tfieldsOf c, ∀ g ∈ tfieldsOf c, fieldName f = fieldName g → f = g := by
  cases c <;> decide +kernel

/-! ## places are unique -/

/-- what follows in a place after the first element -/
def Then (ty : TTy) (x : AVal) (s : List Nat) (p : List Str) (ty' : TTy) (y : AVal) : Prop :=
  (s = [] ∧ p = [] ∧ ty' = ty ∧ y = x) ∨ ∃ d, ty = .cls d ∧ Collection true x ∧ At d (elems x .value) s p ty' y

theorem Then.deeper {ty : TTy} {x : AVal} {s : List Nat} {p : List Str} {d : TCls} {y : AVal} (h : Then ty x s p (.cls d) y) (hc : Collection true y)
    {s' : List Nat} {q : List Str} {ty' : TTy} {z : AVal} (h2 : At d (elems y .value) s' q ty' z) : Then ty x (s ++ s') (p ++ q) ty' z := by
  rcases h with ⟨rfl, rfl, rfl, rfl⟩ | ⟨e, rfl, h1, h3⟩
  · exact .inr ⟨d, rfl, hc, h2⟩
  · exact .inr ⟨e, rfl, h1, .deeper h3 hc h2⟩

/-- the first element of a place -/
def Step (els : List AVal) (f : TField) (i : Nat) (x : AVal) (p : List Str) (r : List Str) : Prop :=
  (f.max = some 1 ∧ i = 0 ∧ x ∈ matching f els ∧ p = fieldName f :: r) ∨
    (f.max ≠ some 1 ∧ (matching f els)[i]? = some x ∧ p = fieldName f :: Py.natStr i :: r)

theorem first_step {c : TCls} {els : List AVal} {s : List Nat} {p : List Str} {ty : TTy} {y : AVal} (h : At c els s p ty y) :
    ∃ k f i x s' r, (tfieldsOf c)[k]? = some f ∧ Within f (matching f els).length ∧ Step els f i x p r ∧ s = k :: i :: s' ∧ Then f.ty x s' r ty y := by
  induction h with
  | single hf hw hm hy => exact ⟨_, _, 0, _, [], [], hf, hw, .inl ⟨hm, rfl, hy, rfl⟩, rfl, .inl ⟨rfl, rfl, rfl, rfl⟩⟩
  | item hf hw hm hy hd =>
    rw [decimal_iff] at hd
    subst hd
    exact ⟨_, _, _, _, [], [], hf, hw, .inr ⟨hm, hy, rfl⟩, rfl, .inl ⟨rfl, rfl, rfl, rfl⟩⟩
  | deeper h1 hc h2 ih1 =>
    obtain ⟨k, f, i, x, s', r, hf, hw, hs, rfl, ht⟩ := ih1
    refine ⟨k, f, i, x, _, _, hf, hw, ?_, rfl, ht.deeper hc h2⟩
    rcases hs with ⟨hm, hi, hx, rfl⟩ | ⟨hm, hx, rfl⟩
    · exact .inl ⟨hm, hi, hx, rfl⟩
    · exact .inr ⟨hm, hx, rfl⟩

theorem at_ne_nil {c : TCls} {els : List AVal} {p : List Str} {ty : TTy} {y : AVal} (h : At c els [] p ty y) : False := by
  obtain ⟨k, f, i, x, s', r, -, -, -, e, -⟩ := first_step h
  cases e

theorem at_ne_nil' {c : TCls} {els : List AVal} {s : List Nat} {ty : TTy} {y : AVal} (h : At c els s [] ty y) : False := by
  obtain ⟨k, f, i, x, s', r, -, -, hs, -, -⟩ := first_step h
  rcases hs with ⟨-, -, -, e⟩ | ⟨-, -, e⟩ <;> cases e

theorem at_even : ∀ {c : TCls} {els : List AVal} {s : List Nat} {p : List Str} {ty : TTy} {y : AVal}, At c els s p ty y → s.length % 2 = 0 := by
  intro c els s p ty y h
  induction h with
  | single => simp
  | item => simp
  | deeper _ _ _ ih1 ih2 => rw [List.length_append]; omega

/-- where the first elements of two places are the same: at most one element for fields with one -/
theorem step_same {els : List AVal} {f : TField} {i : Nat} {x x' : AVal} {p p' r r' : List Str} (hw : Within f (matching f els).length)
    (h : Step els f i x p r) (h' : Step els f i x' p' r') : x = x' := by
  rcases h with ⟨hm, -, hx, -⟩ | ⟨hm, hx, -⟩ <;> rcases h' with ⟨hm', -, hx', -⟩ | ⟨hm', hx', -⟩
  · have hl := hw.2 1 hm
    match hl' : matching f els with
    | [] => rw [hl'] at hx; cases hx
    | [a] => rw [hl'] at hx hx'; simp_all
    | _ :: _ :: _ => rw [hl'] at hl; simp at hl
  · exact absurd hm hm'
  · exact absurd hm' hm
  · rw [hx] at hx'
    exact Option.some.inj hx'

theorem step_place {els : List AVal} {f : TField} {i : Nat} {x x' : AVal} {p p' r : List Str}
    (h : Step els f i x p r) (h' : Step els f i x' p' r) : p = p' := by
  rcases h with ⟨hm, -, -, rfl⟩ | ⟨hm, -, rfl⟩ <;> rcases h' with ⟨hm', -, -, rfl⟩ | ⟨hm', -, rfl⟩
  · rfl
  · exact absurd hm hm'
  · exact absurd hm' hm
  · rfl

/-- one element for each rank -/
theorem at_rank : ∀ (n : Nat) {c : TCls} {els : List AVal} {s : List Nat} {p p' : List Str} {ty ty' : TTy} {y y' : AVal}, s.length < n →
    At c els s p ty y → At c els s p' ty' y' → p = p' ∧ ty = ty' ∧ y = y'
  | 0, _, _, _, _, _, _, _, _, _, hn, _, _ => by omega
  | n + 1, c, els, s, p, p', ty, ty', y, y', hn, h, h' => by
    have aux : ∀ {u : TTy} {x : AVal} {t : List Nat} {r r' : List Str}, t.length < n → Then u x t r ty y → Then u x t r' ty' y' →
        r = r' ∧ ty = ty' ∧ y = y' := by
      rintro u x t r r' hr (⟨rfl, rfl, rfl, rfl⟩ | ⟨d, rfl, -, h1⟩) (⟨h2, rfl, rfl, rfl⟩ | ⟨d', e, -, h2⟩)
      · exact ⟨rfl, rfl, rfl⟩
      · exact (at_ne_nil h2).elim
      · subst h2; exact (at_ne_nil h1).elim
      · cases e; exact at_rank n hr h1 h2
    obtain ⟨k, f, i, x, t, r, hf, hw, hs, rfl, ht⟩ := first_step h
    obtain ⟨k', f', i', x', t', r', hf', -, hs', e, ht'⟩ := first_step h'
    cases e
    rw [hf] at hf'
    cases hf'
    have := step_same hw hs hs'
    subst this
    obtain ⟨rfl, h1, h2⟩ := aux (by simp at hn; omega) ht ht'
    exact ⟨step_place hs hs', h1, h2⟩

/-- one rank for each place -/
theorem at_place : ∀ (n : Nat) {c : TCls} {els : List AVal} {s s' : List Nat} {p : List Str} {ty ty' : TTy} {y y' : AVal}, p.length < n →
    At c els s p ty y → At c els s' p ty' y' → s = s'
  | 0, _, _, _, _, _, _, _, _, _, hn, _, _ => by omega
  | n + 1, c, els, s, s', p, ty, ty', y, y', hn, h, h' => by
    have aux : ∀ {u : TTy} {x : AVal} {t t' : List Nat} {r : List Str}, r.length < n → Then u x t r ty y → Then u x t' r ty' y' → t = t' := by
      rintro u x t t' r hr (⟨rfl, rfl, rfl, rfl⟩ | ⟨d, rfl, -, h1⟩) (⟨rfl, h2, rfl, rfl⟩ | ⟨d', e, -, h2⟩)
      · rfl
      · exact (at_ne_nil' h2).elim
      · subst h2; exact (at_ne_nil' h1).elim
      · cases e; exact at_place n hr h1 h2
    obtain ⟨k, f, i, x, t, r, hf, hw, hs, rfl, ht⟩ := first_step h
    obtain ⟨k', f', i', x', t', r', hf', -, hs', rfl, ht'⟩ := first_step h'
    have hff : f = f' := by
      apply names_inj c f (List.mem_of_getElem? hf) f' (List.mem_of_getElem? hf')
      rcases hs with ⟨-, -, -, rfl⟩ | ⟨-, -, rfl⟩ <;> rcases hs' with ⟨-, -, -, e⟩ | ⟨-, -, e⟩ <;> exact (List.cons.inj e).1
    subst hff
    have hkk : k = k' := by
      have hnd := fields_nodup c
      have hlt := (List.getElem?_eq_some_iff.mp hf).1
      have hlt' := (List.getElem?_eq_some_iff.mp hf').1
      have e1 := (List.getElem?_eq_some_iff.mp hf).2
      have e2 := (List.getElem?_eq_some_iff.mp hf').2
      exact (List.getElem_inj hnd).mp (e1.trans e2.symm)
    subst hkk
    have hir : i = i' ∧ r = r' := by
      rcases hs with ⟨hm, rfl, -, rfl⟩ | ⟨hm, -, rfl⟩ <;> rcases hs' with ⟨hm', rfl, -, e⟩ | ⟨hm', -, e⟩
      · cases e; exact ⟨rfl, rfl⟩
      · exact absurd hm hm'
      · exact absurd hm' hm
      · simp only [List.cons.injEq, true_and] at e
        exact ⟨Aas.natStr_inj e.1, e.2⟩
    obtain ⟨rfl, rfl⟩ := hir
    have := step_same hw hs hs'
    subst this
    have hl : r.length < n := by
      rcases hs with ⟨-, -, -, rfl⟩ | ⟨-, -, rfl⟩ <;> simp at hn <;> omega
    rw [aux hl ht ht']

theorem at_unique {c : TCls} {els : List AVal} {s s' : List Nat} {p : List Str} {ty ty' : TTy} {y y' : AVal}
    (h : At c els s p ty y) (h' : At c els s' p ty' y') : s = s' ∧ ty = ty' ∧ y = y' := by
  have := at_place _ (Nat.lt_succ_self _) h h'
  subst this
  exact ⟨rfl, (at_rank _ (Nat.lt_succ_self _) h h').2⟩

theorem flaw_of_at {c : TCls} {els : List AVal} {ty : TTy} {x : AVal} {s : List Nat} {p : List Str} (h : At c els s p ty x) :
    ∃ q : List PTok, q.map PTok.text = p ∧ (∀ t ∈ q, t.Plain) ∧
      ∀ q0 b m, FlawT W b ty x (q0 ++ q) m → ∃ k f, (tfieldsOf c)[k]? = some f ∧ Under k (FieldFlaw W f (matching f els) q0) b (s ++ m.1, m.2) := by
  induction h with
  | single hf hw hm hy =>
    exact ⟨[_], rfl, by simpa using names_plain _ _ (List.mem_of_getElem? hf), fun q b t h => ⟨_, _, hf, _, .single hw hm hy h, rfl⟩⟩
  | item hf hw hm hy hd =>
    rw [decimal_iff] at hd
    subst hd
    exact ⟨[_, _], rfl, by simpa using ⟨names_plain _ _ (List.mem_of_getElem? hf), idx_plain _⟩, fun q b t h => ⟨_, _, hf, _, .item hw hm hy h, rfl⟩⟩
  | @deeper _ _ _ _ d z _ _ _ _ h1 hc h2 ih1 ih2 =>
    obtain ⟨p, rfl, hp, ih1⟩ := ih1
    obtain ⟨p', rfl, hp', ih2⟩ := ih2
    refine ⟨p ++ p', List.map_append, fun t ht => (List.mem_append.mp ht).elim (hp t) (hp' t), fun q b m h => ?_⟩
    rw [← List.append_assoc] at h
    obtain ⟨k, f, hf, m', hk, e⟩ := ih2 _ _ _ h
    have hd : FlawT W b (.cls d) z (q ++ p) (under k m') := by
      cases hk with
      | number h3 => exact .number hc hf h3
      | single h3 h4 h5 h6 => exact .single hc hf h3 h4 h5 h6
      | item h3 h4 h5 h6 => exact .item hc hf h3 h4 h5 h6
    rw [← e] at hd
    have := ih1 q b _ hd
    rwa [← List.append_assoc] at this

theorem lineOf_iff {c : TCls} {els : List AVal} {b : Bool} {m : M} :
    (∃ k f, (tfieldsOf c)[k]? = some f ∧ Under k (FieldFlaw W f (matching f els) []) b m) ↔ LineOf W c els b m := by
  constructor
  · rintro ⟨k, f, hf, m, h, rfl⟩
    cases h with
    | number h => exact .number (.inl ⟨rfl, rfl, rfl⟩) hf h
    | single h1 h2 h3 h4 => exact line_of_flaw h4 (.single hf h1 h2 h3)
    | item h1 h2 h3 h4 => exact line_of_flaw h4 (.item hf h1 h2 h3 (decimal_iff.mpr rfl))
  · intro h
    cases h with
    | element ha hw =>
      obtain ⟨p, rfl, -, h⟩ := flaw_of_at (W := W) ha
      rw [← line_eq]
      have := h [] _ _ (.here hw)
      rwa [List.append_nil] at this
    | number hi hf hn =>
      rcases hi with ⟨rfl, rfl, rfl⟩ | ⟨p, x, ha, hc, rfl⟩
      · exact ⟨_, _, hf, _, .number hn, rfl⟩
      · obtain ⟨p, rfl, -, h⟩ := flaw_of_at (W := W) ha
        exact h [] _ _ (.number hc hf hn)

theorem submodel_lines (h : Obj lim .submodel v) (c : TCls) (res : Res Str) :
    Notes (LineOf W c (elems v .submodelElements)) res (tellSubmodel W c v res) :=
  (submodel_notes h c res).congr fun _ _ => lineOf_iff

theorem told_rules {c : TCls} {els : List AVal} {attrs : List (Str × TVal)} (h : AttrsOk els (tfieldsOf c) attrs) (res r : Res Str)
    (hr : tellRules (.obj c attrs) res = .ok r) :
    (¬ (c = .digitalNameplate ∧ ¬ FamilyOrType els) → r = res) ∧
    (c = .digitalNameplate ∧ ¬ FamilyOrType els →
      r = res.appendAll (errsT [py!"Either ManufacturerProductFamily or ManufacturerProductType is required @ /"])) := by
  rw [tellRules] at hr
  cases hc : checkConstraints id tchecks (.obj c attrs) [] (Res.new ⟨.title [], []⟩) with
  | error e => rw [hc] at hr; cases hr
  | ok r' =>
    rw [hc] at hr
    cases hr
    have := family_notes h _ _ hc
    refine ⟨fun hx => ?_, fun hx => ?_⟩
    · rw [this.1 hx]; rfl
    · rw [this.2 hx]; rfl

theorem submodel_told (h : Obj lim .submodel v) {sid : Str} {c : TCls} (hs : semanticId? v = some sid) (ht : (sid, c) ∈ templates)
    (root r : Res Str) (hr : tellOne W root v = .ok r) : ∃ sub, SubmodelTold W c sid v sub ∧ r = root.append sub := by
  obtain ⟨w, hi, hw⟩ := id_text h
  rw [tellOne, submodelKey_spec h, hs] at hr
  simp only [bind, Except.bind, dictGet_templates.mpr ht, hi, hw] at hr
  have hsim := sim_submodel W (r := (Res.new ⟨.title py!"Check submodel", []⟩).append (Res.new ⟨.title (py!"Template: " ++ c.pyName), []⟩))
        (s := (Res.new (py!"Check submodel '" ++ txt v .id ++ py!"'")).append (Res.new (py!"Template: " ++ c.pyName ++ py!" (" ++ sid ++ py!")"))) rfl c v
  generalize hres : ((Res.new (py!"Check submodel '" ++ txt v .id ++ py!"'")).append
    (Res.new (py!"Template: " ++ c.pyName ++ py!" (" ++ sid ++ py!")")) : Res Str) = res at hr hsim
  generalize hres' : ((Res.new ⟨.title py!"Check submodel", []⟩).append (Res.new ⟨.title (py!"Template: " ++ c.pyName), []⟩) : Res Note) = res' at hsim
  have hok : res.ok = true := by rw [← hres]; rfl
  have hok' : res'.ok = true := by rw [← hres']; rfl
  have ho := submodel_out h c res'
  rcases hsim with ⟨e, -, h2⟩ | ⟨a, r1, s1, h1, h2, h3⟩
  · rw [h2] at hr; cases hr
  rw [h2] at hr
  dsimp only at hr
  obtain ⟨lines, rfl, hsay⟩ := submodel_lines h c res _ _ h2
  rw [hok] at hsay
  have hsay : Listed (LineOf W c (elems v .submodelElements)) lines := hsay
  cases lines with
  | nil =>
    rw [List.map_nil] at hr h3
    have hok1 : (res.appendAll (errsT [])).ok = true := hok
    have hr1 : r1.ok = true := by rw [ok_of_shape h3]; exact hok
    rw [hok1, if_pos rfl] at hr
    have hA : ∃ attrs, a = .obj c attrs ∧ AttrsOk (elems v .submodelElements) (tfieldsOf c) attrs := by
      by_cases hR : RaisesSubmodel c v
      · obtain ⟨e, -, he⟩ := ho.1 hR
        rw [he] at h1
        cases h1
      · obtain ⟨w, notes, he, hf, hv⟩ := ho.2 hR
        rw [he] at h1
        cases h1
        exact hv hok' ((appendAll_errs_ok _ _).mp hr1).2
    obtain ⟨attrs, rfl, hA⟩ := hA
    cases hc : tellRules (.obj c attrs) (res.appendAll (errsT [])) with
    | error e => rw [hc] at hr; cases hr
    | ok r' =>
      rw [hc] at hr
      cases hr
      have := told_rules hA _ _ hc
      by_cases hx : c = .digitalNameplate ∧ ¬ FamilyOrType (elems v .submodelElements)
      · exact ⟨_, ⟨[], _, hsay, .inl ⟨rfl, hx.1, hx.2, rfl⟩, rfl⟩, by rw [this.2 hx, hres]; rfl⟩
      · exact ⟨_, ⟨[], [], hsay, .inr ⟨fun hh => hx hh.2, rfl⟩, rfl⟩, by rw [this.1 hx, hres]; rfl⟩
  | cons t ts =>
    have hno : (res.appendAll (errsT ((t :: ts).map (·.2)))).ok = false := by rw [errsT_ok, hok]; rfl
    rw [hno, if_neg (by simp)] at hr
    cases hr
    exact ⟨_, ⟨t :: ts, [], hsay, .inr ⟨fun hh => List.cons_ne_nil _ _ hh.1, rfl⟩, rfl⟩, by rw [hres, List.append_nil]; rfl⟩

theorem one_skip (h : Obj lim .submodel v) (hno : ∀ sid c, semanticId? v = some sid → (sid, c) ∉ templates) (root : Res Str) :
    tellOne W root v = .ok root := by
  obtain ⟨w, hi, -⟩ := id_text h
  rw [tellOne, submodelKey_spec h]
  simp only [bind, Except.bind]
  cases hk : semanticId? v with
  | none => rfl
  | some sid =>
    dsimp only
    rw [hi]
    dsimp only
    cases hd : dictGet sid templates with
    | none => rfl
    | some c => exact absurd (dictGet_templates.mp hd) (hno sid c hk)

theorem submodels_told : ∀ (sms : List AVal) (root r : Res Str), (∀ x ∈ sms, Obj lim .submodel x) → tellAll W root sms = .ok r →
    ∃ subs, r = root.appendAll subs ∧ subs.length = (templated sms).length ∧
      ∀ p ∈ (templated sms).zip subs, ∃ sid, semanticId? p.1.1 = some sid ∧ SubmodelTold W p.1.2 sid p.1.1 p.2
  | [], root, r, _, e => by
    cases e
    exact ⟨[], rfl, rfl, by simp [templated]⟩
  | sm :: sms, root, r, h, e => by
    have ho := h sm (by simp)
    rw [tellAll] at e
    by_cases hh : ∃ sid c, semanticId? sm = some sid ∧ (sid, c) ∈ templates
    · obtain ⟨sid, c, h1, h2⟩ := hh
      have hT : templated (sm :: sms) = (sm, c) :: templated sms := by
        rw [templated, List.filterMap_cons, h1, Option.bind_some, template_of h2]; rfl
      cases hc : tellOne W root sm with
      | error e' => rw [hc] at e; cases e
      | ok r' =>
        rw [hc] at e
        obtain ⟨sub, h3, rfl⟩ := submodel_told ho h1 h2 root r' hc
        obtain ⟨subs, h5, h6, h7⟩ := submodels_told sms _ r (fun x hx => h x (by simp [hx])) e
        rw [hT]
        refine ⟨sub :: subs, h5, by simp [h6], fun p hp => ?_⟩
        rw [List.zip_cons_cons, List.mem_cons] at hp
        rcases hp with rfl | hp
        · exact ⟨sid, h1, h3⟩
        · exact h7 p hp
    · have hno : ∀ sid c, semanticId? sm = some sid → (sid, c) ∉ templates := fun sid c h1 h2 => hh ⟨sid, c, h1, h2⟩
      have hT : templated (sm :: sms) = templated sms := by
        rw [templated, List.filterMap_cons]
        match hk : semanticId? sm with
        | none => rfl
        | some sid => rw [Option.bind_some, template_none (fun c => hno sid c hk)]; rfl
      rw [one_skip ho hno root] at e
      rw [hT]
      exact submodels_told sms root r (fun x hx => h x (by simp [hx])) e

end Verif.Templates.Texts
