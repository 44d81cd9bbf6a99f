import Verif.ModelLemmas
import Verif.ConfigLemmas

/-! # C39: names of attributes -/

namespace Verif.Props
open Verif Verif.Parse Verif.Aas Verif.Spec Verif.Spec.Parse

/-- a word of a snake_case name: a lower case letter, then lower case letters and digits -/
def Word (w : Str) : Prop := ∃ c t, w = c :: t ∧ IsLower c ∧ ∀ x ∈ t, IsLower x ∨ IsNum x

instance (w : Str) : Decidable (Word w) :=
  match w with
  | [] => isFalse (by rintro ⟨c, t, h, _⟩; cases h)
  | c :: t => decidable_of_iff (IsLower c ∧ ∀ x ∈ t, IsLower x ∨ IsNum x)
      ⟨fun h => ⟨c, t, rfl, h⟩, fun ⟨_, _, h, h'⟩ => by cases h; exact h'⟩

/-- the word with an upper case first letter -/
def titled : Str → Str
  | [] => []
  | c :: t => (c - 32) :: t

/-- the lowerCamelCase name made of some words -/
def camel : List Str → Str
  | [] => []
  | w :: ws => w ++ (ws.map titled).flatten

/-- the snake_case name made of some words -/
def snake (ws : List Str) : Str := Py.join [pc! '_'] ws

theorem lower_fix {c : Nat} (h : IsLower c ∨ IsNum c ∨ c = 95) : lowerChar c = c := by
  unfold lowerChar IsLower IsNum at *
  rw [if_neg]; simp only [Bool.and_eq_true, decide_eq_true_eq]; omega

theorem word_chars {w : Str} (h : Word w) : ∀ c ∈ w, IsLower c ∨ IsNum c ∨ c = 95 := by
  obtain ⟨c, t, rfl, h1, h2⟩ := h
  intro x hx
  rcases List.mem_cons.mp hx with rfl | hx
  · exact .inl h1
  · exact (h2 x hx).imp id .inl

theorem word_no_sep {w : Str} (h : Word w) : 95 ∉ w := by
  obtain ⟨c, t, rfl, h1, h2⟩ := h
  intro hx
  rcases List.mem_cons.mp hx with rfl | hx
  · unfold IsLower at h1; omega
  · have := h2 _ hx; unfold IsLower IsNum at this; omega

theorem map_fix {s : Str} {f : Nat → Nat} (h : ∀ c ∈ s, f c = c) : s.map f = s := by
  induction s with
  | nil => rfl
  | cons c s ih => simp [h c List.mem_cons_self, ih (fun c hc => h c (List.mem_cons_of_mem _ hc))]

theorem capitalize_word {w : Str} (h : Word w) : capitalize w = titled w := by
  have hc := word_chars h
  obtain ⟨c, t, rfl, h1, h2⟩ := h
  rw [capitalize, titled, map_fix (fun x hx => lower_fix (hc x (List.mem_cons_of_mem _ hx)))]
  unfold IsLower at h1
  simp [upperChar, h1]

theorem snake_chars {ws : List Str} (h : ∀ w ∈ ws, Word w) : ∀ c ∈ snake ws, IsLower c ∨ IsNum c ∨ c = 95 := by
  unfold snake
  induction ws with
  | nil => simp [Py.join]
  | cons w ws ih =>
    cases ws with
    | nil => simp only [Py.join]; exact word_chars (h w List.mem_cons_self)
    | cons w' ws =>
      intro c hc
      rw [Py.join] at hc
      · rcases List.mem_append.mp hc with hc | hc
        · rcases List.mem_append.mp hc with hc | hc
          · exact word_chars (h w List.mem_cons_self) c hc
          · right; right; simpa using hc
        · exact ih (fun w hw => h w (List.mem_cons_of_mem _ hw)) c hc
      · simp

/-- C39: `to_lower_camel_case` turns every snake_case name into its lowerCamelCase form. -/
theorem C39_naming (ws : List Str) (hne : ws ≠ []) (h : ∀ w ∈ ws, Word w) : toLowerCamelCase (snake ws) = some (camel ws) := by
  have hparts : Py.splitOn 95 (snake ws) = ws :=
    Config.parts_unique 95 _ _ _ (Config.splitOn_parts 95 (snake ws)) ⟨hne, fun w hw => word_no_sep (h w hw), rfl⟩
  cases ws with
  | nil => exact absurd rfl hne
  | cons w ws =>
    have hw := h w List.mem_cons_self
    have hcap : (w :: ws).map capitalize = (w :: ws).map titled :=
      List.map_congr_left fun x hx => capitalize_word (h x hx)
    rw [toLowerCamelCase.eq_def, map_fix (fun c hc => lower_fix (snake_chars h c hc))]
    simp only [hparts, hcap]
    obtain ⟨c, t, rfl, h1, h2⟩ := hw
    have hs : ∃ rest, snake ((c :: t) :: ws) = c :: rest := by
      unfold snake
      cases ws with
      | nil => exact ⟨t, rfl⟩
      | cons w' ws => exact ⟨_, by rw [Py.join]; rfl; simp⟩
    obtain ⟨rest, hs⟩ := hs
    rw [hs]
    simp [titled, camel, lower_fix (.inl h1)]

example : ∀ w ∈ [py!"supplemental", py!"semantic", py!"ids"], Word w := by decide
example : camel [py!"supplemental", py!"semantic", py!"ids"] = py!"supplementalSemanticIds" := by decide

/-- a word is a maximal run without upper case letters -/
theorem titled_split : ∀ (ws vs : List Str), (∀ w ∈ ws, Word w) → (∀ w ∈ vs, Word w) →
    ∀ a b : Str, (∀ x ∈ a, IsLower x ∨ IsNum x) → (∀ x ∈ b, IsLower x ∨ IsNum x) →
    a ++ (ws.map titled).flatten = b ++ (vs.map titled).flatten → a = b ∧ ws = vs := by
  intro ws
  induction ws with
  | nil =>
    intro vs _ hv a b ha hb e
    cases vs with
    | nil => exact ⟨by simpa using e, rfl⟩
    | cons v vs =>
      obtain ⟨c, t, rfl, hc, -⟩ := hv v List.mem_cons_self
      have : c - 32 ∈ a := by
        have e' : a = b ++ (List.map titled ((c :: t) :: vs)).flatten := by simpa using e
        rw [e']; simp [titled]
      have := ha _ this
      unfold IsLower IsNum at *; omega
  | cons w ws ih =>
    intro vs hw hv a b ha hb e
    obtain ⟨c, t, rfl, hc, ht⟩ := hw w List.mem_cons_self
    -- compare position by position
    have key : ∀ a b : Str, (∀ x ∈ a, IsLower x ∨ IsNum x) → (∀ x ∈ b, IsLower x ∨ IsNum x) →
        a ++ (((c :: t) :: ws).map titled).flatten = b ++ (vs.map titled).flatten →
        a = b ∧ (((c :: t) :: ws).map titled).flatten = (vs.map titled).flatten := by
      intro a
      induction a with
      | nil =>
        intro b _ hb e
        cases b with
        | nil => exact ⟨rfl, e⟩
        | cons y b =>
          simp only [List.map_cons, List.flatten_cons, titled, List.nil_append, List.cons_append, List.cons.injEq] at e
          have := hb y List.mem_cons_self
          rw [← e.1] at this
          unfold IsLower IsNum at *; omega
      | cons x a iha =>
        intro b ha hb e
        cases b with
        | nil =>
          cases vs with
          | nil => simp at e
          | cons v vs =>
            obtain ⟨d, u, rfl, hd, -⟩ := hv v List.mem_cons_self
            simp only [List.map_cons, List.flatten_cons, titled, List.nil_append, List.cons_append, List.cons.injEq] at e
            have := ha x List.mem_cons_self
            rw [e.1] at this
            unfold IsLower IsNum at *; omega
        | cons y b =>
          simp only [List.cons_append, List.cons.injEq] at e
          obtain ⟨h1, h2⟩ := iha b (fun z hz => ha z (List.mem_cons_of_mem _ hz)) (fun z hz => hb z (List.mem_cons_of_mem _ hz)) e.2
          exact ⟨by rw [e.1, h1], h2⟩
    obtain ⟨h1, h2⟩ := key a b ha hb e
    refine ⟨h1, ?_⟩
    cases vs with
    | nil => simp [titled] at h2
    | cons v vs =>
      obtain ⟨d, u, rfl, hd, hu⟩ := hv v List.mem_cons_self
      simp only [List.map_cons, List.flatten_cons, titled, List.cons_append, List.cons.injEq] at h2
      have hcd : c = d := by unfold IsLower at hc hd; omega
      obtain ⟨h3, h4⟩ := ih vs (fun w hw' => hw w (List.mem_cons_of_mem _ hw')) (fun w hv' => hv w (List.mem_cons_of_mem _ hv')) t u ht hu h2.2
      rw [hcd, h3, h4]

/-- C39: different snake_case names have different lowerCamelCase forms, whatever the names. -/
theorem C39_injective (ws vs : List Str) (hw : ∀ w ∈ ws, Word w) (hv : ∀ w ∈ vs, Word w) (hne : ws ≠ []) (hne' : vs ≠ [])
    (h : toLowerCamelCase (snake ws) = toLowerCamelCase (snake vs)) : snake ws = snake vs := by
  rw [C39_naming ws hne hw, C39_naming vs hne' hv] at h
  injection h with h
  cases ws with
  | nil => exact absurd rfl hne
  | cons w ws =>
    cases vs with
    | nil => exact absurd rfl hne'
    | cons v vs =>
      have word_all : ∀ w, Word w → ∀ x ∈ w, IsLower x ∨ IsNum x := by
        rintro _ ⟨c, t, rfl, h1, h2⟩ x hx
        rcases List.mem_cons.mp hx with rfl | hx
        · exact .inl h1
        · exact h2 x hx
      obtain ⟨h1, h2⟩ := titled_split ws vs (fun x hx => hw x (List.mem_cons_of_mem _ hx)) (fun x hx => hv x (List.mem_cons_of_mem _ hx))
        w v (word_all w (hw w List.mem_cons_self)) (word_all v (hv v List.mem_cons_self)) h
      rw [h1, h2]

/-- without the restriction to words the rule is not injective -/
example : toLowerCamelCase py!"id__short" = toLowerCamelCase py!"id_short" ∧ py!"id__short" ≠ py!"id_short" := by decide +kernel

theorem fields_named : ∀ c, (fieldsOf c).all (fun f => match f.slot with
    | .attr key _ _ => decide (key = camel (Py.splitOn (pc! '_') f.name.pyName) ∧ snake (Py.splitOn (pc! '_') f.name.pyName) = f.name.pyName ∧
        ∀ w ∈ Py.splitOn (pc! '_') f.name.pyName, Word w)
    | .excluded => true) = true := by
  intro c; cases c <;> decide +kernel

/-- C39: the name of each attribute of each class of the meta-model in JSON and XML is the lowerCamelCase form of the Python name,
which is a snake_case name. -/
theorem C39_keys (c : Cls) (f : Fld) (key : Str) (ty : ATy) (req : Bool) (h : ⟨f, .attr key ty req⟩ ∈ fieldsOf c) :
    ∃ ws, ws ≠ [] ∧ (∀ w ∈ ws, Word w) ∧ f.pyName = snake ws ∧ key = camel ws := by
  have := fields_named c
  rw [List.all_eq_true] at this
  have := this _ h
  simp only [decide_eq_true_eq] at this
  exact ⟨Py.splitOn (pc! '_') f.pyName, (Config.splitOn_parts _ _).1, this.2.2, this.2.1.symm, this.1⟩

/-- C39: the fields of `schema`, to which the other theorems apply, are those that Python's inheritance yields, with the names that
`to_lower_camel_case` yields. -/
theorem C39_reflected (lim : Option Nat) (c : Cls) : (dataclassFields c).map toField = ((schema lim).fields c).map some := fieldsOf_eq c

/-- C39: different attributes of a class have different names in the document. -/
theorem C39_unambiguous (c : Cls) (f g : Fld) (key : Str) (ty ty' : ATy) (req req' : Bool) (h : ⟨f, .attr key ty req⟩ ∈ fieldsOf c)
    (h' : ⟨g, .attr key ty' req'⟩ ∈ fieldsOf c) : f = g ∧ ty = ty' ∧ req = req' := by
  have hn := keys_nodup c
  generalize fieldsOf c = fs at *
  induction fs with
  | nil => simp at h
  | cons x fs ih =>
    obtain ⟨n, slot⟩ := x
    cases slot with
    | excluded =>
      simp only [allKeys, List.filterMap_cons] at hn
      exact ih (by simpa using h) (by simpa using h') hn
    | attr k t r =>
      simp only [allKeys, List.filterMap_cons, List.nodup_cons] at hn
      have hk : ∀ f ty req, ⟨f, .attr k ty req⟩ ∉ fs := fun f ty req hm => hn.1 (mem_allKeys.mpr ⟨f, ty, req, hm⟩)
      rcases List.mem_cons.mp h with h | hm <;> rcases List.mem_cons.mp h' with h' | hm'
      · injection h with h1 h2; injection h' with h3 h4; injection h2 with h5 h6 h7; injection h4 with h8 h9 h10
        subst h1 h6 h7
        exact ⟨h3.symm, h9.symm, h10.symm⟩
      · injection h with h1 h2; injection h2 with h5 h6 h7; subst h5; exact absurd hm' (hk _ _ _)
      · injection h' with h1 h2; injection h2 with h5 h6 h7; subst h5; exact absurd hm (hk _ _ _)
      · exact ih hm hm' hn.2

/-- C39: no attribute is called modelType. -/
theorem C39_no_model_type (lim : Option Nat) (c : Cls) (f : Fld) (ty : ATy) (req : Bool) :
    ⟨f, .attr py!"modelType" ty req⟩ ∉ (schema lim).fields c := (sane lim).keys c f ty req

example : ⟨.supplementalSemanticIds, .attr py!"supplementalSemanticIds" (.list (.cls .reference) false) false⟩ ∈ fieldsOf .property := by
  decide +kernel

end Verif.Props
