import Verif.SuiteFacts

/-! # Facts about the single suites -/

namespace Verif.Api.Suites
open Verif Verif.Parse Verif.Aas Verif.Spec Verif.Spec.Parse Verif.Spec.Api Verif.Spec.Suites Verif.Spec.Generate Verif.Generate Verif.Http Verif.Props
open Verif.Api hiding sane supported

variable {env : List Sent → Sent → Answer} {cfg : Cfg}

/-! ## values that can be encoded -/

theorem enc_str {s : Str} (h : NoSurrogates s) : Encodable (.str s) := ⟨⟨_, rfl, h⟩, fun _ h => by cases h⟩
theorem enc_int (i : Nat) : Encodable (.int i) := ⟨⟨_, rfl, natStr_ascii i⟩, fun _ h => by cases h⟩
theorem enc_bool (b : Bool) : Encodable (.bool b) := ⟨⟨_, rfl, by cases b <;> (unfold NoSurrogates; decide)⟩, fun _ h => by cases h⟩
theorem enc_member {t v : Str} (ht : NoSurrogates t) (hv : NoSurrogates v) : Encodable (.member t v) := ⟨⟨_, rfl, ht⟩, fun _ h => by cases h; exact hv⟩

theorem enc_sfv {s : Str} (h : NoSurrogates s) : Encodable (.sfv true s) := by
  obtain ⟨t, ht, ha⟩ := base64_ascii h
  exact ⟨⟨t, ht, ascii_ok ha⟩, fun _ h => by cases h⟩

theorem hex4_ascii (n : Nat) : ∀ c ∈ hex4 n, c < 128 := by
  have hd : ∀ k, (if k % 16 < 10 then 48 + k % 16 else 97 + (k % 16 - 10)) < 128 := fun k => by split <;> omega
  intro c hc
  simp only [hex4, List.mem_cons, List.not_mem_nil, or_false] at hc
  rcases hc with rfl | rfl | rfl | rfl <;> exact hd _

theorem dumpsChar_ascii (c : Nat) : ∀ x ∈ dumpsChar c, x < 128 := by
  intro x hx
  unfold dumpsChar at hx
  repeat' split at hx
  all_goals (try simp only [List.mem_cons, List.not_mem_nil, or_false, List.mem_append] at hx)
  · omega
  · omega
  · omega
  · omega
  · omega
  · omega
  · omega
  · rename_i h; simp at h; omega
  · rcases hx with rfl | rfl | hx
    · decide
    · decide
    · exact hex4_ascii _ x hx
  · rcases hx with (rfl | rfl | hx) | rfl | rfl | hx
    · decide
    · decide
    · exact hex4_ascii _ x hx
    · decide
    · decide
    · exact hex4_ascii _ x hx

theorem dumps_ascii (s : Str) : ∀ c ∈ dumpsStr s, c < 128 := by
  intro c hc
  simp only [dumpsStr, List.mem_cons, List.mem_append, List.mem_flatten, List.mem_map, List.not_mem_nil, or_false] at hc
  rcases hc with rfl | ⟨l, ⟨x, -, rfl⟩, hl⟩ | rfl
  · decide
  · exact dumpsChar_ascii x c hl
  · decide

theorem enc_assetId (n v : Str) : Encodable (.assetId n v) := by
  have hn := ascii_ok (dumps_ascii n)
  have hv := ascii_ok (dumps_ascii v)
  have lit : ∀ s : Str, (s.all fun c => decide (c < 128)) = true → NoSurrogates s := fun s h => ascii_ok (by simpa using h)
  obtain ⟨t, ht, ha⟩ := base64_ascii (noSur_append (lit py!"{\"name\": " rfl) (noSur_append hn (noSur_append (lit py!", \"value\": " rfl)
    (noSur_append hv (lit py!"}" rfl)))))
  exact ⟨⟨t, ht, ascii_ok ha⟩, fun _ h => by cases h⟩

theorem enc_nil : ∀ a ∈ ([] : Kwargs), Encodable a.2 := fun _ h => by cases h
theorem enc_one {n : Str} {v : ArgVal} (h : Encodable v) : ∀ a ∈ [(n, v)], Encodable a.2 := by
  intro a ha
  simp at ha
  rw [ha]; exact h
theorem enc_cons {n : Str} {v : ArgVal} {kw : Kwargs} (h : Encodable v) (hk : ∀ a ∈ kw, Encodable a.2) : ∀ a ∈ (n, v) :: kw, Encodable a.2 := by
  intro a ha
  rcases List.mem_cons.mp ha with rfl | ha
  · exact h
  · exact hk a ha

theorem enc_limit1 : ∀ a ∈ limit1, Encodable a.2 := enc_one (enc_int 1)

theorem enc_core : Encodable core := enc_member (by unfold NoSurrogates; decide) (by unfold NoSurrogates; decide)
theorem enc_deep : Encodable deep := enc_member (by unfold NoSurrogates; decide) (by unfold NoSurrogates; decide)
theorem enc_withBlob : Encodable withBlob := enc_member (by unfold NoSurrogates; decide) (by unfold NoSurrogates; decide)
theorem enc_withoutBlob : Encodable withoutBlob := enc_member (by unfold NoSurrogates; decide) (by unfold NoSurrogates; decide)

/-! ## suites of one kind -/

theorem plain_checked (_ : Sound env) {operation : Str} {c : Call} (hc : Sane c) (hn : negFits c [] = true) {T : List PyExc} {tests : List (Test Unit)}
    (ht : TestsSat env cfg c T (fun _ => True) tests) :
    Checked env cfg c [] T (plainSuite cfg operation c tests) (fun _ => True) where
  same := sameArgs_refl _
  setup _ _ := Sat.pure trivial
  generated := neg_generated hn
  invoke := rfl
  args := rfl
  sane := hc
  negative _ _ := neg_fits hn enc_nil
  tests := ht

theorem paged_checked (hs : Sound env) {operation : Str} {c first : Call} (hc : Sane c) (hf : Sane first) {p : Page} (hm : first.mode = .decode (pageTy p))
    (hl : fits first limit1 = true) (hn : negFits c [] = true) {T : List PyExc} {tests : List (Test RVal)}
    (ht : TestsSat env cfg c T (fun _ => True) tests) :
    Checked env cfg c [] T (pagedSuite cfg operation c first tests) (fun _ => True) where
  same := sameArgs_refl _
  setup client hr := by
    refine Sat.bind (call_sat hs hf ⟨hl, enc_limit1⟩ (fun _ h => h) hr) fun v hv => ?_
    unfold Returned at hv
    rw [hm] at hv
    obtain ⟨cur, l, rfl, -, -⟩ := page_shape hv
    exact lift_ok page_cursor trivial
  generated := neg_generated hn
  invoke := rfl
  args := rfl
  sane := hc
  negative _ _ := neg_fits hn enc_nil
  tests := ht

/-- the outcome of getting the first entry of a page -/
theorem firstResult_cases {lim : Option Nat} {p : Page} {v : RVal} (h : HasType (respSchema lim) (pageTy p) v) :
    firstResult v = .error .indexError ∨ ∃ x, firstResult v = .ok x ∧ HasType (respSchema lim) p.item x := by
  obtain ⟨cur, l, rfl, -, hl⟩ := page_shape h
  cases l with
  | nil => exact .inl rfl
  | cons x l => exact .inr ⟨x, rfl, hl x List.mem_cons_self⟩

theorem base64String_ok {s : Str} (h : Re.fullmatch xmlRe s = true) : base64String s = .ok (.sfv true s) := by rw [base64String, if_pos h]

/-! ## tests of operations that get an id -/

theorem byId_sat (hs : Sound env) {c : Call} (hc : Sane c) {arg : Str} (hf : ∀ s, fits c [(arg, .sfv true s)] = true) {name line title found} {T : List PyExc}
    (hfound : ∀ f m, found = some (f, m) → ∀ v, Returned cfg c v → ∃ t, f v = .ok t)
    {client : Client} (hr : Rooted client) (profile : Str) {st : Str} (hst : Re.fullmatch xmlRe st = true) :
    Sat env (Sends client c) (fun _ => True) (fun _ => True) (fun e => Known env cfg.lim e ∨ Own T e)
      ((byId cfg c arg name line title found).run client profile st) := by
  refine Sat.bind (lift_ok (ret := fun v => v = .sfv true st) (base64String_ok hst) rfl) fun v hv => ?_
  subst hv
  refine Sat.bind (call_sat hs hc ⟨hf st, enc_one (enc_sfv (xml_noSurrogates hst))⟩ (fun _ _ => trivial) hr) fun r hret => ?_
  cases found with
  | none => exact Sat.pure trivial
  | some p =>
    obtain ⟨f, m⟩ := p
    obtain ⟨t, ht⟩ := hfound f m rfl r hret
    exact Sat.bind (lift_ok (ret := fun _ => True) ht trivial) fun _ _ => assert_any

/-! ## calls -/

/-- the facts about a call that can be computed -/
def callOk (c : Call) : Bool :=
  rooted c && match c.mode with
    | .decode (.cls (.model d)) => goodTy (.cls d)
    | .decode (.cls _) => true
    | .decode (.list .str _) => true
    | .decode _ => false
    | _ => true

theorem sane_of {c : Call} (h : callOk c = true) : Sane c := by
  unfold callOk at h
  rw [Bool.and_eq_true] at h
  refine ⟨h.1, fun ty hty => ?_⟩
  have h2 := h.2
  rw [hty] at h2
  split at h2
  · rename_i hd
    cases hd
    exact ⟨h2, trivial⟩
  · rename_i c' hx hd
    cases hd
    refine ⟨?_, trivial⟩
    cases c' with
    | model d => exact absurd rfl (hx d)
    | _ => rfl
  · rename_i hd
    cases hd
    exact ⟨rfl, trivial⟩
  · cases h2
  · rename_i hx; cases hx _ rfl

end Verif.Api.Suites
