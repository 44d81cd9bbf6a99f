import Verif.ResponseLemmas
import Verif.ApiLemmas
import Verif.EngineLemmas
import Verif.Props.Document

/-!
# C57: which responses are accepted

`invokeAndDecode` (`invoke_and_decode` of shared.py) is the step of almost all tests. A response is acceptable if its status is the
expected one, and its body is a JSON object or list that conforms to the declared type and breaks no rule of the meta-model.
-/

namespace Verif.Props
open Verif Verif.Parse Verif.Spec.Parse Verif.Spec.Model Verif.Aas Verif.Spec Verif.Spec.Api Res
open Verif.Api hiding sane supported
open Verif.Http (Client Request Sent)

variable (lim : Option Nat)

/-- an object of the meta-model in a response lets a check raise -/
def RRaising (v : RVal) : Prop := ∃ p a, Nested RFld.pyName v p (embVal a) ∧ Crashes lim a

/-- the object of the meta-model at the path breaks a rule -/
def RBreaks (v : RVal) (p : List PTok) (text : Str) (level : Level) : Prop :=
  ∃ a, Nested RFld.pyName v p (embVal a) ∧ Broken lim (IndexText lim) a text level

/-- the types of responses: `LangStringSet` is only used as a base class -/
def ResponseTy (ty : RTy) : Prop := rgoodTy ty = true ∧ Parse.Supported ty

theorem resp_raises {ty : RTy} {v : RVal} (hg : rgoodTy ty = true) (hv : HasType (respSchema lim) ty v) :
    RRaising lim v ↔ ∃ p x e, Nested RFld.pyName v p x ∧ ∃ check ∈ checksOf (respChecks lim) x, check x = .error (.py e) := by
  constructor
  · rintro ⟨p, a, hn, hcr⟩
    rcases nested_resp hn hg hv with ⟨b, d, he, hd, hgd⟩ | ⟨c, attrs, he, hc⟩
    · obtain rfl := emb_inj he
      obtain ⟨e, f, hf, hx⟩ := (obj_raises hd hgd).mpr hcr
      refine ⟨p, _, e, hn, liftCheck f, ?_, by rw [liftCheck_emb]; exact hx⟩
      rw [checksOf_emb hd]
      exact List.mem_map.mpr ⟨f, hf, rfl⟩
    · cases a <;> simp [embVal] at he
      exact absurd he.1.symm (hc _)
  · rintro ⟨p, x, e, hn, check, hc, hx⟩
    rcases nested_resp hn hg hv with ⟨b, d, rfl, hd, hgd⟩ | ⟨c, attrs, rfl, hc'⟩
    · rw [checksOf_emb hd] at hc
      obtain ⟨f, hf, rfl⟩ := List.mem_map.mp hc
      rw [liftCheck_emb] at hx
      exact ⟨p, b, hn, (obj_raises hd hgd).mp ⟨e, f, hf, hx⟩⟩
    · simp [checksOf, respChecks_none hc'] at hc

theorem resp_breaks {ty : RTy} {v : RVal} (hg : rgoodTy ty = true) (hv : HasType (respSchema lim) ty v) (hr : ¬ RRaising lim v)
    (p : List PTok) (t : Str) (l : Level) :
    RBreaks lim v p t l ↔ ∃ x, Violates RFld.pyName (respChecks lim) v p x t l := by
  constructor
  · rintro ⟨a, hn, hb⟩
    rcases nested_resp hn hg hv with ⟨b, d, he, hd, hgd⟩ | ⟨c, attrs, he, hc⟩
    · obtain rfl := emb_inj he
      obtain ⟨f, hf, hx⟩ := (obj_violates hd hgd fun hcr => hr ⟨p, _, hn, hcr⟩).mpr (num128_eq lim ▸ hb)
      refine ⟨_, hn, liftCheck f, ?_, by rw [liftCheck_emb]; exact hx⟩
      rw [checksOf_emb hd]
      exact List.mem_map.mpr ⟨f, hf, rfl⟩
    · cases a <;> simp [embVal] at he
      exact absurd he.1.symm (hc _)
  · rintro ⟨x, hn, check, hc, hx⟩
    rcases nested_resp hn hg hv with ⟨b, d, rfl, hd, hgd⟩ | ⟨c, attrs, rfl, hc'⟩
    · rw [checksOf_emb hd] at hc
      obtain ⟨f, hf, rfl⟩ := List.mem_map.mp hc
      rw [liftCheck_emb] at hx
      exact ⟨b, hn, num128_eq lim ▸ (obj_violates hd hgd fun hcr => hr ⟨p, b, hn, hcr⟩).mp ⟨f, hf, hx⟩⟩
    · simp [checksOf, respChecks_none hc'] at hc

/-- The content of every response is decided: it is reported as wrong iff it does not conform to the type or an object breaks a rule. -/
theorem C57_content (ty : RTy) (hty : ResponseTy ty) (j : Json) (hw : WF j) :
    (¬ Conforms (respSchema lim) ty j → ∃ r v, parseResponse lim ty j = .ok (r, v) ∧ r.ok = false) ∧
    (Conforms (respSchema lim) ty j → ∃ v, Read jsonOps (respSchema lim) ty ⟨j, []⟩ v ∧
      (∀ w, Read jsonOps (respSchema lim) ty ⟨j, []⟩ w → w = v) ∧
      HasType (respSchema lim) ty v ∧ Describes (respSchema lim) ty j (strip v) ∧
      (RRaising lim v → ∃ e, parseResponse lim ty j = .error e) ∧
      (¬ RRaising lim v → ∃ r, parseResponse lim ty j = .ok (r, v) ∧ (r.ok = true ↔ ∀ p t, ¬ RBreaks lim v p t .error))) := by
  have hres : (Res.new (⟨.title py!"Check meta model", []⟩ : Note)).ok = true := rfl
  have hn : j.size < j.size + 1 := Nat.lt_succ_self _
  obtain ⟨v, notes, h, hnotes⟩ := C35_returns (respSchema lim) (Api.sane lim) (Api.supported lim) ty hty.2 j hw [] (j.size + 1) hn
    (Res.new ⟨.title py!"Check meta model", []⟩) hres
  have hok := C35_conforms (respSchema lim) (Api.sane lim) ty j hw [] _ hn _ _ _ hres h
  obtain ⟨f1, f2⟩ := C36_check (respSchema lim) jsonOps (fun a => a.value.size) json_lawful (Api.sane lim) json_nonempty RFld.pyName
    (respChecks lim) ty ⟨j, []⟩ _ hn v _ h
  constructor
  · intro hcf
    have : (((Res.new (⟨.title py!"Check meta model", []⟩ : Note)).appendAll (errs notes)).ok) = false := by
      rw [← Bool.not_eq_true]; exact fun hh => hcf (hok.mp hh)
    exact ⟨_, v, f1 this⟩
  · intro hcf
    have hm := hok.mpr hcf
    obtain ⟨ht, -, hp⟩ := f2 hm
    have hread : Read jsonOps (respSchema lim) ty ⟨j, []⟩ v ∧ ∀ w, Read jsonOps (respSchema lim) ty ⟨j, []⟩ w → w = v := by
      have hg := parseF_good jsonOps (respSchema lim) _ json_lawful (fun _ => True) ⟨fun _ _ _ _ _ _ => trivial, fun _ _ _ _ _ _ _ => trivial⟩
        (j.size + 1) ty ⟨j, []⟩ hn trivial (Res.new ⟨.title py!"Check meta model", []⟩)
      obtain ⟨w, hread⟩ := Conforms.read (Api.sane lim) hcf hw []
      rw [h] at hg
      obtain ⟨_, _, _, hu, _⟩ := hg
      obtain rfl := (hu w hread).2 hres
      exact ⟨hread, fun w hw => (hu w hw).2 hres⟩
    have hd := Read.describes (Api.sane lim) hread.1 hw
    have key := C41_raises RFld.pyName (respChecks lim) v (Res.new (⟨.title py!"Check constraints", []⟩ : Note))
    rw [← resp_raises lim hty.1 ht] at key
    refine ⟨v, hread.1, hread.2, ht, hd, ?_, ?_⟩
    · intro hr
      obtain ⟨e, hx⟩ := key.mpr hr
      exact ⟨e, by rw [parseResponse, hp, hx]; rfl⟩
    · intro hr
      cases hx : checkConstraints RFld.pyName (respChecks lim) v [] (Res.new (⟨.title py!"Check constraints", []⟩ : Note)) with
      | error e => exact absurd (key.mp ⟨e, hx⟩) hr
      | ok rc =>
        refine ⟨_, by rw [parseResponse, hp, hx]; rfl, ?_⟩
        rw [append_ok, append_ok, hm, C41_verdict RFld.pyName (respChecks lim) v _ rc rfl hx]
        have hiff := resp_breaks lim hty.1 ht hr
        constructor
        · intro h p t hb
          obtain ⟨x, hv'⟩ := (hiff p t .error).mp hb
          have := h.2 p x t .error hv'
          simp at this
        · intro h
          refine ⟨by simp [Res.ok, Res.new, Res.level], fun p x t l hv' => ?_⟩
          obtain ⟨y, hn, hb⟩ := (hiff p t l).mpr ⟨x, hv'⟩
          rcases Broken.level hb with rfl | rfl
          · exact absurd ⟨y, hn, hb⟩ (h p t)
          · exact .inr rfl

/-- a JSON object or list -/
def Container (j : Json) : Prop := (∃ l, j = .arr l) ∨ ∃ kvs, j = .obj kvs

/-- the value that the body of a response stands for -/
structure Content (ty : RTy) (r : Response) (j : Json) (v : RVal) : Prop where
  json : r.json = .ok j
  container : Container j
  conforms : Conforms (respSchema lim) ty j
  typed : HasType (respSchema lim) ty v
  describes : Describes (respSchema lim) ty j (strip v)
  reads : Read jsonOps (respSchema lim) ty ⟨j, []⟩ v

/-- status and content are as expected -/
def Acceptable (ty : RTy) (expected : Nat → Prop) (r : Response) (v : RVal) : Prop :=
  r.status < 500 ∧ expected r.status ∧ ∃ j, Content lim ty r j v ∧ ¬ RRaising lim v ∧ ∀ p t, ¬ RBreaks lim v p t .error

/-- the check of the response itself raises: the JSON decoder with something else than an decode error, or a constraint check -/
def Failing (ty : RTy) (expected : Nat → Prop) (r : Response) : Prop :=
  r.status < 500 ∧ expected r.status ∧ ((∃ e, r.json = .error (.other e)) ∨ ∃ j v, Content lim ty r j v ∧ RRaising lim v)

variable (env : List Sent → Sent → Answer)

theorem container_of {j : Json} : Container j ∨ ∃ e, ∀ (r : Response), r.json = .ok j → extractJson r = .abortMsg e := by
  cases j with
  | arr l => exact .inl (.inl ⟨l, rfl⟩)
  | obj kvs => exact .inl (.inr ⟨kvs, rfl⟩)
  | _ => exact .inr ⟨_, fun r h => by rw [extractJson, h]⟩

theorem extract_of_container {j : Json} {r : Response} (hj : r.json = .ok j) (h : Container j) : extractJson r = .pure j := by
  rcases h with ⟨l, rfl⟩ | ⟨kvs, rfl⟩ <;> rw [extractJson, hj]

/-- how the step after the response may end -/
structure Decided (ty : RTy) (expected : Nat → Prop) (r : Response) (h : List Sent) (m : Meaning Sent RVal) : Prop where
  hist : m.hist = h
  accepted : ∀ v, m.out = .val v ↔ Acceptable lim ty expected r v
  raised : (∃ e, m.out = .raised e) ↔ Failing lim ty expected r
  fails : ∀ x, m.out = .aborted x → x.ok = false
  critical : 500 ≤ r.status → ∃ x, m.out = .aborted x ∧ x.level = .critical
  quiet : ∀ v, m.out = .val v → ∀ s ∈ Ent.toResL m.ents, s.ok = true

theorem decided_abort {ty : RTy} {expected : Nat → Prop} {r : Response} {h : List Sent} {m : Meaning Sent RVal} {x : Res Str}
    (ho : m.out = .aborted x) (hh : m.hist = h) (hx : x.ok = false) (hc : 500 ≤ r.status → x.level = .critical)
    (hv : ∀ v, ¬ Acceptable lim ty expected r v) (hf : ¬ Failing lim ty expected r) : Decided lim ty expected r h m where
  hist := hh
  accepted v := by rw [ho]; exact ⟨nofun, fun h => absurd h (hv v)⟩
  raised := by rw [ho]; exact ⟨nofun, fun h => absurd h hf⟩
  fails y hy := by rw [ho] at hy; cases hy; exact hx
  critical h := ⟨x, ho, hc h⟩
  quiet v hv := by rw [ho] at hv; cases hv

theorem decided_raise {ty : RTy} {expected : Nat → Prop} {r : Response} {h : List Sent} {m : Meaning Sent RVal} {e : Exc}
    (ho : m.out = .raised e) (hh : m.hist = h) (hs : r.status < 500)
    (hv : ∀ v, ¬ Acceptable lim ty expected r v) (hf : Failing lim ty expected r) : Decided lim ty expected r h m where
  hist := hh
  accepted v := by rw [ho]; exact ⟨nofun, fun h => absurd h (hv v)⟩
  raised := ⟨fun _ => hf, fun _ => ⟨e, ho⟩⟩
  fails y hy := by rw [ho] at hy; cases hy
  critical h := by omega
  quiet v hv := by rw [ho] at hv; cases hv

/-- The step after the response, for all responses: it ends with a value iff the response is acceptable, raises iff the check of the
response raises, and is aborted with a failure otherwise, which is critical for status codes of at least 500. -/
theorem C57_decode (text : Note → Str) (ty : RTy) (hty : ResponseTy ty) (expected : Nat → Bool) (r : Response)
    (hw : ∀ j, r.json = .ok j → WF j) (h : List Sent) :
    Decided lim ty (expected · = true) r h (meaning env (decode ⟨lim, text⟩ r ty expected) true h) := by
  by_cases h5 : 500 ≤ r.status
  · have hm : decode ⟨lim, text⟩ r ty expected = .abort (Res.new (py!"Got unexpected status code " ++ Py.natStr r.status) .critical) := by
      simp only [decode, if_pos h5]
    rw [hm]
    exact decided_abort lim rfl rfl rfl (fun _ => rfl) (fun v ha => by have := ha.1; omega) (fun ha => by have := ha.1; omega)
  have h5' : r.status < 500 := by omega
  cases hx : expected r.status with
  | false =>
    have hm : decode ⟨lim, text⟩ r ty expected = .abort (Res.new (py!"Got unexpected status code " ++ Py.natStr r.status) .error) := by
      simp only [decode, if_neg h5, hx]; rfl
    rw [hm]
    exact decided_abort lim rfl rfl rfl (fun h => absurd h h5) (fun v ha => by have := hx.symm.trans ha.2.1; cases this)
      (fun ha => by have := hx.symm.trans ha.2.1; cases this)
  | true =>
  have hdec : decode ⟨lim, text⟩ r ty expected = (extractJson r).bind fun data =>
      match parseResponse lim ty data with
      | .error e => .raise (Generate.excOf e)
      | .ok (result, parsed) =>
        if result.ok then .write (Engine.render text result) (.pure parsed) else .abort (Engine.render text result) := by
    simp only [decode, if_neg h5, hx]; rfl
  rw [hdec]
  cases hj : r.json with
  | error f =>
    have hnc : ∀ j v, ¬ Content lim ty r j v := fun j v hc => by have := hc.json; rw [hj] at this; cases this
    cases f with
    | decode e =>
      simp only [extractJson, hj, Prog.abortMsg, Prog.bind]
      refine decided_abort lim rfl rfl rfl (fun h => absurd h h5) (fun v ⟨_, _, j, hc, _⟩ => hnc j v hc) ?_
      rintro ⟨-, -, ⟨e, he⟩ | ⟨j, v, hc, -⟩⟩
      · rw [hj] at he; cases he
      · exact hnc j v hc
    | other e =>
      simp only [extractJson, hj, Prog.bind]
      exact decided_raise lim rfl rfl h5' (fun v ⟨_, _, j, hc, _⟩ => hnc j v hc) ⟨h5', hx, .inl ⟨e, hj⟩⟩
  | ok j =>
    have huniq : ∀ {j' v}, Content lim ty r j' v → j' = j := fun hc => by have := hc.json; rw [hj] at this; cases this; rfl
    rcases container_of (j := j) with hcont | ⟨e, he⟩
    · obtain ⟨hbad, hgood⟩ := C57_content lim ty hty j (hw j hj)
      rw [extract_of_container hj hcont]
      simp only [Prog.bind]
      by_cases hcf : Conforms (respSchema lim) ty j
      · obtain ⟨v, hread, hu, ht, hd, hraise, hno⟩ := hgood hcf
        have hcontent : Content lim ty r j v := ⟨hj, hcont, hcf, ht, hd, hread⟩
        have hval : ∀ {j' w}, Content lim ty r j' w → w = v := fun hc => by
          obtain rfl := huniq hc
          exact hu _ hc.reads
        by_cases hr : RRaising lim v
        · obtain ⟨e, hp⟩ := hraise hr
          rw [hp]
          refine decided_raise lim rfl rfl h5' ?_ ⟨h5', hx, .inr ⟨j, v, hcontent, hr⟩⟩
          rintro w ⟨-, -, j', hc, hnr, -⟩
          exact hnr (hval hc ▸ hr)
        · obtain ⟨res, hp, hok⟩ := hno hr
          rw [hp]
          have hnf : ¬ Failing lim ty (expected · = true) r := by
            rintro ⟨-, -, ⟨e, he⟩ | ⟨j', w, hc, hrw⟩⟩
            · rw [hj] at he; cases he
            · exact hr (hval hc ▸ hrw)
          cases hro : res.ok with
          | true =>
            have hacc : Acceptable lim ty (expected · = true) r v := ⟨h5', hx, j, hcontent, hr, hok.mp hro⟩
            simp only [hro, if_true, meaning, Meaning.after]
            refine ⟨rfl, ?_, ⟨nofun, fun h => absurd h hnf⟩, nofun, fun h => absurd h h5, ?_⟩
            · intro w
              refine ⟨fun h => by cases h; exact hacc, ?_⟩
              rintro ⟨-, -, j', hc, -⟩
              rw [hval hc]
            · intro w _ s hs
              rcases List.mem_singleton.mp hs with rfl
              rw [Ent.toRes, Engine.render_level]
              exact hro
          | false =>
            simp only [hro, Bool.false_eq_true, if_false]
            refine decided_abort lim rfl rfl (by rw [Engine.render_level]; exact hro) (fun h => absurd h h5) ?_ hnf
            rintro w ⟨-, -, j', hc, -, hb⟩
            rw [hval hc] at hb
            rw [hok.mpr hb] at hro
            cases hro
      · obtain ⟨res, v, hp, hro⟩ := hbad hcf
        rw [hp]
        simp only [hro, Bool.false_eq_true, if_false]
        have hnc : ∀ {j' w}, ¬ Content lim ty r j' w := fun hc => hcf (huniq hc ▸ hc.conforms)
        refine decided_abort lim rfl rfl (by rw [Engine.render_level]; exact hro) (fun h => absurd h h5) (fun w ⟨_, _, j', hc, _⟩ => hnc hc) ?_
        rintro ⟨-, -, ⟨e, he⟩ | ⟨j', w, hc, hrw⟩⟩
        · rw [hj] at he; cases he
        · exact hnc hc
    · rw [he r hj]
      simp only [Prog.abortMsg, Prog.bind]
      have hnc : ∀ {j' w}, ¬ Content lim ty r j' w := fun {j' w} hc => by
        have hcont := hc.container
        have hext := extract_of_container hc.json hcont
        rw [he r (huniq hc ▸ hc.json)] at hext
        cases hext
      refine decided_abort lim rfl rfl rfl (fun h => absurd h h5) (fun w ⟨_, _, j', hc, _⟩ => hnc hc) ?_
      rintro ⟨-, -, ⟨e, he⟩ | ⟨j', w, hc, hrw⟩⟩
      · rw [hj] at he; cases he
      · exact hnc hc

/-- how the content of a response is shown: as it is, or its first 300 characters and three dots; binary data not at all -/
def Excerpt : Option Str → Str → Prop
  | none, t => t = py!"<binary-data>"
  | some s, t => s.length ≤ 300 ∧ t = s ∨ ∃ a b, s = a ++ b ∧ a.length = 300 ∧ b ≠ [] ∧ t = a ++ py!"..."

/-- What is shown about a request and its response: two lines, with the URL, and with the status and an excerpt of the content, which has at most 303
characters; so lines about responses do not grow with the responses. -/
theorem C57_shown (client : Client) (request : Request) (u : Str) (hu : request.makeUrl = .ok u) (q : Sent) (hq : client.send (fun _ => []) request = .ok q)
    (h : List Sent) (r : Response) (hr : env h q = .response r) :
    ∃ t, Excerpt r.content t ∧ t.length ≤ 303 ∧ Ent.toResL (meaning env (invoke client request) true h).ents =
      [Res.new (py!"Invoke " ++ (client.prefixes.flatten ++ u)), Res.new (py!"Response: (" ++ (Py.natStr r.status ++ (py!"): " ++ t)))] := by
  have key : Excerpt r.content (shorten r.content) ∧ (shorten r.content).length ≤ 303 := by
    cases r.content with
    | none => exact ⟨rfl, by decide⟩
    | some s =>
      simp only [shorten]
      split
      · rename_i hl
        refine ⟨Or.inr ⟨s.take 300, s.drop 300, (List.take_append_drop 300 s).symm, by rw [List.length_take]; omega, fun e => ?_, rfl⟩, ?_⟩
        · have := congrArg List.length e
          rw [List.length_drop] at this
          simp only [List.length_nil] at this
          omega
        · rw [List.length_append, List.length_take]
          have : (py!"..." : Str).length = 3 := rfl
          omega
      · rename_i hl
        exact ⟨Or.inl ⟨by omega, rfl⟩, by omega⟩
  refine ⟨shorten r.content, key.1, key.2, ?_⟩
  simp only [invoke, hu, Api.send, hq, Prog.writeMsg, Prog.bind, meaning, hr, received]
  rfl

example : (⟨py!"/shells", py!"get", none, [(py!"limit", some py!"1")], []⟩ : Request).makeUrl = .ok py!"/shells?limit=1" := by decide +kernel
example : (Client.init py!"http://h/" true [] []).send (fun _ => []) ⟨py!"/shells", py!"get", none, [(py!"limit", some py!"1")], []⟩ =
    .ok ⟨py!"http://h/shells?limit=1", py!"get", none, [], true⟩ := by rfl
example : Excerpt (some (List.replicate 301 97)) (List.replicate 300 97 ++ py!"...") :=
  Or.inr ⟨List.replicate 300 97, [97], by decide +kernel, List.length_replicate, nofun, rfl⟩

/-- The whole step, for all answers of the server: the request is sent, exactly once, and the response is decided; without a response the
step raises. -/
theorem C57_step (text : Note → Str) (ty : RTy) (hty : ResponseTy ty) (expected : Nat → Bool) (client : Client) (request : Request)
    (q : Sent) (hq : client.send (fun _ => []) { request with headers := setHeader py!"content-type" py!"application/json" request.headers } = .ok q)
    (h : List Sent) :
    let m := meaning env (invokeAndDecode ⟨lim, text⟩ client request ty expected) true h
    (∀ r, env h q = .response r → (∀ j, r.json = .ok j → WF j) → Decided lim ty (expected · = true) r (h ++ [q]) m) ∧
    ((∀ r, env h q ≠ .response r) → (∃ e, m.out = .raised e) ∧ m.hist = h ++ [q]) := by
  intro m
  have hu : ∃ u, ({ request with headers := setHeader py!"content-type" py!"application/json" request.headers } : Request).makeUrl = .ok u := by
    simp only [Client.send, bind, Except.bind] at hq
    cases hmk : ({ request with headers := setHeader py!"content-type" py!"application/json" request.headers } : Request).makeUrl with
    | ok u => exact ⟨u, rfl⟩
    | error e => rw [hmk] at hq; cases hq
  obtain ⟨u, hu⟩ := hu
  constructor
  · intro r hr hw
    have hd := C57_decode lim env text ty hty expected r hw (h ++ [q])
    have hm : m = (meaning env (decode ⟨lim, text⟩ r ty expected) true (h ++ [q])).after
        [.leaf (Res.new (py!"Invoke " ++ (client.prefixes.flatten ++ u))),
         .leaf (Res.new (py!"Response: (" ++ (Py.natStr r.status ++ (py!"): " ++ shorten r.content))))]
        [.note (Res.new (py!"Invoke " ++ (client.prefixes.flatten ++ u))),
         .note (Res.new (py!"Response: (" ++ (Py.natStr r.status ++ (py!"): " ++ shorten r.content))))] := by
      simp only [m, invokeAndDecode, invoke, hu, Api.send, hq, Prog.writeMsg, Prog.bind, meaning, hr, received]
      rw [Meaning.after_after]
      rfl
    rw [hm]
    refine ⟨hd.hist, hd.accepted, hd.raised, hd.fails, hd.critical, ?_⟩
    intro v hv s hs
    simp only [Meaning.after, toResL_append, List.mem_append] at hs
    rcases hs with hs | hs
    · simp only [Ent.toResL, Ent.toRes, List.mem_cons, List.not_mem_nil, or_false] at hs
      rcases hs with rfl | rfl <;> rfl
    · exact hd.quiet v hv s hs
  · intro hr
    cases ha : env h q with
    | response r => exact absurd ha (hr r)
    | failed t =>
      simp only [m, invokeAndDecode, invoke, hu, Api.send, hq, Prog.writeMsg, Prog.bind, meaning, ha, received]
      exact ⟨⟨_, rfl⟩, rfl⟩
    | broken e =>
      simp only [m, invokeAndDecode, invoke, hu, Api.send, hq, Prog.writeMsg, Prog.bind, meaning, ha, received]
      exact ⟨⟨_, rfl⟩, rfl⟩

/-- A test that consists of this step passes iff the response is acceptable. -/
theorem C57_test (text : Note → Str) (ty : RTy) (hty : ResponseTy ty) (expected : Nat → Bool) (client : Client) (request : Request)
    (q : Sent) (hq : client.send (fun _ => []) { request with headers := setHeader py!"content-type" py!"application/json" request.headers } = .ok q)
    (h : List Sent) (r : Response) (hr : env h q = .response r) (hw : ∀ j, r.json = .ok j → WF j)
    (title : Str) (v : Option RVal) (res : Res Str) (h' : List Sent)
    (he : Ends env title (invokeAndDecode ⟨lim, text⟩ client request ty expected) h v res h') :
    h' = h ++ [q] ∧ (res.ok = true ↔ ∃ v, Acceptable lim ty (expected · = true) r v) ∧ (500 ≤ r.status → res.level = .critical) := by
  have hd := (C57_step lim env text ty hty expected client request q hq h).1 r hr hw
  obtain ⟨rfl, he⟩ := he
  refine ⟨hd.hist, ?_, ?_⟩
  · rcases he with ⟨a, ha, -, hb⟩ | ⟨x, hx, -, hb⟩
    · rw [hb.ok]
      exact ⟨fun _ => ⟨a, (hd.accepted a).mp ha⟩, fun _ => hd.quiet a ha⟩
    · rw [hb.ok]
      constructor
      · intro hall
        have := hall x (by simp)
        rw [hd.fails x hx] at this
        cases this
      · rintro ⟨w, hacc⟩
        rw [(hd.accepted w).mpr hacc] at hx
        cases hx
  · intro h5
    obtain ⟨y, hy, hc⟩ := hd.critical h5
    rcases he with ⟨a, ha, -⟩ | ⟨x, hx, -, hb⟩
    · rw [hy] at ha; cases ha
    · rw [hy] at hx
      cases hx
      exact hb.critical ⟨_, by simp, hc⟩

/-- Negative tests: exactly the responses with a client error status and a conforming error result are accepted, and only the JSON
decoder can raise. -/
theorem C57_error (r : Response) (hw : ∀ j, r.json = .ok j → WF j) :
    ((∃ v, Acceptable lim (.cls .errorResult) (clientError · = true) r v) ↔
      400 ≤ r.status ∧ r.status < 500 ∧ ∃ j, r.json = .ok j ∧ Conforms (respSchema lim) (.cls .errorResult) j) ∧
    (Failing lim (.cls .errorResult) (clientError · = true) r → ∃ e, r.json = .error (.other e)) := by
  have hc : ∀ s, clientError s = true ↔ 400 ≤ s ∧ s < 500 := by
    intro s; simp [clientError]
  have hno : ∀ {v p a}, HasType (respSchema lim) (.cls .errorResult) v → ¬ Nested RFld.pyName v p (embVal a) :=
    fun {v p a} ht hn => nested_plain hn (ty := .cls .errorResult) rfl ht a rfl
  refine ⟨⟨?_, ?_⟩, ?_⟩
  · rintro ⟨v, h5, he, j, hcon, -⟩
    exact ⟨((hc _).mp he).1, h5, j, hcon.json, hcon.conforms⟩
  · rintro ⟨h4, h5, j, hj, hcf⟩
    obtain ⟨v, hread, -, ht, hd, -⟩ := (C57_content lim (.cls .errorResult) ⟨rfl, trivial⟩ j (hw j hj)).2 hcf
    have hcont : Container j := by
      cases hcf with
      | obj => exact .inr ⟨_, rfl⟩
    exact ⟨v, h5, (hc _).mpr ⟨h4, h5⟩, j, ⟨hj, hcont, hcf, ht, hd, hread⟩, fun ⟨p, a, hn, _⟩ => hno ht hn, fun p t ⟨a, hn, _⟩ => hno ht hn⟩
  · rintro ⟨-, -, he | ⟨j, v, hcon, p, a, hn, -⟩⟩
    · exact he
    · exact absurd hn (hno hcon.typed)

/-! ## examples -/

/-- what a server answers to a wrong request -/
def notFound (kvs : List (Str × Json)) : Response :=
  { status := 404, content := none, json := .ok (.obj [(py!"messages", .arr [.obj kvs])]) }

/-- the outcome of the step after the response: `none` if it raises -/
def accepts (ty : RTy) (expected : Nat → Bool) (r : Response) : Option Bool :=
  match (meaning (fun _ _ => .failed []) (decode ⟨none, fun _ => []⟩ r ty expected) true []).out with
  | .val _ => some true
  | .aborted _ => some false
  | .raised _ => none

example : accepts (.cls .errorResult) clientError (notFound [(py!"text", .str py!"no such shell"), (py!"messageType", .str py!"Error")]) = some true := by
  decide +kernel
example : accepts (.cls .errorResult) clientError (notFound [(py!"messageType", .str py!"Problem")]) = some false := by decide +kernel
example : accepts (.cls .errorResult) clientError { notFound [] with status := 200 } = some false := by decide +kernel
example : accepts (.cls .errorResult) clientError { notFound [] with json := .error (.other ⟨.valueError, []⟩) } = none := by decide +kernel

/-- a page with one shell -/
def onePage (assetKind : Str) : Response :=
  { status := 200, content := none, json := .ok (.obj [(py!"paging_metadata", .obj []), (py!"result", .arr [.obj [
      (py!"modelType", .str py!"AssetAdministrationShell"), (py!"id", .str py!"urn:a"),
      (py!"assetInformation", .obj [(py!"assetKind", .str assetKind), (py!"globalAssetId", .str py!"urn:g")])]])]) }

example : ResponseTy (.cls (.page .shells)) := ⟨by decide, trivial⟩
example : accepts (.cls (.page .shells)) success (onePage py!"Instance") = some true := by decide +kernel
example : accepts (.cls (.page .shells)) success (onePage py!"Thing") = some false := by decide +kernel
example : accepts (.cls (.page .shells)) success { onePage py!"Instance" with status := 201 } = some false := by decide +kernel

end Verif.Props
