import Verif.RepairLemmas2
import Verif.Props.Places

/-!
# C90 A change of one part of a document changes the lines about this part only

`Replaced` (Spec/Repair.lean) is a change of the part in one place. The lines are compared by what they say and by the place at their end; the order of the
lines is not compared.
-/

namespace Verif.Props
open Verif Verif.Parse Verif.Spec.Parse Verif.Aas Verif.Spec.Model Verif.Engine Verif.Spec.Engine Res

/-- there is a line of this kind with this place -/
def Says (say : Kind → Str) (notes : List Note) (k : Kind) (segs : List Str) : Prop := ∃ m ∈ notes, m.kind = k ∧ Place (lineText say m) segs

section
variable {C E S F : Type} (sc : Schema C E S F) (say : Kind → Str)

theorem says_iff {ty : Ty C E S} {j : Json} {notes : List Note} (h : LinesFit sc say ty j notes) (k : Kind) (s : List Str) :
    Says say notes k s ↔ FaultAt sc ty j k s := by
  constructor
  · rintro ⟨m, hm, rfl, hp⟩
    obtain ⟨segs, part, u, h1, h2, h3, h4⟩ := h.1 m hm
    cases (h1 s).mp hp
    exact ⟨part, u, (h2 part).mpr rfl, h3, h4⟩
  · rintro ⟨part, u, h1, h2, h3⟩
    exact h.2.1 s part u k h1 h2 h3

theorem Due.supported (hsup : sc.Supported) {ty u : Ty C E S} {j : Json} {segs : List Str} (h : Due sc ty j segs u) :
    Parse.Supported ty → Parse.Supported u := by
  induction h with
  | here => exact id
  | member _ h2 _ _ ih => exact fun _ => ih (hsup.types _ _ _ _ _ h2)
  | item _ _ ih => exact ih

/-- The lines about a value in which a part was replaced: the lines about other places, and the lines about the new part. -/
theorem C90_json (hs : Sane sc) (hd : DistinctKeys sc) (hsup : sc.Supported) (hl : Legible sc) (ty u : Ty C E S) (hty : Parse.Supported ty)
    (j j' new : Json) (hw : WF j) (hn : WF new) (segs : List Str) (hr : Replaced new segs j j') (hdue : Due sc ty j segs u)
    (n : Nat) (hj : j.size < n) (hj' : j'.size < n) (hnew : new.size < n) (res : Res Note) (hres : res.ok = true) :
    ∃ v v' w notes notes' added, parseF jsonOps sc n ty ⟨j, []⟩ res = .ok (v, res.appendAll (errs notes)) ∧
      parseF jsonOps sc n ty ⟨j', []⟩ res = .ok (v', res.appendAll (errs notes')) ∧
      parseF jsonOps sc n u ⟨new, []⟩ res = .ok (w, res.appendAll (errs added)) ∧
      ∀ k s, Says say notes' k s ↔ (Says say notes k s ∧ ¬ segs <+: s) ∨ ∃ s', s = segs ++ s' ∧ Says say added k s' := by
  obtain ⟨v, notes, h1, h2⟩ := C89_json sc say hs hd hsup hl ty hty j hw n hj res hres
  obtain ⟨v', notes', h3, h4⟩ := C89_json sc say hs hd hsup hl ty hty j' (Replaced.wf hn hr hw) n hj' res hres
  obtain ⟨w, added, h5, h6⟩ := C89_json sc say hs hd hsup hl u (Due.supported sc hsup hdue hty) new hn n hnew res hres
  refine ⟨v, v', w, notes, notes', added, h1, h3, h5, fun k s => ?_⟩
  simp only [says_iff sc say h2, says_iff sc say h4, says_iff sc say h6]
  exact replaced_faults hs hd hr hw hn hdue k s

theorem xsays_iff {ty : Ty C E S} {x : Xml} {notes : List Note} (h : XLinesFit sc say ty x notes) (k : Kind) (s : List Str) :
    Says say notes k s ↔ XFaultAt sc ty x k s := by
  constructor
  · rintro ⟨m, hm, rfl, hp⟩
    obtain ⟨segs, part, u, h1, h2, h3, h4⟩ := h.1 m hm
    cases (h1 s).mp hp
    exact ⟨part, u, (h2 part).mpr rfl, h3, h4⟩
  · rintro ⟨part, u, h1, h2, h3⟩
    exact h.2.1 s part u k h1 h2 h3

/-- The same for XML elements. -/
theorem C90_xml (hs : Sane sc) (hx : XmlNames sc) (hd : DistinctKeys sc) (hl : Legible sc) (ty u : Ty C E S) (x x' new : Xml) (segs : List Str)
    (hr : XReplaced new segs x x') (hdue : XDue sc ty x segs u) (n : Nat) (res r r' r'' : Res Note) (v v' w : Val C E S F)
    (h : parseF xmlOps sc n ty ⟨x, []⟩ res = .ok (v, r)) (h' : parseF xmlOps sc n ty ⟨x', []⟩ res = .ok (v', r'))
    (h'' : parseF xmlOps sc n u ⟨new, []⟩ res = .ok (w, r'')) :
    ∃ notes notes' added, r = res.appendAll (errs notes) ∧ r' = res.appendAll (errs notes') ∧ r'' = res.appendAll (errs added) ∧
      ∀ k s, Says say notes' k s ↔ (Says say notes k s ∧ ¬ segs <+: s) ∨ ∃ s', s = segs ++ s' ∧ Says say added k s' := by
  obtain ⟨notes, h1, h2⟩ := C89_xml sc say hs hx hd hl ty x n res r v h
  obtain ⟨notes', h3, h4⟩ := C89_xml sc say hs hx hd hl ty x' n res r' v' h'
  obtain ⟨added, h5, h6⟩ := C89_xml sc say hs hx hd hl u new n res r'' w h''
  refine ⟨notes, notes', added, h1, h3, h5, fun k s => ?_⟩
  simp only [xsays_iff sc say h2, xsays_iff sc say h4, xsays_iff sc say h6]
  exact xreplaced_faults hs hx hd hl hr hdue k s

/-- parts are replaced one after the other, each by a value of the type that is due -/
inductive Repairs (ty : Ty C E S) : List (List Str) → Json → Json → Prop
  | done (j) : Repairs ty [] j j
  | step {j j' j'' new segs places u} : Replaced new segs j j' → Due sc ty j segs u → WF new → Conforms sc u new → Repairs ty places j' j'' →
      Repairs ty (segs :: places) j j''

theorem conforms_no_fault (hs : Sane sc) (hd : DistinctKeys sc) (hsup : sc.Supported) {u : Ty C E S} (hu : Parse.Supported u) {new : Json} (hn : WF new)
    (hc : Conforms sc u new) (k : Kind) (s : List Str) (hl : Legible sc) : ¬ FaultAt sc u new k s := by
  rintro ⟨part, u', h1, h2, h3⟩
  obtain ⟨q, -, -, hf⟩ := Parse.Due.fault hl h2 hn part k h1 h3 []
  exact (C86_conforms sc hs hd hsup u hu new hn []).mp hc _ hf

theorem fault_at (hl : Legible sc) {ty : Ty C E S} {j : Json} {m : Note} (h : Fault sc ty j [] m) : ∃ s, FaultAt sc ty j m.kind s := by
  obtain ⟨q, part, u, -, -, h1, h2, h3⟩ := Parse.Fault.leads hl h
  exact ⟨_, part, u, h1, h2, h3⟩

theorem Repairs.wf {ty : Ty C E S} {places : List (List Str)} {j j' : Json} (h : Repairs sc ty places j j') : WF j → WF j' := by
  induction h with
  | done => exact id
  | step hr _ hn _ _ ih => exact fun hw => ih (Replaced.wf hn hr hw)

/-- After repairs, the mistakes in other places are left. -/
theorem C90_repairs (hs : Sane sc) (hd : DistinctKeys sc) (hsup : sc.Supported) (hl : Legible sc) (ty : Ty C E S) (hty : Parse.Supported ty)
    (places : List (List Str)) (j j' : Json) (h : Repairs sc ty places j j') (hw : WF j) (k : Kind) (s : List Str) :
    FaultAt sc ty j' k s ↔ FaultAt sc ty j k s ∧ ∀ p ∈ places, ¬ p <+: s := by
  induction h with
  | done => simp
  | @step j j' j'' new segs places u hr hdue hn hc _ ih =>
    rw [ih (Replaced.wf hn hr hw), replaced_faults hs hd hr hw hn hdue k s]
    have hno : ¬ ∃ s', s = segs ++ s' ∧ FaultAt sc u new k s' := fun ⟨s', _, hf⟩ =>
      conforms_no_fault sc hs hd hsup (Due.supported sc hsup hdue hty) hn hc k s' hl hf
    simp only [hno, or_false, List.mem_cons, forall_eq_or_imp, and_assoc]

end

section
variable (lim : Option Nat) (say : Kind → Str)

/-- Repairs of JSON data: when a part of every place of the report (or of a place around it) was replaced by a value of the right type, the data conforms
to the meta-model, otherwise the other lines are left, and no lines are added. -/
theorem C90_data (T : Str) (c : Cls) (hT : symbol T = .ok (.cls c)) (j : Json) (hw : WF j) (h : ¬ Conforms (schema lim) (.cls c) j)
    (places : List (List Str)) (j' : Json) (hr : Repairs (schema lim) (.cls c) places j j') :
    ∃ notes v, jsonToObj lim j T = .ok (faultReport notes, v) ∧ LinesFit (schema lim) say (.cls c) j notes ∧
      (Conforms (schema lim) (.cls c) j' ↔ ∀ k s, Says say notes k s → ∃ p ∈ places, p <+: s) ∧
      (¬ Conforms (schema lim) (.cls c) j' → ∃ notes' v', jsonToObj lim j' T = .ok (faultReport notes', v') ∧ notes' ≠ [] ∧
        LinesFit (schema lim) say (.cls c) j' notes' ∧ ∀ k s, Says say notes' k s ↔ Says say notes k s ∧ ∀ p ∈ places, ¬ p <+: s) := by
  obtain ⟨notes, v, h1, -, h3⟩ := C89_data lim say T c hT j hw h
  have hw' := Repairs.wf _ hr hw
  have key := C90_repairs (schema lim) (sane lim) (distinctKeys lim) (supported lim) (C89_names lim) (.cls c) trivial places j j' hr hw
  refine ⟨notes, v, h1, h3, ?_, fun h' => ?_⟩
  · rw [C86_conforms (schema lim) (sane lim) (distinctKeys lim) (supported lim) (.cls c) trivial j' hw' []]
    constructor
    · intro hc k s hsay
      refine Classical.byContradiction fun hno => ?_
      have hf := (key k s).mpr ⟨(says_iff _ say h3 k s).mp hsay, fun p hp hps => hno ⟨p, hp, hps⟩⟩
      obtain ⟨part, u, g1, g2, g3⟩ := hf
      obtain ⟨q, -, -, hf⟩ := Parse.Due.fault (C89_names lim) g2 hw' part k g1 g3 []
      exact hc _ hf
    · intro hall m hm
      obtain ⟨s, hs⟩ := fault_at _ (C89_names lim) hm
      obtain ⟨h4, h5⟩ := (key _ s).mp hs
      obtain ⟨p, hp, hps⟩ := hall _ s ((says_iff _ say h3 _ s).mpr h4)
      exact h5 p hp hps
  · obtain ⟨notes', v', g1, g2, g3⟩ := C89_data lim say T c hT j' hw' h'
    refine ⟨notes', v', g1, g2, g3, fun k s => ?_⟩
    rw [says_iff _ say g3, says_iff _ say h3]
    exact key k s

/-- parts of XML data are replaced one after the other, each by an element without mistakes -/
inductive XRepairs (ty : Ty Cls EnumCls SfvCls) : List (List Str) → Xml → Xml → Prop
  | done (x) : XRepairs ty [] x x
  | step {x x' x'' new segs places u} : XReplaced new segs x x' → XDue (schema lim) ty x segs u → (∀ m, ¬ XFault (schema lim) u new [] m) →
      XRepairs ty places x' x'' → XRepairs ty (segs :: places) x x''

theorem C90_xml_repairs (ty : Ty Cls EnumCls SfvCls) (places : List (List Str)) (x x' : Xml) (h : XRepairs lim ty places x x') (k : Kind) (s : List Str) :
    XFaultAt (schema lim) ty x' k s ↔ XFaultAt (schema lim) ty x k s ∧ ∀ p ∈ places, ¬ p <+: s := by
  induction h with
  | done => simp
  | @step x x' x'' new segs places u hr hdue hn _ ih =>
    rw [ih, xreplaced_faults (sane lim) (xmlNames lim) (distinctKeys lim) (C89_names lim) hr hdue k s]
    have hno : ¬ ∃ s', s = segs ++ s' ∧ XFaultAt (schema lim) u new k s' := by
      rintro ⟨s', -, part, u', h1, h2, h3⟩
      obtain ⟨q, -, -, hf⟩ := Parse.XDue.fault (C89_names lim) h2 part k h1 h3 []
      exact hn _ hf
    simp only [hno, or_false, List.mem_cons, forall_eq_or_imp, and_assoc]

/-- Repairs of XML data: if a part of every place of the report (or of a place around it) was replaced, no mistake is left, otherwise the other lines are
left, and no lines are added. -/
theorem C90_xml_data (T : Str) (c : Cls) (hT : symbol T = .ok (.cls c)) (x x' : Xml) (r r' : Res Note) (v v' : AVal)
    (h : xmlToObj lim x T = .ok (r, v)) (h' : xmlToObj lim x' T = .ok (r', v')) (hf : ∃ m, XFault (schema lim) (.cls c) x [] m)
    (places : List (List Str)) (hr : XRepairs lim (.cls c) places x x') :
    ∃ notes, r = faultReport notes ∧ XLinesFit (schema lim) say (.cls c) x notes ∧
      ((∀ m, ¬ XFault (schema lim) (.cls c) x' [] m) ↔ ∀ k s, Says say notes k s → ∃ p ∈ places, p <+: s) ∧
      ((∃ m, XFault (schema lim) (.cls c) x' [] m) → ∃ notes', r' = faultReport notes' ∧ notes' ≠ [] ∧
        XLinesFit (schema lim) say (.cls c) x' notes' ∧ ∀ k s, Says say notes' k s ↔ Says say notes k s ∧ ∀ p ∈ places, ¬ p <+: s) := by
  obtain ⟨m, hm⟩ := hf
  obtain ⟨notes, h1, -, h3⟩ := C89_xml_data lim say T c hT x r v h m hm
  have key := C90_xml_repairs lim (.cls c) places x x' hr
  refine ⟨notes, h1, h3, ?_, fun ⟨m', hm'⟩ => ?_⟩
  · constructor
    · intro hc k s hsay
      refine Classical.byContradiction fun hno => ?_
      obtain ⟨part, u, g1, g2, g3⟩ := (key k s).mpr ⟨(xsays_iff _ say h3 k s).mp hsay, fun p hp hps => hno ⟨p, hp, hps⟩⟩
      obtain ⟨q, -, -, hf⟩ := Parse.XDue.fault (C89_names lim) g2 part k g1 g3 []
      exact hc _ hf
    · intro hall m hm
      obtain ⟨q, part, u, -, -, g1, g2, g3⟩ := Parse.XFault.leads (C89_names lim) hm
      obtain ⟨h4, h5⟩ := (key _ _).mp ⟨part, u, g1, g2, g3⟩
      obtain ⟨p, hp, hps⟩ := hall _ _ ((xsays_iff _ say h3 _ _).mpr h4)
      exact h5 p hp hps
  · obtain ⟨notes', g1, g2, g3⟩ := C89_xml_data lim say T c hT x' r' v' h' m' hm'
    refine ⟨notes', g1, g2, g3, fun k s => ?_⟩
    rw [xsays_iff _ say g3, xsays_iff _ say h3]
    exact key k s

/-- a submodel with a number for its id and an unknown kind -/
def twoFaults : Json := .obj [(py!"submodels", .arr [.obj [(py!"modelType", .str py!"Submodel"), (py!"id", .num 5), (py!"kind", .str py!"x")]])]

def oneFault : Json := .obj [(py!"submodels", .arr [.obj [(py!"modelType", .str py!"Submodel"), (py!"id", .str py!"i"), (py!"kind", .str py!"x")]])]

/-- one of the mistakes is repaired: all hypotheses are met -/
example : WF twoFaults ∧ ¬ Conforms (schema none) (.cls .environment) twoFaults ∧ symbol py!"Environment" = .ok (.cls .environment) ∧
    Repairs (schema none) (.cls .environment) [[py!"submodels", Py.natStr 0, py!"id"]] twoFaults oneFault := by
  have f1 : ∃ f req, ⟨f, .attr py!"submodels" (.list (.cls .submodel) false) req⟩ ∈ (schema none).fields .environment :=
    ⟨.submodels, false, .tail _ (.head _)⟩
  have f2 : ∃ f req, ⟨f, .attr py!"id" (.sfv .identifierString) req⟩ ∈ (schema none).fields .submodel := by
    refine ⟨.id, true, ?_⟩
    simp only [schema, fieldsOf]
    repeat (first | exact List.mem_cons_self | apply List.mem_cons_of_mem)
  obtain ⟨_, _, f1⟩ := f1
  obtain ⟨_, _, f2⟩ := f2
  have due : Due (schema none) (.cls .environment) twoFaults [py!"submodels", Py.natStr 0, py!"id"] (.sfv .identifierString) :=
    .member (.inl ⟨rfl, rfl⟩) f1 (.head _) (.item rfl (.member (.inl ⟨rfl, rfl⟩) f2 (.tail _ (.head _)) (.here _ _)))
  refine ⟨wf_sound _ (by decide +kernel), fun h => ?_, by decide +kernel, ?_⟩
  · refine conforms_no_fault (schema none) (sane none) (distinctKeys none) (supported none) (u := .cls .environment) trivial (wf_sound _ (by decide +kernel))
      h .notAString [py!"submodels", Py.natStr 0, py!"id"] (C89_names none) ⟨.num 5, _, ?_, due, .notString ?_ (by simp)⟩
    · exact .member (.head _) (.item rfl (.member (.tail _ (.head _)) (.here _)))
    · exact .sfv _
  · refine .step (new := .str py!"i") (j' := oneFault) (u := .sfv .identifierString) ?_ due (.str _) (.sfv ?_) (.done _)
    · exact .member (pre := []) (post := []) (.item (pre := []) (post := []) (.member (pre := [_]) (post := [_]) (.here _)))
    · decide +kernel

/-- the other mistake is left -/
example : faultLines (jsonToObj none twoFaults py!"Environment") = .ok [⟨.notInEnum, [.key py!"submodels", .idx 0, .key py!"kind"]⟩,
      ⟨.notAString, [.key py!"submodels", .idx 0, .key py!"id"]⟩] ∧
    faultLines (jsonToObj none oneFault py!"Environment") = .ok [⟨.notInEnum, [.key py!"submodels", .idx 0, .key py!"kind"]⟩] := by decide +kernel

/-- in XML: a list is empty, and the kind may be unknown -/
def xmlKind (kind : Str) : Xml := el py!"submodel" none [tx py!"id" py!"i", tx py!"kind" kind, el py!"qualifiers" none []]

example : XRepairs none (.cls .submodel) [[py!"kind"]] (xmlKind py!"x") (xmlKind py!"Instance") ∧
    (∃ m, XFault (schema none) (.cls .submodel) (xmlKind py!"x") [] m) ∧ (∃ r v, xmlToObj none (xmlKind py!"x") py!"Submodel" = .ok (r, v)) ∧
    faultLines (xmlToObj none (xmlKind py!"x") py!"Submodel") = .ok [⟨.emptyList, [.key py!"qualifiers"]⟩, ⟨.notInEnum, [.key py!"kind"]⟩] ∧
    faultLines (xmlToObj none (xmlKind py!"Instance") py!"Submodel") = .ok [⟨.emptyList, [.key py!"qualifiers"]⟩] := by
  have f1 : ∃ f req, ⟨f, .attr py!"kind" (.enum .modellingKind) req⟩ ∈ (schema none).fields .submodel := by
    refine ⟨.kind, false, ?_⟩
    simp only [schema, fieldsOf]
    repeat (first | exact List.mem_cons_self | apply List.mem_cons_of_mem)
  obtain ⟨_, _, f1⟩ := f1
  have hop : Opens (xmlKind py!"x") (xmlKind py!"x") := by
    refine ⟨by decide +kernel, fun s h => (by cases h), .inr ⟨by decide +kernel, rfl⟩, fun y hy => ?_, .inr (by rw [HasName]; decide +kernel)⟩
    have hno : ¬ IsOpValue (xmlKind py!"x") y := fun h => by
      have h1 := (called_opVar).mp h.1
      revert h1
      decide +kernel
    refine ⟨?_, fun h => absurd h hno⟩
    simp only [xmlKind, el, tx, Xml.children, List.mem_cons, List.not_mem_nil, or_false] at hy
    rcases hy with rfl | rfl | rfl <;> exact List.prefix_append _ _
  have hno : ¬ IsOpValue (xmlKind py!"x") (tx py!"kind" py!"x") := fun h => by
    have h1 := (called_opVar).mp h.1
    revert h1
    decide +kernel
  have due : XDue (schema none) (.cls .submodel) (xmlKind py!"x") [py!"kind"] (.enum .modellingKind) :=
    .member (pre := [tx py!"id" py!"i"]) (y := tx py!"kind" py!"x") (post := [el py!"qualifiers" none []]) hop (.inl ⟨rfl, rfl⟩) f1 rfl rfl
      (by decide +kernel) (.inr ⟨hno, rfl⟩) (.here _ _)
  refine ⟨.step (new := tx py!"kind" py!"Instance") ?_ due ?_ (.done _), ?_, ?_, by decide +kernel, by decide +kernel⟩
  · exact .member (pre := [tx py!"id" py!"i"]) (y := tx py!"kind" py!"x") (post := [el py!"qualifiers" none []])
      ((C89_names none .submodel _ (mem_allKeys.mpr ⟨_, _, _, f1⟩)).2.2.2) (.inr ⟨by decide +kernel, rfl⟩) rfl rfl (by decide +kernel) (.inr ⟨hno, rfl⟩)
      (.here _) (.inr ⟨hno, rfl, rfl⟩) rfl (.inr ⟨by decide +kernel, rfl⟩)
  · intro m hm
    generalize hty : Ty.enum EnumCls.modellingKind = ty at hm
    generalize hx : tx py!"kind" py!"Instance" = x at hm
    cases hm with
    | children _ h => subst hx; exact h (.inl rfl)
    | notInEnum _ h => subst hx; cases hty; exact h (by decide +kernel)
    | _ => cases hty
  · refine ⟨_, .value (pre := [tx py!"id" py!"i"]) (y := tx py!"kind" py!"x") (post := [el py!"qualifiers" none []]) hop (.inl ⟨rfl, rfl⟩) f1 rfl rfl
      (by decide +kernel) (.inr ⟨hno, rfl⟩) (.notInEnum (.inl rfl) (by decide +kernel))⟩
  · cases hq : xmlToObj none (xmlKind py!"x") py!"Submodel" with
    | ok q => exact ⟨q.1, q.2, rfl⟩
    | error e =>
      have : faultLines (xmlToObj none (xmlKind py!"x") py!"Submodel") = .ok [⟨.emptyList, [.key py!"qualifiers"]⟩, ⟨.notInEnum, [.key py!"kind"]⟩] := by
        decide +kernel
      rw [hq] at this
      cases this

end
end Verif.Props
