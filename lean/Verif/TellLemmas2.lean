import Verif.TellLemmas
import Verif.Spec.Telling
import Verif.FaultLemmas3
import Verif.PlaceLemmas

/-! # The lines with texts, for JSON and XML documents -/

namespace Verif.Parse
open Verif Verif.Spec.Parse

section
variable {C E S F : Type} {W : Words} {sc : Schema C E S F} {tx : Texts E S} {fmt : S → Str → Str → Prop}

/-! ## JSON -/

theorem same_json : Same (jsonTells W) jsonOps where
  object a := by
    change (JsonA.tellObject W a).mapError _ = JsonA.asObject a
    unfold JsonA.tellObject JsonA.asObject
    cases a.value <;> rfl
  list a ae := by
    change (JsonA.tellList W a ae).mapError _ = JsonA.asList a ae
    unfold JsonA.tellList JsonA.asList
    cases a.value with
    | arr l => dsimp only; split <;> rfl
    | _ => rfl
  string a := by
    change (JsonA.tellString W a).mapError _ = JsonA.asString a
    unfold JsonA.tellString JsonA.asString
    cases a.value <;> rfl
  string_py a e := by
    change JsonA.tellString W a ≠ _
    unfold JsonA.tellString
    cases a.value <;> simp
  bool a := by
    change (JsonA.tellBool W a).mapError _ = JsonA.asBool a
    unfold JsonA.tellBool JsonA.asBool
    cases a.value <;> rfl
  modelType a := by
    change ((JsonA.tellModelType W a).map _).mapError _ = JsonA.modelType a
    unfold JsonA.tellModelType JsonA.modelType
    cases a.value with
    | obj kvs =>
      dsimp only
      cases dictGet py!"modelType" kvs with
      | none => rfl
      | some j => cases j <;> rfl
    | _ => rfl
  path _ := rfl

theorem Visit.json (hs : Sane sc) (hl : Legible sc) {ty u : Ty C E S} {a x : JsonA} (h : Visit jsonOps sc ty a u x) : WF a.value →
    WF x.value ∧ ∃ q, x.path = a.path ++ q ∧ (∀ t ∈ q, t.Plain) ∧ Leads (q.map PTok.text) a.value x.value ∧ Due sc ty a.value (q.map PTok.text) u := by
  induction h with
  | here => intro hw; exact ⟨hw, [], by simp, by simp, .here _, .here _ _⟩
  | @item it ae a as b u x h1 h2 _ ih =>
    intro hw
    obtain ⟨v, p⟩ := a
    obtain ⟨i, hi⟩ := List.getElem?_of_mem h2
    obtain ⟨-, h4⟩ := json_places.list _ _ _ hw h1 i b hi
    obtain ⟨g0, q, g1, g2, g3, g4⟩ := ih h4
    change JsonA.asList _ _ = _ at h1
    unfold JsonA.asList at h1
    split at h1
    · rename_i l hv
      dsimp only at hv
      subst hv
      split at h1
      · cases h1
      · cases h1
        obtain ⟨i, h5, h6⟩ := JsonA.mem_items h2
        exact ⟨g0, .idx i :: q, by rw [g1, h6]; simp, List.forall_mem_cons.mpr ⟨idx_plain _, g2⟩, .item h5 g3, .item h5 g4⟩
    · cases h1
  | @value c c' a obj f key ty req b u x hc h1 h2 h3 _ ih =>
    intro hw
    have hb := (json_places.object _ _ hw h1).2 _ (dictGet_mem h3)
    obtain ⟨g0, q, g1, g2, g3, g4⟩ := ih hb.2
    change JsonA.asObject a = _ at h1
    rcases json_object (a := a) with ⟨kvs, hv, h4⟩ | ⟨-, h4, -⟩
    · rw [h1] at h4
      cases h4
      have hr := (json_chosen hs hw hv).mp hc
      have hm := ((JsonA.mem_members _ _ _).mp (dictGet_mem h3)).2.2
      obtain ⟨k1, k2, k3, k4⟩ := hl _ _ (mem_allKeys.mpr ⟨_, _, _, h2⟩)
      rw [hv]
      exact ⟨g0, .key key :: q, by rw [g1, show b.path = a.path ++ [.key key] from hb.1]; simp,
        List.forall_mem_cons.mpr ⟨⟨k1, k2, k3, by rintro _ i ⟨⟩; exact k4 i⟩, g2⟩, .member hm g3, .member hr h2 hm g4⟩
    · rw [h1] at h4; cases h4

theorem show_eq (W : Words) (j : Json) : W.show_ j = shows W j := by
  cases j with
  | bool b => cases b <;> rfl
  | _ => rfl

theorem tellString_error {a : JsonA} {k t} (h : JsonA.tellString W a = .error (.adapter k t)) :
    k = .notAString ∧ t = py!"Cannot convert " ++ shows W a.value ++ py!" to string" := by
  rw [← show_eq]
  unfold JsonA.tellString at h
  cases hv : a.value <;> rw [hv] at h <;> first | cases h; done | (cases h; exact ⟨rfl, rfl⟩)

theorem tellString_ok {a : JsonA} {s} (h : JsonA.tellString W a = .ok s) : a.value = .str s := by
  unfold JsonA.tellString at h
  cases hv : a.value <;> rw [hv] at h <;> first | cases h; done | (cases h; rfl)

theorem json_no_object {v : Json} {c c' : C} {p k} (hc : Chosen jsonOps sc c ⟨v, p⟩ c') (h : JsonA.asObject ⟨v, p⟩ = .error (.adapter k)) : sc.abstract c = false := by
  rcases hc with ⟨h1, -⟩ | ⟨-, d, h1, -⟩
  · exact h1
  · change JsonA.modelType _ = _ at h1
    rcases json_object (a := ⟨v, p⟩) with ⟨kvs, -, h2⟩ | ⟨-, -, h2⟩
    · rw [h] at h2; cases h2
    · rw [h1] at h2; cases h2

theorem object_json {a : JsonA} {obj} (h : jsonOps.asObject a = .ok obj) : ∃ kvs, a.value = .obj kvs := by
  change JsonA.asObject a = _ at h
  rcases json_object (a := a) with ⟨kvs, hv, -⟩ | ⟨-, h2, -⟩
  · exact ⟨kvs, hv⟩
  · rw [h] at h2; cases h2

theorem GSays.json (hf : ∀ c s t, tx.construct c s = .error (.value t) → fmt c s t) {ty : Ty C E S} {a : JsonA} {k : Kind} {t : Str}
    (h : GSays W (jsonTells W) jsonOps sc tx ty a k t) : Says W sc fmt tx.enumName ty a.value k t := by
  cases h with
  | string ht h =>
    obtain ⟨rfl, rfl⟩ := tellString_error h
    exact .notString ht
  | format h h' =>
    rw [tellString_ok h]
    exact .format (hf _ _ _ h')
  | enum h =>
    rw [tellString_ok h]
    exact .notInEnum
  | bool h =>
    change JsonA.tellBool W a = _ at h
    unfold JsonA.tellBool at h
    cases hv : a.value <;> rw [hv] at h <;> first | cases h; done | (cases h; exact .notBool)
  | list h =>
    change JsonA.tellList W a _ = _ at h
    unfold JsonA.tellList at h
    cases hv : a.value with
    | arr l =>
      rw [hv] at h
      dsimp only at h
      split at h
      · rename_i he
        cases h
        have : l = [] := by simp only [Bool.and_eq_true, List.isEmpty_iff] at he; exact he.1
        subst this
        exact .emptyList
      · cases h
    | _ => rw [hv] at h; cases h; rw [show_eq]; exact .notList
  | noType hab h =>
    change JsonA.tellModelType W a = _ at h
    unfold JsonA.tellModelType at h
    cases hv : a.value with
    | obj kvs =>
      rw [hv] at h
      dsimp only at h
      cases hd : dictGet py!"modelType" kvs with
      | none => rw [hd] at h; cases h; exact .noModelType
      | some j => rw [hd] at h; cases j <;> cases h
    | _ => rw [hv] at h; cases h; rw [show_eq]; exact .notAbstract hab
  | badType h =>
    change JsonA.tellModelType W a = _ at h
    unfold JsonA.tellModelType at h
    cases hv : a.value with
    | obj kvs =>
      rw [hv] at h
      dsimp only at h
      cases hd : dictGet py!"modelType" kvs with
      | none => rw [hd] at h; cases h
      | some j =>
        rw [hd] at h
        cases j <;> cases h <;> first | exact .invalidModelType (dictGet_mem hd) | (rw [show_eq]; exact .invalidModelType (dictGet_mem hd))
    | _ => rw [hv] at h; cases h
  | object hc h =>
    obtain ⟨v, p⟩ := a
    have hab := json_no_object hc (of_error ((same_json (W := W)).object _) h)
    change JsonA.tellObject W _ = _ at h
    unfold JsonA.tellObject at h
    cases v <;> first | cases h; done | (cases h; rw [show_eq]; exact .notObject hab)
  | missingType h _ => obtain ⟨kvs, hv⟩ := object_json h; rw [hv]; exact .missingModelType
  | wrongType h => obtain ⟨kvs, hv⟩ := object_json h; rw [hv]; exact .wrongModelType
  | missing h => obtain ⟨kvs, hv⟩ := object_json h; rw [hv]; exact .missing
  | unknown h => obtain ⟨kvs, hv⟩ := object_json h; rw [hv]; exact .unknown

/-- the place of a line, and what the line says about it -/
theorem From.json (hs : Sane sc) (hl : Legible sc) (hf : ∀ c s t, tx.construct c s = .error (.value t) → fmt c s t) {ty : Ty C E S} {j : Json} (hw : WF j)
    {l : Line} (h : From W (jsonTells W) jsonOps sc tx ty ⟨j, []⟩ l) :
    (∀ t ∈ l.path, t.Plain) ∧ ∃ part u, Leads (l.path.map PTok.text) j part ∧ Due sc ty j (l.path.map PTok.text) u ∧ Fault sc u part [] ⟨l.kind, []⟩ ∧
      Says W sc fmt tx.enumName u part l.kind l.text := by
  obtain ⟨u, x, h1, h2, h3, h4⟩ := h
  obtain ⟨g0, q, g1, g2, g3, g4⟩ := h1.json hs hl hw
  have hq : l.path = q := by rw [h2]; exact g1
  rw [hq]
  refine ⟨g2, x.value, u, g3, g4, ?_, h3.json hf⟩
  obtain ⟨r, h5, h6⟩ := Parse.Fault.shift (h4.json hs g0)
  have hr : r = [] := List.append_cancel_left (as := x.path) ((by rw [← h5, List.append_nil]; exact h2 : x.path ++ r = x.path ++ []))
  subst hr
  exact h6 []

/-! ## XML -/

theorem tellSingle_same (x : Xml) : (XmlA.tellSingle x).mapError TErr.mute = XmlA.singleChild x := by
  unfold XmlA.tellSingle XmlA.singleChild
  rcases x.children with _ | ⟨c, _ | ⟨d, l⟩⟩ <;> rfl

theorem tellNoChildren_same (x : Xml) : (XmlA.tellNoChildren x).mapError TErr.mute = XmlA.assertNoChildren x := by
  unfold XmlA.tellNoChildren XmlA.assertNoChildren
  cases x.children with
  | nil => rfl
  | cons c l => dsimp only; split <;> rfl

theorem tellNoText_same (x : Xml) : (XmlA.tellNoText x).mapError TErr.mute = XmlA.assertNoText x := by
  unfold XmlA.tellNoText XmlA.assertNoText
  cases x.text with
  | none => rfl
  | some t => dsimp only; split <;> rfl

theorem tellData_same (x : Xml) : (XmlA.tellData x).mapError TErr.mute = XmlA.data x := by
  unfold XmlA.tellData XmlA.data
  split
  · exact tellSingle_same x
  · rfl

theorem tellModelType_same (a : XmlA) : ((XmlA.tellModelType W a).map (·.1)).mapError TErr.mute = XmlA.modelType a := by
  unfold XmlA.tellModelType XmlA.modelType
  cases h : XmlA.tellData a.value with
  | error e => rw [of_error (tellData_same _) h]; rfl
  | ok d =>
    rw [of_ok (tellData_same _) h]
    unfold XmlA.tellTypeOf XmlA.modelTypeOf
    dsimp only
    cases d.tag.drop XmlA.ns.length <;> rfl

theorem tellMembers_same (a : XmlA) : ∀ (cs : List Xml) (acc : List (Str × XmlA)),
    (XmlA.tellMembers W a cs acc).mapError TErr.mute = XmlA.members a cs acc
  | [], acc => rfl
  | c :: cs, acc => by
    unfold XmlA.tellMembers XmlA.members
    split
    · have hm := tellModelType_same (W := W) a
      cases h : XmlA.tellModelType W a with
      | error e => rw [h] at hm; rw [← hm]; rfl
      | ok d =>
        obtain ⟨d, t⟩ := d
        rw [h] at hm
        rw [← hm]
        change Except.mapError TErr.mute (if _ then _ else _) = if _ then _ else _
        by_cases hop : d = some py!"OperationVariable" ∧ c.tag.drop XmlA.ns.length = py!"value"
        · rw [if_pos hop, if_pos hop]
          cases h1 : XmlA.tellSingle c with
          | error e => rw [of_error (tellSingle_same _) h1]; rfl
          | ok z => rw [of_ok (tellSingle_same _) h1]; exact tellMembers_same a cs _
        · rw [if_neg hop, if_neg hop]
          exact tellMembers_same a cs _
    · rfl

theorem same_xml : Same (xmlTells W) xmlOps where
  object a := by
    change (XmlA.tellObject W a).mapError _ = XmlA.asObject a
    unfold XmlA.tellObject XmlA.asObject
    split
    · cases h : XmlA.tellNoText a.value with
      | error e => rw [of_error (tellNoText_same _) h]; rfl
      | ok _ =>
        rw [of_ok (tellNoText_same _) h]
        dsimp only
        cases h1 : XmlA.tellData a.value with
        | error e => rw [of_error (tellData_same _) h1]; rfl
        | ok d => rw [of_ok (tellData_same _) h1]; exact tellMembers_same a _ _
    · rfl
  list a ae := by
    change (XmlA.tellList a ae).mapError _ = XmlA.asList a ae
    unfold XmlA.tellList XmlA.asList
    split <;> rfl
  string a := by
    change (XmlA.tellString a).mapError _ = XmlA.asString a
    unfold XmlA.tellString XmlA.asString
    cases h : XmlA.tellNoChildren a.value with
    | error e => rw [of_error (tellNoChildren_same _) h]; rfl
    | ok _ => rw [of_ok (tellNoChildren_same _) h]; rfl
  string_py a e := by
    change XmlA.tellString a ≠ _
    unfold XmlA.tellString XmlA.tellNoChildren
    split
    · rename_i h
      split at h
      · split at h <;> cases h; simp
      · cases h
    · simp
  bool a := by
    change (XmlA.tellBool a).mapError _ = XmlA.asBool a
    unfold XmlA.tellBool XmlA.asBool
    cases h : XmlA.tellNoChildren a.value with
    | error e => rw [of_error (tellNoChildren_same _) h]; rfl
    | ok _ => rw [of_ok (tellNoChildren_same _) h]; rfl
  modelType a := tellModelType_same a
  path _ := rfl

theorem Visit.xml (hs : Sane sc) (hx : XmlNames sc) (hl : Legible sc) {ty u : Ty C E S} {a x : XmlA} (h : Visit xmlOps sc ty a u x) :
    ∃ q, x.path = a.path ++ q ∧ (∀ t ∈ q, t.Plain) ∧ XLeads (q.map PTok.text) a.value x.value ∧ XDue sc ty a.value (q.map PTok.text) u := by
  induction h with
  | here => exact ⟨[], by simp, by simp, .here _, .here _ _⟩
  | @item it ae a as b u x h1 h2 _ ih =>
    obtain ⟨q, g1, g2, g3, g4⟩ := ih
    obtain ⟨-, rfl⟩ := XmlA.asList_ok h1
    obtain ⟨i, h5, h6⟩ := XmlA.mem_items h2
    exact ⟨.idx i :: q, by rw [g1, h6]; simp, List.forall_mem_cons.mpr ⟨idx_plain _, g2⟩, .item h5 g3, .item h5 g4⟩
  | @value c c' a obj f key ty req b u x hc h1 h2 h3 _ ih =>
    have hb := (xml_places.object _ _ trivial h1).2 _ (dictGet_mem h3)
    obtain ⟨q, g1, g2, g3, g4⟩ := ih
    obtain ⟨d, ho, hkey⟩ := asObject_opens h1
    obtain ⟨k1, k2, k3, k4⟩ := hl _ _ (mem_allKeys.mpr ⟨_, _, _, h2⟩)
    rcases hkey key with ⟨e, pre, y, post, h4, h5, h6, h7, h8⟩ | ⟨-, h4⟩
    · rw [h3] at h4
      cases h4
      exact ⟨.key key :: q, by rw [g1, show b.path = a.path ++ [.key key] from hb.1]; simp,
        List.forall_mem_cons.mpr ⟨⟨k1, k2, k3, by rintro _ i ⟨⟩; exact k4 i⟩, g2⟩, .member k4 ho.2.2.1 h5 h6 h7 h8 g3,
        .member ho ((xml_chosen hs hx ho.2.2.1).mp hc) h2 h5 h6 h7 h8 g4⟩
    · rw [h3] at h4; cases h4

theorem tellNoChildren_error {x : Xml} {k t} (h : XmlA.tellNoChildren x = .error (.adapter k t)) : k = .childElements ∧ t = py!"No child elements allowed" := by
  unfold XmlA.tellNoChildren at h
  split at h
  · split at h <;> cases h; exact ⟨rfl, rfl⟩
  · cases h

theorem xtellString_error {a : XmlA} {k t} (h : XmlA.tellString a = .error (.adapter k t)) : k = .childElements ∧ t = py!"No child elements allowed" := by
  unfold XmlA.tellString at h
  split at h
  · rename_i e; cases h; exact tellNoChildren_error e
  · cases h

theorem xtellString_ok {a : XmlA} {s} (h : XmlA.tellString a = .ok s) : s = a.value.text.getD [] := by
  unfold XmlA.tellString at h
  split at h <;> cases h; rfl

theorem tellSingle_error {x : Xml} {k t} (h : XmlA.tellSingle x = .error (.adapter k t)) :
    (∀ d, x.children ≠ [d]) ∧ k = .notOneChild ∧ t = py!"DataSpecificationContent must have exactly one child" := by
  unfold XmlA.tellSingle at h
  split at h
  · cases h
  · rename_i h1; cases h; exact ⟨h1, rfl, rfl⟩

theorem tellData_error {x : Xml} {k t} (h : XmlA.tellData x = .error (.adapter k t)) :
    py!"dataSpecificationContent" <:+ x.tag ∧ (∀ d, x.children ≠ [d]) ∧ k = .notOneChild ∧ t = py!"DataSpecificationContent must have exactly one child" := by
  unfold XmlA.tellData at h
  split at h
  · rename_i h1; exact ⟨h1, tellSingle_error h⟩
  · cases h

theorem tellModelType_error {a : XmlA} {k t} (h : XmlA.tellModelType W a = .error (.adapter k t)) : XmlA.tellData a.value = .error (.adapter k t) := by
  unfold XmlA.tellModelType at h
  split at h
  · rename_i e; cases h; exact e
  · split at h
    · rename_i e
      cases h
      unfold XmlA.tellTypeOf at e
      split at e <;> cases e
    · cases h

theorem tellMembers_error {a : XmlA} {d : Xml} (hd : Spec.Parse.Content a.value d) {k t} : ∀ {cs : List Xml} {acc : List (Str × XmlA)},
    XmlA.tellMembers W a cs acc = .error (.adapter k t) →
    (∃ y ∈ cs, ¬ xmlns <+: y.tag ∧ k = .badNamespace ∧ t = py!"invalid namespace, got " ++ y.tag) ∨
    (∃ y ∈ cs, IsOpValue d y ∧ (∀ z, y.children ≠ [z]) ∧ k = .notOneChild ∧ t = py!"DataSpecificationContent must have exactly one child")
  | [], acc, h => by cases h
  | c :: cs, acc, h => by
    have step : ∀ {acc}, XmlA.tellMembers W a cs acc = .error (.adapter k t) →
        (∃ y ∈ c :: cs, ¬ xmlns <+: y.tag ∧ k = .badNamespace ∧ t = py!"invalid namespace, got " ++ y.tag) ∨
        (∃ y ∈ c :: cs, IsOpValue d y ∧ (∀ z, y.children ≠ [z]) ∧ k = .notOneChild ∧ t = py!"DataSpecificationContent must have exactly one child") := by
      intro acc h
      rcases tellMembers_error hd h with ⟨y, h1, h2⟩ | ⟨y, h1, h2⟩
      · exact .inl ⟨y, .tail _ h1, h2⟩
      · exact .inr ⟨y, .tail _ h1, h2⟩
    unfold XmlA.tellMembers at h
    split at h
    · rename_i hp
      dsimp only at h
      split at h
      · rename_i e he
        cases h
        have := (tellData_same a.value).symm
        rw [tellModelType_error he] at this
        rw [content_iff] at hd
        rw [hd] at this
        cases this
      · rename_i mt t' he
        split at h
        · rename_i hop
          split at h
          · rename_i he'
            cases h
            obtain ⟨h1, h2, h3⟩ := tellSingle_error he'
            refine .inr ⟨c, .head _, opValue_iff.mpr ⟨?_, hp, hop.2⟩, h1, h2, h3⟩
            have hm := tellModelType_same (W := W) a
            rw [he] at hm
            rcases xml_modelType a with ⟨h4, -⟩ | ⟨d', h4, h5, h6⟩ | ⟨d', h4, h5, h6⟩
            · exact absurd hd (h4 d)
            · obtain rfl := content_unique hd h4
              rw [h6] at hm
              simp only [Except.map, Except.mapError, Except.ok.injEq] at hm
              rw [← hm]; exact hop.1
            · rw [h6] at hm; cases hm
          · exact step h
        · exact step h
    · rename_i hp
      cases h
      exact .inl ⟨c, .head _, hp, rfl, rfl⟩

theorem tellObject_error {a : XmlA} {c : C} {k t} (h : XmlA.tellObject W a = .error (.adapter k t)) {en : E → Str} :
    XSays W fmt en (.cls c) a.value k t := by
  unfold XmlA.tellObject at h
  split at h
  · rename_i hp
    split at h
    · rename_i e
      cases h
      unfold XmlA.tellNoText at e
      split at e
      · cases e
      · split at e <;> cases e
        exact .text
    · split at h
      · rename_i e
        cases h
        obtain ⟨h1, h2, rfl, rfl⟩ := tellData_error e
        exact .content h1 h2
      · rename_i d e
        have hd : Spec.Parse.Content a.value d := content_iff.mpr (of_ok (tellData_same _) e)
        rcases tellMembers_error hd h with ⟨y, h1, h2, rfl, rfl⟩ | ⟨y, h1, h2, h3, rfl, rfl⟩
        · exact .childNs hp hd h1 h2
        · exact .value hd h1 h2 h3
  · rename_i hp
    cases h
    exact .ns hp

theorem GSays.xml (hf : ∀ c s t, tx.construct c s = .error (.value t) → fmt c s t) {ty : Ty C E S} {a : XmlA} {k : Kind} {t : Str}
    (h : GSays W (xmlTells W) xmlOps sc tx ty a k t) : XSays W fmt tx.enumName ty a.value k t := by
  cases h with
  | string ht h =>
    obtain ⟨rfl, rfl⟩ := xtellString_error h
    exact .children (.inl ht)
  | format h h' =>
    obtain rfl := xtellString_ok h
    exact .format (hf _ _ _ h')
  | enum h =>
    obtain rfl := xtellString_ok h
    exact .notInEnum
  | bool h =>
    change XmlA.tellBool a = _ at h
    unfold XmlA.tellBool at h
    split at h
    · rename_i e
      cases h
      obtain ⟨rfl, rfl⟩ := tellNoChildren_error e
      exact .children (.inr rfl)
    · cases h
  | list h =>
    change XmlA.tellList a _ = _ at h
    unfold XmlA.tellList at h
    split at h <;> cases h
    exact .emptyList
  | noType hab h =>
    obtain ⟨h1, h2, rfl, rfl⟩ := tellData_error (tellModelType_error h)
    exact .content h1 h2
  | @badType c _ d s h =>
    change XmlA.tellModelType W a = _ at h
    unfold XmlA.tellModelType at h
    split at h
    · cases h
    · rename_i d' hd
      split at h
      · cases h
      · rename_i s t e
        cases h
        unfold XmlA.tellTypeOf at e
        split at e
        · cases e
        · rename_i c' s' hs
          cases e
          have := XSays.invalidModelType (W := W) (fmt := fmt) (enumName := tx.enumName) (c := c) (content_iff.mpr (of_ok (tellData_same _) hd)) hs
          simpa using this
  | object hc h => exact tellObject_error h
  | missingType h h' =>
    have h1 := tellModelType_error h'
    obtain ⟨-, -, d, hd, -⟩ := XmlA.asObject_iff.mp h
    rw [of_error (tellData_same _) h1] at hd
    cases hd
  | wrongType h => exact .wrongModelType
  | missing h => exact .missing
  | unknown h => exact .unknown

theorem From.xml (hs : Sane sc) (hx : XmlNames sc) (hl : Legible sc) (hf : ∀ c s t, tx.construct c s = .error (.value t) → fmt c s t) {ty : Ty C E S} {x : Xml}
    {l : Line} (h : From W (xmlTells W) xmlOps sc tx ty ⟨x, []⟩ l) :
    (∀ t ∈ l.path, t.Plain) ∧ ∃ part u, XLeads (l.path.map PTok.text) x part ∧ XDue sc ty x (l.path.map PTok.text) u ∧ XFault sc u part [] ⟨l.kind, []⟩ ∧
      XSays W fmt tx.enumName u part l.kind l.text := by
  obtain ⟨u, y, h1, h2, h3, h4⟩ := h
  obtain ⟨q, g1, g2, g3, g4⟩ := h1.xml hs hx hl
  have hq : l.path = q := by rw [h2]; exact g1
  rw [hq]
  refine ⟨g2, y.value, u, g3, g4, ?_, h3.xml hf⟩
  obtain ⟨r, h5, h6⟩ := Parse.XFault.shift (h4.xml hs hx)
  have hr : r = [] := List.append_cancel_left (as := y.path) ((by rw [← h5, List.append_nil]; exact h2 : y.path ++ r = y.path ++ []))
  subst hr
  exact h6 []

end
end Verif.Parse
