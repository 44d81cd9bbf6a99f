import Verif.TellLemmas4
import Verif.Props.Places

/-!
# C92 A line about a mistake says what is wrong

`Says`, `XSays` and `FormatText` (Spec/Telling.lean) are the texts for the mistakes, `kindOf` is how the reader tells the mistakes apart. The words that
are taken from the interpreter (`W`) may be any.
-/

namespace Verif.Props
open Verif Verif.Parse Verif.Spec Verif.Spec.Parse Verif.Aas Verif.Spec.Model Verif.Engine Verif.Spec.Engine Res

theorem mapMsgL_append {μ ν : Type} (f : μ → ν) (rs rs' : List (Res μ)) : mapMsgL f (rs ++ rs') = mapMsgL f rs ++ mapMsgL f rs' := by
  induction rs with
  | nil => rfl
  | cons r rs ih => simp only [List.cons_append, mapMsgL, ih]

theorem mapMsg_append {μ ν : Type} (f : μ → ν) (res r : Res μ) : (res.append r).mapMsg f = (res.mapMsg f).append (r.mapMsg f) := by
  cases res
  cases r
  simp only [Res.append, mapMsg, Res.level, Res.subs, Res.msg, mapMsgL_append, mapMsgL]

theorem mapMsg_appendAll {μ ν : Type} (f : μ → ν) (rs : List (Res μ)) : ∀ res : Res μ,
    (res.appendAll rs).mapMsg f = (res.mapMsg f).appendAll (rs.map (mapMsg f)) := by
  induction rs with
  | nil => intro res; rfl
  | cons r rs ih =>
    intro res
    have := ih (res.append r)
    rw [mapMsg_append] at this
    exact this

/-- a line with a text and a place -/
def textAt (t : Str) (segs : List Str) : Str := t ++ py!" @ /" ++ Py.join py!"/" segs

section
variable {C E F : Type} (W : Words) (lim : Option Nat) (en : E → Str) (sc : Schema C E SfvCls F)

/-- every line names exactly one place, which leads to exactly one part, of which exactly one type is expected, and has a text for the mistake of this part,
by which the kind of the mistake is known; there is such a line for every mistake, and no line twice -/
def TellsFit (ty : Ty C E SfvCls) (j : Json) (lines : List Str) : Prop :=
  (∀ line ∈ lines, ∃ t segs part u k, line = textAt t segs ∧ (∀ segs', Place line segs' ↔ segs' = segs) ∧ (∀ part', Leads segs j part' ↔ part' = part) ∧
    (∀ u', Due sc ty j segs u' ↔ u' = u) ∧ Fault sc u part [] ⟨k, []⟩ ∧ Says W sc (FormatText lim) en u part k t ∧ kindOf t = k) ∧
  (∀ segs part u k, Leads segs j part → Due sc ty j segs u → Fault sc u part [] ⟨k, []⟩ →
    ∃ t, Says W sc (FormatText lim) en u part k t ∧ textAt t segs ∈ lines) ∧
  lines.Nodup

/-- the same for XML -/
def XTellsFit (ty : Ty C E SfvCls) (x : Xml) (lines : List Str) : Prop :=
  (∀ line ∈ lines, ∃ t segs part u k, line = textAt t segs ∧ (∀ segs', Place line segs' ↔ segs' = segs) ∧ (∀ part', XLeads segs x part' ↔ part' = part) ∧
    (∀ u', XDue sc ty x segs u' ↔ u' = u) ∧ XFault sc u part [] ⟨k, []⟩ ∧ XSays W (FormatText lim) en u part k t ∧ kindOf t = k) ∧
  (∀ segs part u k, XLeads segs x part → XDue sc ty x segs u → XFault sc u part [] ⟨k, []⟩ →
    ∃ t, XSays W (FormatText lim) en u part k t ∧ textAt t segs ∈ lines) ∧
  lines.Nodup

theorem shown_text (l : Line) : l.shown = textAt l.text (l.path.map PTok.text) := by
  simp [Line.shown, textAt, pathText]

theorem shown_place {l : Line} (h : ∀ t ∈ l.path, t.Plain) : Place l.shown (l.path.map PTok.text) := ⟨l.text, pathText l.path, rfl, path_space h, path_names h⟩

theorem shown_inj {l l' : Line} (h : ∀ t ∈ l.path, t.Plain) (h' : ∀ t ∈ l'.path, t.Plain) (he : l.shown = l'.shown) : l.text = l'.text ∧ l.path = l'.path := by
  have e : (l.text ++ py!" @") ++ (pc! ' ') :: pathText l.path = (l'.text ++ py!" @") ++ (pc! ' ') :: pathText l'.path := by
    simpa [Line.shown] using he
  obtain ⟨h1, h2⟩ := cut_last (path_space h) (path_space h') e
  exact ⟨List.append_cancel_right h1, texts_inj h h' (names_unique (path_names h) (h2 ▸ path_names h'))⟩

theorem shown_nodup {ls : List Line} (h : (ls.map Line.note).Nodup) (hp : ∀ l ∈ ls, (∀ t ∈ l.path, t.Plain) ∧ kindOf l.text = l.kind) :
    (ls.map Line.shown).Nodup := by
  refine List.pairwise_map.mpr ((List.pairwise_map.mp h).imp_of_mem fun {l l'} ha hb hne he => hne ?_)
  obtain ⟨h1, h2⟩ := shown_inj (hp _ ha).1 (hp _ hb).1 he
  rw [Line.note, Line.note, ← (hp _ ha).2, ← (hp _ hb).2, h1, h2]

theorem tells_fit {tx : Texts E SfvCls} (hs : Sane sc) (hd : DistinctKeys sc) (hl : Legible sc) (hf : ∀ c s t, tx.construct c s = .error (.value t) → FormatText lim c s t)
    {ty : Ty C E SfvCls} {j : Json} (hw : WF j) {ls : List Line} (h : ∀ l ∈ ls, From W (jsonTells W) jsonOps sc tx ty ⟨j, []⟩ l)
    (h2 : ∀ m, m ∈ ls.map Line.note ↔ Fault sc ty j [] m) (h3 : (ls.map Line.note).Nodup) :
    TellsFit W lim tx.enumName sc ty j (ls.map Line.shown) := by
  have key : ∀ l ∈ ls, _ := fun l hm => (h l hm).json hs hl hf hw
  have plain : ∀ l ∈ ls, (∀ t ∈ l.path, t.Plain) ∧ kindOf l.text = l.kind := by
    intro l hm
    obtain ⟨hp, _, _, _, _, _, hsays⟩ := key l hm
    exact ⟨hp, kind_says hsays⟩
  refine ⟨fun line hm => ?_, fun segs part u k hld hdue hft => ?_, shown_nodup h3 plain⟩
  · obtain ⟨l, hm', rfl⟩ := List.mem_map.mp hm
    obtain ⟨hp, part, u, hld, hdue, hft, hsays⟩ := key l hm'
    exact ⟨l.text, _, part, u, l.kind, shown_text l, fun segs' => ⟨fun h' => place_unique h' (shown_place hp), fun h' => h' ▸ shown_place hp⟩,
      fun part' => ⟨fun h' => (leads_unique hld hw _ h').symm, fun h' => h' ▸ hld⟩,
      fun u' => ⟨fun h' => (due_unique hs hd hdue hw _ h').symm, fun h' => h' ▸ hdue⟩, hft, hsays, kind_says hsays⟩
  · obtain ⟨q, hp, rfl, hf'⟩ := Parse.Due.fault hl hdue hw part k hld hft []
    obtain ⟨l, hm, he⟩ := List.mem_map.mp ((h2 _).mpr hf')
    obtain ⟨k', t, p⟩ := l
    cases he
    obtain ⟨-, part', u', hld', hdue', -, hsays⟩ := key _ hm
    cases leads_unique hld hw _ hld'
    cases due_unique hs hd hdue hw _ hdue'
    exact ⟨t, hsays, List.mem_map.mpr ⟨_, hm, shown_text _⟩⟩

theorem xtells_fit {tx : Texts E SfvCls} (hs : Sane sc) (hx : XmlNames sc) (hd : DistinctKeys sc) (hl : Legible sc)
    (hf : ∀ c s t, tx.construct c s = .error (.value t) → FormatText lim c s t)
    {ty : Ty C E SfvCls} {x : Xml} {ls : List Line} (h : ∀ l ∈ ls, From W (xmlTells W) xmlOps sc tx ty ⟨x, []⟩ l)
    (h2 : ∀ m, m ∈ ls.map Line.note ↔ XFault sc ty x [] m) (h3 : (ls.map Line.note).Nodup) :
    XTellsFit W lim tx.enumName sc ty x (ls.map Line.shown) := by
  have key : ∀ l ∈ ls, _ := fun l hm => (h l hm).xml hs hx hl hf
  have plain : ∀ l ∈ ls, (∀ t ∈ l.path, t.Plain) ∧ kindOf l.text = l.kind := by
    intro l hm
    obtain ⟨hp, _, _, _, _, _, hsays⟩ := key l hm
    exact ⟨hp, kind_xsays hsays⟩
  refine ⟨fun line hm => ?_, fun segs part u k hld hdue hft => ?_, shown_nodup h3 plain⟩
  · obtain ⟨l, hm', rfl⟩ := List.mem_map.mp hm
    obtain ⟨hp, part, u, hld, hdue, hft, hsays⟩ := key l hm'
    exact ⟨l.text, _, part, u, l.kind, shown_text l, fun segs' => ⟨fun h' => place_unique h' (shown_place hp), fun h' => h' ▸ shown_place hp⟩,
      fun part' => ⟨fun h' => (xleads_unique hld _ h').symm, fun h' => h' ▸ hld⟩,
      fun u' => ⟨fun h' => (xdue_unique hs hx hd hdue _ h').symm, fun h' => h' ▸ hdue⟩, hft, hsays, kind_xsays hsays⟩
  · obtain ⟨q, hp, rfl, hf'⟩ := Parse.XDue.fault hl hdue part k hld hft []
    obtain ⟨l, hm, he⟩ := List.mem_map.mp ((h2 _).mpr hf')
    obtain ⟨k', t, p⟩ := l
    cases he
    obtain ⟨-, part', u', hld', hdue', -, hsays⟩ := key _ hm
    cases xleads_unique hld _ hld'
    cases xdue_unique hs hx hd hdue _ hdue'
    exact ⟨t, hsays, List.mem_map.mpr ⟨_, hm, shown_text _⟩⟩

end

section
variable (W : Words) (lim : Option Nat)

/-- The reports with texts are those of `Parse.lean`, with texts added: what is said about those reports holds for these as well. -/
theorem C92_json_report (name : Fld → Str) (checks : Cls → List (AVal → Chk Unit)) (n : Nat) (ty : Ty Cls EnumCls SfvCls) (a : JsonA) :
    (tellAndCheck W (jsonTells W) (schema lim) (texts lim) name checks n ty a).map (fun p => (p.1.mapMsg Line.note, p.2)) =
      parseAndCheck jsonOps (schema lim) name checks n ty a :=
  tellAndCheck_quiet (same_json (W := W)) (same_texts lim) name checks n ty a

/-- The same for XML. -/
theorem C92_xml_report (name : Fld → Str) (checks : Cls → List (AVal → Chk Unit)) (n : Nat) (ty : Ty Cls EnumCls SfvCls) (a : XmlA) :
    (tellAndCheck W (xmlTells W) (schema lim) (texts lim) name checks n ty a).map (fun p => (p.1.mapMsg Line.note, p.2)) =
      parseAndCheck xmlOps (schema lim) name checks n ty a :=
  tellAndCheck_quiet (same_xml (W := W)) (same_texts lim) name checks n ty a

/-- the report on a document with mistakes, which has these lines -/
def textReport (lines : List Str) : Res Str :=
  ((Res.new py!"Check").append ((Res.new py!"Check meta model").appendAll (lines.map fun t => Res.new t .error))).append
    (Res.new py!"Skipped checking of constraints" .warning)

/-- the names of the enumerations -/
theorem enumName_eq : (texts lim).enumName = EnumCls.pyName := by
  funext e
  cases e <;> rfl

theorem said_says {u : Ty Cls EnumCls SfvCls} {part : Json} {l : Line} (h : Says W (schema lim) (FormatText lim) EnumCls.pyName u part l.kind l.text) :
    l.said = l.shown := by
  obtain ⟨k, t, p⟩ := l
  dsimp only at h
  cases h <;> rfl

theorem said_xsays {u : Ty Cls EnumCls SfvCls} {part : Xml} {l : Line} (h : XSays W (FormatText lim) EnumCls.pyName u part l.kind l.text) :
    l.said = l.shown := by
  obtain ⟨k, t, p⟩ := l
  dsimp only at h
  cases h <;> rfl

theorem json_lines (ty : Ty Cls EnumCls SfvCls) (hty : Parse.Supported ty) (j : Json) (hw : WF j) (n : Nat) (hn : j.size < n) (t : Str) :
    ∃ v ls, tellF W (jsonTells W) (schema lim) (texts lim) n ty ⟨j, []⟩ (Res.new (heading t)) = .ok (v, (Res.new (heading t)).appendAll (lines ls)) ∧
      TellsFit W lim EnumCls.pyName (schema lim) ty j (ls.map Line.shown) ∧ (∀ l ∈ ls, l.said = l.shown) ∧ ∀ m, m ∈ ls.map Line.note ↔ Fault (schema lim) ty j [] m := by
  obtain ⟨v, notes, h1, h2, h3⟩ := C86_json (schema lim) (sane lim) (distinctKeys lim) (supported lim) ty hty j hw [] n hn (Res.new ⟨.title t, []⟩) rfl
  obtain ⟨e, g1, g2⟩ | ⟨v', ls, g1, g2, g3⟩ := tellF_tells (W := W) same_json (same_texts lim) n ty ⟨j, []⟩ (Res.new (heading t))
  · exact absurd (h1.symm.trans g2) (by simp)
  · have he := h1.symm.trans g2
    rw [quiet_appendAll] at he
    simp only [Except.ok.injEq, Prod.mk.injEq] at he
    have hn : notes = ls.map Line.note := by
      have := congrArg (fun r : Res Note => r.subs.map (·.msg)) he.2
      rw [errs_new] at this
      exact this.trans (errs_new _)
    subst hn
    refine ⟨v', ls, g1, enumName_eq lim ▸ tells_fit W lim (schema lim) (sane lim) (distinctKeys lim) (C89_names lim) (fun _ _ _ => tellConstruct_text) hw g3 h2 h3, fun l hm => ?_, h2⟩
    obtain ⟨-, _, _, _, _, _, hsays⟩ := (g3 l hm).json (sane lim) (C89_names lim) (fun _ _ _ => tellConstruct_text) hw
    exact said_says W lim (enumName_eq lim ▸ hsays)

/-- JSON: what the parser adds to the report. -/
theorem C92_json (ty : Ty Cls EnumCls SfvCls) (hty : Parse.Supported ty) (j : Json) (hw : WF j) (n : Nat) (hn : j.size < n) (t : Str) :
    ∃ v ls, tellF W (jsonTells W) (schema lim) (texts lim) n ty ⟨j, []⟩ (Res.new (heading t)) = .ok (v, (Res.new (heading t)).appendAll (lines ls)) ∧
      TellsFit W lim EnumCls.pyName (schema lim) ty j (ls.map Line.shown) := by
  obtain ⟨v, ls, h1, h2, -⟩ := json_lines W lim ty hty j hw n hn t
  exact ⟨v, ls, h1, h2⟩

theorem xml_lines (ty : Ty Cls EnumCls SfvCls) (x : Xml) (n : Nat) (t : Str) (v : AVal) (r : Res Line)
    (h : tellF W (xmlTells W) (schema lim) (texts lim) n ty ⟨x, []⟩ (Res.new (heading t)) = .ok (v, r)) :
    ∃ ls, r = (Res.new (heading t)).appendAll (lines ls) ∧ XTellsFit W lim EnumCls.pyName (schema lim) ty x (ls.map Line.shown) ∧ (∀ l ∈ ls, l.said = l.shown) ∧
      ∀ m, m ∈ ls.map Line.note ↔ XFault (schema lim) ty x [] m := by
  obtain ⟨e, g1, g2⟩ | ⟨v', ls, g1, g2, g3⟩ := tellF_tells (W := W) same_xml (same_texts lim) n ty ⟨x, []⟩ (Res.new (heading t))
  · rw [h] at g1; cases g1
  · rw [h] at g1
    cases g1
    obtain ⟨notes, h1, h2, h3⟩ := C86_xml (schema lim) (sane lim) (xmlNames lim) (distinctKeys lim) ty x [] _ _ _ _ g2
    rw [quiet_appendAll] at h1
    have hn : notes = ls.map Line.note := by
      have := congrArg (fun r : Res Note => r.subs.map (·.msg)) h1
      exact (this.trans (errs_new _)).symm.trans (errs_new _)
    subst hn
    refine ⟨ls, rfl, enumName_eq lim ▸ xtells_fit W lim (schema lim) (sane lim) (xmlNames lim) (distinctKeys lim) (C89_names lim) (fun _ _ _ => tellConstruct_text) g3 h2 h3, fun l hm => ?_, h2⟩
    obtain ⟨-, _, _, _, _, _, hsays⟩ := (g3 l hm).xml (sane lim) (xmlNames lim) (C89_names lim) (fun _ _ _ => tellConstruct_text)
    exact said_xsays W lim (enumName_eq lim ▸ hsays)

/-- XML: what the parser adds to the report. -/
theorem C92_xml (ty : Ty Cls EnumCls SfvCls) (x : Xml) (n : Nat) (t : Str) (v : AVal) (r : Res Line)
    (h : tellF W (xmlTells W) (schema lim) (texts lim) n ty ⟨x, []⟩ (Res.new (heading t)) = .ok (v, r)) :
    ∃ ls, r = (Res.new (heading t)).appendAll (lines ls) ∧ XTellsFit W lim EnumCls.pyName (schema lim) ty x (ls.map Line.shown) := by
  obtain ⟨ls, h1, h2, -⟩ := xml_lines W lim ty x n t v r h
  exact ⟨ls, h1, h2⟩

theorem report_said {ls : List Line} (h : ∀ l ∈ ls, l.said = l.shown) :
    (((Res.new (heading py!"Check")).append ((Res.new (heading py!"Check meta model")).appendAll (lines ls))).append (Res.new skippedLine .warning)).mapMsg
      Line.said = textReport (ls.map Line.shown) := by
  rw [textReport, mapMsg_append, mapMsg_append, mapMsg_appendAll]
  have : (lines ls).map (mapMsg Line.said) = (ls.map Line.shown).map fun t => Res.new t .error := by
    rw [lines, List.map_map, List.map_map]
    refine List.map_congr_left fun l hm => ?_
    simp only [Function.comp, Res.new, mapMsg, mapMsgL, h l hm]
  rw [this]
  rfl

theorem lines_ok (ls : List Line) (res : Res Line) : (res.appendAll (lines ls)).ok = true ↔ res.ok = true ∧ ls = [] := by
  rw [← quiet_ok, quiet_appendAll, appendAll_errs_ok, quiet_ok, List.map_eq_nil_iff]

theorem report_ok (ls : List Line) :
    ((Res.new (heading py!"Check")).append ((Res.new (heading py!"Check meta model")).appendAll (lines ls))).ok = true ↔ ls = [] := by
  have h := lines_ok ls (Res.new (heading py!"Check meta model"))
  generalize (Res.new (heading py!"Check meta model")).appendAll (lines ls) = r at h ⊢
  have h' : ((Res.new (heading py!"Check")).append r).ok = r.ok := by
    cases r with
    | mk m l ss => cases l <;> rfl
  rw [h', h]
  simp [Res.new, heading, Res.ok, Res.level]

/-- The whole report on JSON data that does not conform to the meta-model. -/
theorem C92_data (T : Str) (c : Cls) (hT : symbol T = .ok (.cls c)) (j : Json) (hw : WF j) (h : ¬ Conforms (schema lim) (.cls c) j) :
    ∃ r v texts, jsonTell W lim j T = .ok (r, v) ∧ r.mapMsg Line.said = textReport texts ∧ texts ≠ [] ∧
      TellsFit W lim EnumCls.pyName (schema lim) (.cls c) j texts := by
  obtain ⟨v, ls, h1, h2, h3, h4⟩ := json_lines W lim (.cls c) trivial j hw (j.size + 1) (Nat.lt_succ_self _) py!"Check meta model"
  have hne : ls ≠ [] := by
    rintro rfl
    exact h ((C86_conforms (schema lim) (sane lim) (distinctKeys lim) (supported lim) (.cls c) trivial j hw []).mpr fun m hm => by
      have := (h4 m).mpr hm; cases this)
  refine ⟨_, v, _, ?_, report_said h3, by simpa using hne, h2⟩
  rw [jsonTell, tellObj, hT]
  change tellAndCheck W (jsonTells W) (schema lim) (texts lim) Fld.pyName (tells lim) (j.size + 1) (.cls c) ⟨j, []⟩ = _
  rw [tellAndCheck, h1]
  dsimp only
  rw [if_neg]
  rw [report_ok]
  exact hne

/-- The whole report on XML data with a mistake. -/
theorem C92_xml_data (T : Str) (c : Cls) (hT : symbol T = .ok (.cls c)) (x : Xml) (r : Res Line) (v : AVal) (h : xmlTell W lim x T = .ok (r, v))
    (m : Note) (hm : XFault (schema lim) (.cls c) x [] m) :
    ∃ texts, r.mapMsg Line.said = textReport texts ∧ texts ≠ [] ∧ XTellsFit W lim EnumCls.pyName (schema lim) (.cls c) x texts := by
  rw [xmlTell, tellObj, hT] at h
  change tellAndCheck W (xmlTells W) (schema lim) (texts lim) Fld.pyName (tells lim) (x.size + 1) (.cls c) ⟨x, []⟩ = _ at h
  rw [tellAndCheck] at h
  cases hp : tellF W (xmlTells W) (schema lim) (texts lim) (x.size + 1) (.cls c) ⟨x, []⟩ (Res.new (heading py!"Check meta model")) with
  | error e => rw [hp] at h; cases h
  | ok q =>
    obtain ⟨v', r'⟩ := q
    obtain ⟨ls, rfl, h2, h3, h4⟩ := xml_lines W lim _ _ _ _ _ _ hp
    have hne : ls ≠ [] := by
      rintro rfl
      have := (h4 m).mpr hm; cases this
    rw [hp] at h
    dsimp only at h
    rw [if_neg (by rw [report_ok]; exact hne)] at h
    cases h
    exact ⟨_, report_said h3, by simpa using hne, h2⟩

/-- the report on a document without mistakes, in which these rules are broken at these places -/
def rulesReport (broken : List (Str × List PTok × Level)) : Res Str :=
  ((Res.new py!"Check").append (Res.new py!"Check meta model")).append
    ((Res.new py!"Check constraints").appendAll (broken.map fun b => Res.new (textAt b.1 (b.2.1.map PTok.text)) b.2.2))

/-- what a rule of an object says about it, with the place of the object and the level -/
def brokenBy (p : List PTok) (x : AVal) (check : AVal → Chk Unit) : Option (Str × List PTok × Level) :=
  match check x with
  | .error (.violated t l) => some (t, p, l)
  | _ => none

/-- the broken rules: the objects in the order of the attributes, for each object its rules in their order -/
def brokenRules (checks : Cls → List (AVal → Chk Unit)) (v : AVal) : List (Str × List PTok × Level) :=
  (objects Fld.pyName v []).flatMap fun o => (checksOf checks o.2).filterMap (brokenBy o.1 o.2)

theorem violation_eq (p : List PTok) (x : AVal) (check : AVal → Chk Unit) :
    violation p x check = (brokenBy p x check).map fun b => Res.new ⟨.constraint b.1, b.2.1⟩ b.2.2 := by
  rw [violation, brokenBy]
  cases check x with
  | ok u => rfl
  | error e => cases e <;> rfl

theorem rules_said {v : AVal} {m : Note} {r : Res Note} (h : checkConstraints Fld.pyName (tells lim) v [] (Res.new m) = .ok r) :
    (r.mapMsg Note.line).mapMsg Line.said =
        (Res.new m.line.said).appendAll ((brokenRules (tells lim) v).map fun b => Res.new (textAt b.1 (b.2.1.map PTok.text)) b.2.2) := by
  have hr := checkConstraints_spec Fld.pyName (tells lim) v [] (Res.new m)
  rw [h] at hr
  obtain ⟨rfl, -⟩ := hr
  have : ((objects Fld.pyName v []).flatMap fun o => (checksOf (tells lim) o.2).filterMap (violation o.1 o.2)) =
      (brokenRules (tells lim) v).map fun b => Res.new ⟨.constraint b.1, b.2.1⟩ b.2.2 := by
    rw [brokenRules, List.map_flatMap]
    refine congrArg (fun f => List.flatMap f _) (funext fun o => ?_)
    rw [List.map_filterMap]
    exact congrArg (fun f => List.filterMap f _) (funext fun f => violation_eq _ _ _)
  rw [this, mapMsg_appendAll, mapMsg_appendAll, List.map_map, List.map_map]
  congr 1
  refine List.map_congr_left fun b _ => ?_
  simp only [Function.comp, Res.new, mapMsg, mapMsgL, Note.line, Line.said, shown_text]

/-- The broken rules are the violations. -/
theorem C92_broken (v : AVal) (t : Str) (p : List PTok) (l : Level) :
    (t, p, l) ∈ brokenRules (tells lim) v ↔ ∃ x, Violates Fld.pyName (tells lim) v p x t l := by
  simp only [brokenRules, List.mem_flatMap, List.mem_filterMap]
  constructor
  · rintro ⟨⟨q, x⟩, hm, f, hf, hb⟩
    obtain ⟨q', hq, hn⟩ := (mem_objects Fld.pyName v [] _).mp hm
    simp only [List.nil_append] at hq
    subst hq
    rw [brokenBy] at hb
    split at hb
    · rename_i hfx
      cases hb
      exact ⟨x, hn, f, hf, hfx⟩
    · cases hb
  · rintro ⟨x, hn, f, hf, hfx⟩
    exact ⟨(p, x), (mem_objects Fld.pyName v [] _).mpr ⟨p, rfl, hn⟩, f, hf, by simp [brokenBy, hfx]⟩

/-- The whole report on JSON data that conforms to the meta-model: a line for every broken rule, with the text of the rule and the place of the element. -/
theorem C92_rules (T : Str) (c : Cls) (hT : symbol T = .ok (.cls c)) (j : Json) (hw : WF j) (h : Conforms (schema lim) (.cls c) j) (r : Res Line) (v : AVal)
    (hr : jsonTell W lim j T = .ok (r, v)) :
    r.mapMsg Line.said = rulesReport (brokenRules (tells lim) v) := by
  obtain ⟨v', ls, h1, h2, h3, h4⟩ := json_lines W lim (.cls c) trivial j hw (j.size + 1) (Nat.lt_succ_self _) py!"Check meta model"
  have hnil : ls = [] := by
    refine List.eq_nil_iff_forall_not_mem.mpr fun l hm => ?_
    exact (C86_conforms (schema lim) (sane lim) (distinctKeys lim) (supported lim) (.cls c) trivial j hw []).mp h _ ((h4 _).mp (List.mem_map.mpr ⟨l, hm, rfl⟩))
  subst hnil
  rw [jsonTell, tellObj, hT] at hr
  change tellAndCheck W (jsonTells W) (schema lim) (texts lim) Fld.pyName (tells lim) (j.size + 1) (.cls c) ⟨j, []⟩ = _ at hr
  rw [tellAndCheck, h1] at hr
  dsimp only at hr
  rw [if_pos ((report_ok []).mpr rfl)] at hr
  cases hc : checkConstraints Fld.pyName (tells lim) v' [] (Res.new ⟨.title py!"Check constraints", []⟩) with
  | error e => rw [hc] at hr; cases hr
  | ok rc =>
    rw [hc] at hr
    cases hr
    rw [mapMsg_append, rules_said lim hc]
    rfl

/-- The whole report on XML data without mistakes. -/
theorem C92_xml_rules (T : Str) (c : Cls) (hT : symbol T = .ok (.cls c)) (x : Xml) (h : ∀ m, ¬ XFault (schema lim) (.cls c) x [] m) (r : Res Line) (v : AVal)
    (hr : xmlTell W lim x T = .ok (r, v)) :
    r.mapMsg Line.said = rulesReport (brokenRules (tells lim) v) := by
  rw [xmlTell, tellObj, hT] at hr
  change tellAndCheck W (xmlTells W) (schema lim) (texts lim) Fld.pyName (tells lim) (x.size + 1) (.cls c) ⟨x, []⟩ = _ at hr
  rw [tellAndCheck] at hr
  cases hp : tellF W (xmlTells W) (schema lim) (texts lim) (x.size + 1) (.cls c) ⟨x, []⟩ (Res.new (heading py!"Check meta model")) with
  | error e => rw [hp] at hr; cases hr
  | ok q =>
    obtain ⟨v', r'⟩ := q
    obtain ⟨ls, rfl, h2, h3, h4⟩ := xml_lines W lim _ _ _ _ _ _ hp
    have hnil : ls = [] := List.eq_nil_iff_forall_not_mem.mpr fun l hm => h _ ((h4 _).mp (List.mem_map.mpr ⟨l, hm, rfl⟩))
    subst hnil
    rw [hp] at hr
    dsimp only at hr
    rw [if_pos ((report_ok []).mpr rfl)] at hr
    cases hc : checkConstraints Fld.pyName (tells lim) v' [] (Res.new ⟨.title py!"Check constraints", []⟩) with
    | error e => rw [hc] at hr; cases hr
    | ok rc =>
      rw [hc] at hr
      cases hr
      rw [mapMsg_append, rules_said lim hc]
      rfl

theorem errors_level (m : Str) : ∀ texts : List Str, texts ≠ [] → ((Res.new m).appendAll (texts.map fun t => Res.new t .error)).level = .error := by
  have h : ∀ (texts : List Str) (res : Res Str), res.level = .error → (res.appendAll (texts.map fun t => Res.new t .error)).level = .error := by
    intro texts
    induction texts with
    | nil => intro res hr; exact hr
    | cons t texts ih =>
      intro res hr
      refine ih (res.append (Res.new t .error)) ?_
      cases res
      cases hr
      rfl
  intro texts hne
  cases texts with
  | nil => exact absurd rfl hne
  | cons t texts => exact h texts ((Res.new m).append (Res.new t .error)) rfl

theorem toLinesL_errors : ∀ texts : List Str, toLinesL 2 (texts.map fun t => Res.new t .error) = texts.map (expectedLine 2 .error)
  | [] => rfl
  | t :: texts => by
    rw [List.map_cons, List.map_cons, toLinesL, toLinesL_errors texts, ← line_eq]
    rfl

/-- How such a report is printed. -/
theorem C92_printed (texts : List Str) (hne : texts ≠ []) :
    Res.toLines 0 (textReport texts) = expectedLine 0 .error py!"Check" :: expectedLine 1 .error py!"Check meta model" :: texts.map (expectedLine 2 .error) ++
      [expectedLine 1 .warning py!"Skipped checking of constraints"] := by
  have hl := errors_level py!"Check meta model" texts hne
  have he := new_appendAll_eq py!"Check meta model" .info (texts.map fun t => Res.new t .error)
  rw [hl] at he
  rw [textReport, he, ← toLinesL_errors]
  rfl

/-- what is printed for a report -/
def printed (x : Except PyExc (Res Line × AVal)) : Except PyExc (List Str) := x.map fun p => (p.1.mapMsg Line.said).toLines 0

/-- numbers as 7, only the letters of English -/
def plainWords : Words := ⟨fun _ => py!"7", fun _ => true, fun c => [c - 32]⟩

/-- the texts below the headings of a report -/
def sayings (x : Except PyExc (Res Line × AVal)) : Except PyExc (List Str) := x.map fun p => (p.1.subs.flatMap (·.subs)).map fun r => r.msg.said

example : sayings (jsonTell plainWords none faultyJson py!"Environment") = .ok [
    py!"Empty array not allowed @ /submodels/0/qualifiers",
    py!"Cannot convert 7 to string @ /submodels/0/idShort",
    py!"Missing attribute id @ /submodels/0",
    py!"Missing 'modelType' @ /submodels/0/submodelElements/0",
    py!"Invalid model type Prop @ /submodels/0/submodelElements/1",
    py!"'int' is not a valid DataTypeDefXsd @ /submodels/0/submodelElements/2/valueType",
    py!"Unknown additional attribute Id @ /submodels/0"] := by decide +kernel

/-- a submodel with a property of this category -/
def propertyOf (category : Str) : Json := .obj [(py!"submodels", .arr [.obj [(py!"modelType", .str py!"Submodel"), (py!"id", .str py!"urn:x"),
  (py!"submodelElements", .arr [.obj [(py!"modelType", .str py!"Property"), (py!"idShort", .str py!"p"), (py!"category", .str category),
    (py!"valueType", .str py!"xs:int"), (py!"value", .str py!"12")]])]])]

example : sayings (jsonTell plainWords none (propertyOf py!"CONSTANT") py!"Environment") = .ok [] ∧
    sayings (jsonTell plainWords none (propertyOf py!"wrong") py!"Environment") = .ok [
      py!"Constraint AASd-090 violated: category wrong is not one of ['CONSTANT', 'PARAMETER', 'VARIABLE'] @ p in Submodel [urn:x] @ /submodels/0/submodel_elements/0"] := by
  decide +kernel

example : sayings (xmlTell plainWords none faultyXml py!"Environment") = .ok [
    py!"invalid namespace, got '{x}submodel' @ /submodels/0",
    py!"No inline text allowed @ /submodels/1",
    py!"No child elements allowed @ /submodels/2/idShort",
    py!"Invalid model type Prop @ /submodels/2/submodelElements/0",
    py!"DataSpecificationContent must have exactly one child @ /submodels/2/submodelElements/1/inputVariables/0",
    py!"Unknown additional attribute value @ /submodels/2"] := by decide +kernel

theorem single_split {α : Type} {a b : α} {pre post : List α} (h : [a] = pre ++ b :: post) : pre = [] ∧ b = a ∧ post = [] := by
  cases pre with
  | nil => cases h; exact ⟨rfl, rfl, rfl⟩
  | cons c pre =>
    injection h with h1 h2
    exact absurd h2 (by simp)

/-- An element that has no data specification is said to have one: the value of the operation variable has no child. -/
theorem C92_single_child_violated : ∃ x : Xml, (∀ segs y, XLeads segs x y → ¬ py!"dataSpecificationContent" <:+ y.tag) ∧
    ∃ r v, xmlTell W lim x py!"OperationVariable" = .ok (r, v) ∧
      r.mapMsg Line.said = textReport [py!"DataSpecificationContent must have exactly one child @ /"] := by
  refine ⟨el py!"operationVariable" none [el py!"value" none []], ?_, _, _, rfl, rfl⟩
  have h2 : ∀ segs y, XLeads segs (el py!"value" none []) y → y = el py!"value" none [] := by
    intro segs y h
    cases h with
    | here => rfl
    | member _ hc hch =>
      rcases hc with ⟨-, hc⟩ | ⟨-, rfl⟩
      · cases hc
      · exact absurd hch (by simp [el, Xml.children])
    | item hi => simp [el, Xml.children] at hi
  have h1 : ∀ segs y, XLeads segs (el py!"operationVariable" none [el py!"value" none []]) y →
      y = el py!"operationVariable" none [el py!"value" none []] ∨ y = el py!"value" none [] := by
    intro segs y h
    cases h with
    | here => exact .inl rfl
    | member _ hc hch _ _ hi h =>
      rcases hc with ⟨hc, -⟩ | ⟨-, rfl⟩
      · exact absurd hc (by decide +kernel)
      · obtain ⟨rfl, rfl, rfl⟩ := single_split hch
        rcases hi with ⟨-, hi⟩ | ⟨-, rfl⟩
        · cases hi
        · exact .inr (h2 _ _ h)
    | @item i _ _ _ _ hi h =>
      cases i with
      | zero => cases hi; exact .inr (h2 _ _ h)
      | succ i => simp [el, Xml.children] at hi
  intro segs y h
  rcases h1 segs y h with rfl | rfl <;> decide +kernel

/-- Quoted strings can be read back, and are read in one way only; printable strings of ASCII without quotes and backslashes stand in single quotes as
they are. Double quotes are used only for strings with single and without double quotes. -/
theorem C92_quoted (s : Str) (hs : ∀ c ∈ s, c < 0x110000) : (∀ s', Quoted (W.repr s) s' ↔ s' = s) ∧
    ((∀ c ∈ s, 32 ≤ c ∧ c < 127 ∧ c ≠ pc! '\'' ∧ c ≠ pc! '\\') → W.repr s = py!"'" ++ s ++ py!"'") ∧
    ((∃ t, W.repr s = pc! '"' :: t) ↔ pc! '\'' ∈ s ∧ pc! '"' ∉ s) := by
  refine ⟨fun s' => ⟨fun h => quoted_unique h (repr_quoted W hs), fun h => by rw [h]; exact repr_quoted W hs⟩, fun h => ?_, ?_⟩
  case refine_2 =>
    have hc : (s.contains 39 && !s.contains 34) = true ↔ 39 ∈ s ∧ 34 ∉ s := by
      simp only [Bool.and_eq_true, Bool.not_eq_true', List.contains_iff_mem, ← Bool.not_eq_true]
    unfold Words.repr
    dsimp only
    by_cases hq : 39 ∈ s ∧ 34 ∉ s
    · rw [if_pos (hc.mpr hq)]
      exact ⟨fun _ => hq, fun _ => ⟨_, rfl⟩⟩
    · rw [if_neg (fun h => hq (hc.mp h))]
      exact ⟨fun ⟨t, ht⟩ => absurd (List.cons.inj ht).1 (by decide), fun h => absurd h hq⟩
  have hq : s.contains 39 = false := by
    rw [← Bool.not_eq_true, List.contains_iff_mem]
    exact fun hm => (h 39 hm).2.2.1 rfl
  unfold Words.repr
  dsimp only
  rw [hq]
  simp only [Bool.false_and, Bool.false_eq_true, if_false]
  have : s.flatMap (W.reprChar 39) = s := by
    clear hs hq
    induction s with
    | nil => rfl
    | cons c s ih =>
      obtain ⟨h1, h2, h3, h4⟩ := h c (.head _)
      have hc : W.reprChar 39 c = [c] := by
        unfold Words.reprChar
        rw [if_neg (fun h => h.elim h3 h4), if_neg (by omega), if_neg (by omega), if_neg (by omega), if_pos ⟨h1, h2⟩]
      rw [List.flatMap_cons, hc, ih fun d hd => h d (.tail _ hd)]
      rfl
  rw [this]
  rfl

example : Quoted py!"\"it's \\n\"" py!"it's \n" ∧ plainWords.repr py!"it's \n" = py!"\"it's \\n\"" :=
  ⟨(((C92_quoted plainWords py!"it's \n" (by decide)).1 _).mpr rfl), by decide⟩

/-- Any text can be put as a line of its own into what is printed: it stands between two line feeds in the name of a member. -/
theorem C92_one_line_violated (t : Str) : ∃ j r v line a b, WF j ∧ jsonTell W lim j py!"Environment" = .ok (r, v) ∧
    line ∈ (r.mapMsg Line.said).toLines 0 ∧ line = a ++ py!"\n" ++ t ++ py!"\n" ++ b := by
  have hnd : ∀ (f : Fld) ty req, (⟨f, .attr (py!"\n" ++ t ++ py!"\n") ty req⟩ : Field _ _ _ _) ∉ (schema lim).fields .environment := by
    intro f ty req hm
    have := List.all_eq_true.mp (plainKeys .environment) _ (mem_allKeys.mpr ⟨f, ty, req, hm⟩)
    revert this
    simp [plainKey]
  have hw : WF (.obj [(py!"\n" ++ t ++ py!"\n", .null)]) := .obj (by simp) (by intro kv h; cases List.mem_singleton.mp h; exact .null)
  have hft : Fault (schema lim) (.cls .environment) (.obj [(py!"\n" ++ t ++ py!"\n", .null)]) [] ⟨.unknownAttribute (py!"\n" ++ t ++ py!"\n"), []⟩ :=
    .unknown (c' := .environment) (.inl ⟨rfl, rfl⟩) (List.mem_singleton.mpr rfl) (by simp) hnd
  obtain ⟨r, v, texts, h1, h2, h3, h4, h5, -⟩ := C92_data W lim py!"Environment" .environment (by decide +kernel) _ hw fun hc =>
    (C86_conforms (schema lim) (sane lim) (distinctKeys lim) (supported lim) (.cls .environment) trivial _ hw []).mp hc _ hft
  obtain ⟨t', hs, hm⟩ := h5 [] _ _ _ (.here _) (.here _ _) hft
  cases hs
  have hp : expectedLine 2 .error (textAt (py!"Unknown additional attribute " ++ (py!"\n" ++ t ++ py!"\n")) []) ∈ (r.mapMsg Line.said).toLines 0 := by
    rw [h2, C92_printed texts h3]
    simp only [List.cons_append, List.mem_cons, List.mem_append, List.mem_map]
    exact .inr (.inr (.inl ⟨_, hm, rfl⟩))
  refine ⟨_, r, v, _, expectedLine 2 .error py!"Unknown additional attribute " |>.dropLast.dropLast.dropLast.dropLast, py!" @ /" ++ [27] ++ py!"[0m", hw, h1, hp, ?_⟩
  simp [expectedLine, textAt, Py.join, ansi]

/-- no line feed -/
def OneLine (s : Str) : Prop := pc! '\n' ∉ s

instance (s : Str) : Decidable (OneLine s) := inferInstanceAs (Decidable (_ ∉ s))

theorem OneLine.append {a b : Str} (ha : OneLine a) (hb : OneLine b) : OneLine (a ++ b) := by
  rw [OneLine, List.mem_append, not_or]; exact ⟨ha, hb⟩

theorem natStr_oneLine (n : Nat) : OneLine (Py.natStr n) := fun h => by
  have := natStr_digits n _ h
  revert this; decide

theorem leads_snoc {segs : List Str} {j part w : Json} {k : Str} (h : Leads segs j part) (h' : Leads [k] part w) : Leads (segs ++ [k]) j w := by
  induction h with
  | here => exact h'
  | member hm _ ih => exact .member hm (ih h')
  | item hi _ ih => exact .item hi (ih h')

theorem segs_oneLine {segs : List Str} {j part : Json} (h : Leads segs j part)
    (hk : ∀ segs kvs kv, Leads segs j (.obj kvs) → kv ∈ kvs → OneLine kv.1) : ∀ s ∈ segs, OneLine s := by
  induction h with
  | here => intro s hs; cases hs
  | member hm _ ih =>
    intro s hs
    rcases List.mem_cons.mp hs with rfl | hs
    · exact hk _ _ _ (.here _) hm
    · exact ih (fun segs kvs kv hl he => hk _ _ _ (.member hm hl) he) s hs
  | item hi _ ih =>
    intro s hs
    rcases List.mem_cons.mp hs with rfl | hs
    · exact natStr_oneLine _
    · exact ih (fun segs kvs kv hl he => hk _ _ _ (.item hi hl) he) s hs

theorem join_oneLine : ∀ {l : List Str}, (∀ s ∈ l, OneLine s) → OneLine (Py.join py!"/" l)
  | [], _ => by simp [Py.join, OneLine]
  | [s], h => h s (.head _)
  | s :: t :: r, h => by
    have := join_oneLine (l := t :: r) fun s hs => h s (.tail _ hs)
    simp only [Py.join]
    exact .append (.append (h s (.head _)) (by decide)) this

theorem hex_oneLine : ∀ n c, OneLine (Words.hex n c)
  | 0, _ => by simp [Words.hex, OneLine]
  | n + 1, c => by
    refine .append (hex_oneLine n _) ?_
    simp only [OneLine, Words.hexDigit, List.mem_singleton]
    split <;> omega

theorem repr_oneLine (s : Str) : OneLine (W.repr s) := by
  have hc : ∀ q c, q ≠ 10 → OneLine (W.reprChar q c) := by
    intro q c hq
    unfold Words.reprChar
    split
    · rename_i h
      intro hm
      simp only [List.mem_cons, List.not_mem_nil, or_false] at hm
      rcases h with rfl | rfl
      · rcases hm with hm | hm
        · exact absurd hm (by decide)
        · exact hq hm.symm
      · rcases hm with hm | hm <;> exact absurd hm (by decide)
    split
    · decide
    split
    · decide
    split
    · decide
    split
    · rename_i h
      simp only [OneLine, List.mem_singleton]; omega
    split
    · rename_i h
      simp only [OneLine, List.mem_singleton]; omega
    split
    · exact .append (by decide) (hex_oneLine _ _)
    split
    · exact .append (by decide) (hex_oneLine _ _)
    · exact .append (by decide) (hex_oneLine _ _)
  unfold Words.repr
  dsimp only
  generalize hq : (if s.contains 39 && !s.contains 34 then 34 else 39) = q
  have hq' : q ≠ 10 := by rw [← hq]; split <;> decide
  refine .append (a := q :: _) ?_ (by simpa [OneLine] using Ne.symm hq')
  rw [OneLine, List.mem_cons, not_or]
  refine ⟨Ne.symm hq', fun hm => ?_⟩
  obtain ⟨c, -, hm⟩ := List.mem_flatMap.mp hm
  exact hc q c hq' hm

theorem keys_oneLine (c : Cls) : ((allKeys ((schema none).fields c)).all fun k => !k.contains 10) = true := by cases c <;> decide +kernel

theorem pattern_oneLine (c : SfvCls) : ((patternOf c).all fun k => !k.contains 10) = true := by cases c <;> decide +kernel

theorem enum_oneLine (e : EnumCls) : OneLine e.pyName := by cases e <;> decide +kernel

theorem format_oneLine {c : SfvCls} {s t : Str} (h : FormatText lim c s t) (hs : OneLine s) : OneLine t := by
  cases h with
  | short => exact .append (.append (by decide) (natStr_oneLine _)) (by decide)
  | long => exact .append (.append (by decide) (natStr_oneLine _)) (by decide)
  | pattern hp =>
    refine .append (.append (.append (by decide) hs) (by decide)) ?_
    have := pattern_oneLine c
    rw [hp] at this
    simpa [OneLine] using this
  | longYear => exact .append (.append (.append (.append (by decide) (natStr_oneLine _)) (by decide)) (natStr_oneLine _)) (by decide)
  | longYearUtc => exact .append (.append (.append (.append (by decide) (natStr_oneLine _)) (by decide)) (natStr_oneLine _)) (by decide)
  | _ => decide

/-- Every line of the report is one line, if the names of members have no line feeds, and neither has what is shown of the values. -/
theorem C92_one_line_partial (T : Str) (c : Cls) (hT : symbol T = .ok (.cls c)) (j : Json) (hw : WF j) (h : ¬ Conforms (schema lim) (.cls c) j)
    (hk : ∀ segs kvs kv, Leads segs j (.obj kvs) → kv ∈ kvs → OneLine kv.1) (hv : ∀ segs part, Leads segs j part → OneLine (shows W part))
    (r : Res Line) (v : AVal) (hr : jsonTell W lim j T = .ok (r, v)) : ∀ line ∈ (r.mapMsg Line.said).toLines 0, OneLine line := by
  obtain ⟨r', v', texts, h1, h2, h3, h4, -⟩ := C92_data W lim T c hT j hw h
  rw [hr] at h1
  cases h1
  have hcol : ∀ d l m, OneLine m → OneLine (expectedLine d l m) := by
    intro d l m hm
    refine .append (.append (.append (.append (.append (.append (.append ?_ (by decide)) (by decide)) (by cases l <;> decide)) (by decide)) hm) (by decide)) (by decide)
    intro hb
    have := List.eq_of_mem_replicate hb
    revert this; decide
  rw [h2, C92_printed texts h3]
  intro line hm
  simp only [List.cons_append, List.mem_cons, List.mem_append, List.mem_map, List.not_mem_nil, or_false] at hm
  rcases hm with rfl | rfl | ⟨t, hm, rfl⟩ | rfl
  · exact hcol _ _ _ (by decide)
  · exact hcol _ _ _ (by decide)
  · refine hcol _ _ _ ?_
    obtain ⟨t, segs, part, u, k, rfl, -, hld, hdue, hft, hs, -⟩ := h4 t hm
    have hld := (hld part).mpr rfl
    refine .append (.append ?_ (by decide)) (join_oneLine (segs_oneLine hld hk))
    have hsh := hv _ _ hld
    cases hs with
    | notString => exact .append (.append (by decide) hsh) (by decide)
    | notBool => exact .append (.append (by decide) hsh) (by decide)
    | notList => exact .append (.append (by decide) hsh) (by decide)
    | notObject => exact .append (.append (by decide) hsh) (by decide)
    | notAbstract => exact .append (by decide) hsh
    | notInEnum => exact .append (.append (repr_oneLine W _) (by decide)) (enum_oneLine _)
    | format hf => exact format_oneLine lim hf hsh
    | invalidModelType hj => exact .append (by decide) (hv _ _ (leads_snoc hld (.member hj (.here _))))
    | missing =>
      cases hft with
      | missing _ hf =>
        refine .append (by decide) ?_
        have := List.all_eq_true.mp (keys_oneLine _) _ (mem_allKeys.mpr ⟨_, _, _, hf⟩)
        simpa [OneLine] using this
      | value _ _ _ hf => exact absurd rfl (path_cons_ne (p := []) hf)
    | unknown =>
      cases hft with
      | unknown _ hj => exact .append (by decide) (hk _ _ _ hld hj)
      | value _ _ _ hf => exact absurd rfl (path_cons_ne (p := []) hf)
    | _ => decide
  · exact hcol _ _ _ (by decide)

/-- an environment with a member that no environment has -/
example : ∀ r v, jsonTell plainWords none (.obj [(py!"a", .num 7)]) py!"Environment" = .ok (r, v) → ∀ line ∈ (r.mapMsg Line.said).toLines 0, OneLine line := by
  have hw : WF (.obj [(py!"a", .num 7)]) := .obj (by simp) (by intro kv h; cases List.mem_singleton.mp h; exact .num _)
  have hl : ∀ segs part, Leads segs (.obj [(py!"a", .num 7)]) part → part = .obj [(py!"a", .num 7)] ∨ part = .num 7 := by
    intro segs part h
    cases h with
    | here => exact .inl rfl
    | member hm h =>
      cases List.mem_singleton.mp hm
      cases h
      exact .inr rfl
  refine C92_one_line_partial plainWords none py!"Environment" .environment (by decide +kernel) _ hw (fun hc => ?_) (fun segs kvs kv h hm => ?_) (fun segs part h => ?_)
  · exact (C86_conforms (schema none) (sane none) (distinctKeys none) (supported none) (.cls .environment) trivial _ hw []).mp hc _
      (.unknown (c' := .environment) (k := py!"a") (.inl ⟨rfl, rfl⟩) (List.mem_singleton.mpr rfl) (by decide) fun f ty req hm =>
        absurd (mem_allKeys.mpr ⟨f, ty, req, hm⟩) (by decide +kernel))
  · rcases hl _ _ h with h | h
    · cases h
      cases List.mem_singleton.mp hm
      decide
    · cases h
  · rcases hl _ _ h with rfl | rfl <;> decide

/-- the element itself, and the elements in it -/
inductive XWithin : Xml → Xml → Prop
  | here (x) : XWithin x x
  | child {x y z} : y ∈ x.children → XWithin y z → XWithin x z

theorem within_trans {x y z : Xml} (h : XWithin x y) (h' : XWithin y z) : XWithin x z := by
  induction h with
  | here => exact h'
  | child hm _ ih => exact .child hm (ih h')

theorem content_within {x d : Xml} (h : Spec.Parse.Content x d) : XWithin x d := by
  rcases h with ⟨-, h⟩ | ⟨-, rfl⟩
  · exact .child (by rw [h]; exact .head _) (.here _)
  · exact .here _

theorem inside_within {d y z : Xml} (h : Inside d y z) : XWithin y z := by
  rcases h with ⟨-, h⟩ | ⟨-, rfl⟩
  · exact .child (by rw [h]; exact .head _) (.here _)
  · exact .here _

theorem xleads_within {segs : List Str} {x y : Xml} (h : XLeads segs x y) (hk : ∀ z, XWithin x z → OneLine z.tag) :
    XWithin x y ∧ ∀ s ∈ segs, OneLine s := by
  induction h with
  | here => exact ⟨.here _, fun s hs => by cases hs⟩
  | @member k r x d pre y post z u _ hc hch ht _ hi _ ih =>
    have hy : XWithin x y := within_trans (content_within hc) (.child (by rw [hch]; simp) (.here _))
    have hz := within_trans hy (inside_within hi)
    obtain ⟨h1, h2⟩ := ih fun z' h' => hk z' (within_trans hz h')
    refine ⟨within_trans hz h1, fun s hs => ?_⟩
    rcases List.mem_cons.mp hs with rfl | hs
    · have := hk _ hy
      rw [ht] at this
      exact fun h => this (List.mem_append_right _ h)
    · exact h2 s hs
  | item hi _ ih =>
    have hy := XWithin.child (List.mem_of_getElem? hi) (.here _)
    obtain ⟨h1, h2⟩ := ih fun z' h' => hk z' (within_trans hy h')
    refine ⟨within_trans hy h1, fun s hs => ?_⟩
    rcases List.mem_cons.mp hs with rfl | hs
    · exact natStr_oneLine _
    · exact h2 s hs

theorem expected_oneLine {d : Nat} {l : Level} {m : Str} (hm : OneLine m) : OneLine (expectedLine d l m) := by
  refine .append (.append (.append (.append (.append (.append (.append ?_ (by decide)) (by decide)) (by cases l <;> decide)) (by decide)) hm) (by decide)) (by decide)
  intro hb
  have := List.eq_of_mem_replicate hb
  revert this; decide

/-- Every line of the report on an XML document is one line, if names, namespaces and texts have no line feeds. -/
theorem C92_xml_one_line_partial (T : Str) (c : Cls) (hT : symbol T = .ok (.cls c)) (x : Xml) (m : Note) (hm : XFault (schema lim) (.cls c) x [] m)
    (hk : ∀ y, XWithin x y → OneLine y.tag) (hv : ∀ y, XWithin x y → OneLine (y.text.getD [])) (hu : ∀ a, a ≠ pc! '\n' → OneLine (W.upper a))
    (r : Res Line) (v : AVal) (hr : xmlTell W lim x T = .ok (r, v)) : ∀ line ∈ (r.mapMsg Line.said).toLines 0, OneLine line := by
  obtain ⟨texts, h2, h3, h4, -⟩ := C92_xml_data W lim T c hT x r v hr m hm
  rw [h2, C92_printed texts h3]
  intro line hm
  simp only [List.cons_append, List.mem_cons, List.mem_append, List.mem_map, List.not_mem_nil, or_false] at hm
  rcases hm with rfl | rfl | ⟨t, hm, rfl⟩ | rfl
  · exact expected_oneLine (by decide)
  · exact expected_oneLine (by decide)
  · refine expected_oneLine ?_
    obtain ⟨t, segs, part, u, k, rfl, -, hld, hdue, hft, hs, -⟩ := h4 t hm
    obtain ⟨hin, hsegs⟩ := xleads_within ((hld part).mpr rfl) hk
    refine .append (.append ?_ (by decide)) (join_oneLine hsegs)
    cases hs with
    | notInEnum => exact .append (.append (repr_oneLine W _) (by decide)) (enum_oneLine _)
    | format hf => exact format_oneLine lim hf (hv _ hin)
    | ns => exact .append (.append (by decide) (hk _ hin)) (by decide)
    | childNs _ hc hy => exact .append (by decide) (hk _ (within_trans hin (within_trans (content_within hc) (.child hy (.here _)))))
    | @invalidModelType _ _ d a s hc ht =>
      have := hk _ (within_trans hin (content_within hc))
      have hd : OneLine (a :: s) := by rw [← ht]; exact fun h => this (List.mem_of_mem_drop h)
      rw [OneLine, List.mem_cons, not_or] at hd
      exact .append (.append (by decide) (hu a (Ne.symm hd.1))) hd.2
    | missing =>
      cases hft with
      | missing _ _ hf =>
        refine .append (by decide) ?_
        have := List.all_eq_true.mp (keys_oneLine _) _ (mem_allKeys.mpr ⟨_, _, _, hf⟩)
        simpa [OneLine] using this
      | bad _ hb => cases hb
      | value _ _ _ _ _ _ _ hf => exact absurd rfl (xpath_cons_ne (p := []) hf)
    | unknown =>
      cases hft with
      | unknown ho _ hy ht =>
        have := hk _ (within_trans hin (within_trans (content_within ho.2.2.1) (.child hy (.here _))))
        rw [ht] at this
        exact .append (by decide) fun h => this (List.mem_append_right _ h)
      | bad _ hb => cases hb
      | value _ _ _ _ _ _ _ hf => exact absurd rfl (xpath_cons_ne (p := []) hf)
    | _ => decide
  · exact expected_oneLine (by decide)

/-- … and they can have: a line feed in an attribute of XML is kept if it is written as a reference. -/
theorem C92_xml_one_line_violated (t : Str) : ∃ x r v line a b, xmlTell W lim x py!"Environment" = .ok (r, v) ∧
    line ∈ (r.mapMsg Line.said).toLines 0 ∧ line = a ++ py!"\n" ++ t ++ py!"\n" ++ b := by
  have hr : ∃ q, xmlTell W lim (.elem (py!"{\n" ++ t ++ py!"\n}environment") none []) py!"Environment" = .ok q := ⟨_, rfl⟩
  obtain ⟨⟨r, v⟩, hr⟩ := hr
  have hns : ¬ xmlns <+: (Xml.elem (py!"{\n" ++ t ++ py!"\n}environment") none []).tag := by
    rintro ⟨u, h⟩
    have := congrArg (fun l => l[1]?) h
    simp [xmlns, Xml.tag] at this
  have hft : XFault (schema lim) (.cls .environment) (.elem (py!"{\n" ++ t ++ py!"\n}environment") none []) [] ⟨.badNamespace, []⟩ := .bad (.inl rfl) (.ns hns)
  obtain ⟨texts, h2, h3, h4, h5, -⟩ := C92_xml_data W lim py!"Environment" .environment (by decide +kernel) _ r v hr _ hft
  obtain ⟨t', hs, hm⟩ := h5 [] _ _ _ (.here _) (.here _ _) hft
  cases hs with
  | childNs h => exact absurd h hns
  | ns =>
    have hp : expectedLine 2 .error (textAt (py!"invalid namespace, got '" ++ (py!"{\n" ++ t ++ py!"\n}environment") ++ py!"'") []) ∈
        (r.mapMsg Line.said).toLines 0 := by
      rw [h2, C92_printed texts h3]
      simp only [List.cons_append, List.mem_cons, List.mem_append, List.mem_map]
      exact .inr (.inr (.inl ⟨_, hm, rfl⟩))
    refine ⟨_, r, v, _, expectedLine 2 .error py!"invalid namespace, got '{" |>.dropLast.dropLast.dropLast.dropLast, py!"}environment' @ /" ++ [27] ++ py!"[0m", hr, hp, ?_⟩
    simp [expectedLine, textAt, Py.join, ansi]

/-- a text where an object is expected, inside of an environment -/
example : ∀ r v, xmlTell { plainWords with upper := fun c => [c] } none (el py!"environment" (some py!"x") [el py!"submodels" none []]) py!"Environment" = .ok (r, v) →
    ∀ line ∈ (r.mapMsg Line.said).toLines 0, OneLine line := by
  have hl : ∀ y, XWithin (el py!"environment" (some py!"x") [el py!"submodels" none []]) y →
      y = el py!"environment" (some py!"x") [el py!"submodels" none []] ∨ y = el py!"submodels" none [] := by
    intro y h
    cases h with
    | here => exact .inl rfl
    | child hm h =>
      cases List.mem_singleton.mp (show _ ∈ [el py!"submodels" none []] from hm)
      cases h with
      | here => exact .inr rfl
      | child hm _ => exact absurd hm (by simp [el, Xml.children])
  refine C92_xml_one_line_partial _ none py!"Environment" .environment (by decide +kernel) _ ⟨.inlineText, []⟩
    (.bad (.inl rfl) (.text (by decide +kernel) fun h => absurd (h _ rfl _ (.head _)) (by decide))) (fun y h => ?_) (fun y h => ?_) (fun a ha => ?_)
  · rcases hl _ h with rfl | rfl <;> decide +kernel
  · rcases hl _ h with rfl | rfl <;> decide +kernel
  · simpa [OneLine] using Ne.symm ha

end
end Verif.Props
