import Verif.PlaceLemmas
import Verif.Props.Faults
import Verif.Props.Names
import Verif.Props.Parts
import Verif.Props.Formats

/-!
# C89 The place in a line of the report can be found in the document

`Place` and `Leads` (Spec/Places.lean) say how a reader finds the part of the document a line is about. What stands in front of ` @ ` (`say`) may be
anything; it may contain texts of the document.
-/

namespace Verif.Props
open Verif Verif.Parse Verif.Spec.Parse Verif.Aas Verif.Spec.Model Verif.Engine Verif.Spec.Engine Res

section
variable {C E S F : Type} (sc : Schema C E S F) (say : Kind → Str)

/-- every line names exactly one place, which leads to exactly one part, and the part has the mistake; every part that is not of the type that is due
gets such a line; lines have different texts, if different kinds of mistakes have -/
def LinesFit (ty : Ty C E S) (j : Json) (notes : List Note) : Prop :=
  (∀ m ∈ notes, ∃ segs part u, (∀ segs', Place (lineText say m) segs' ↔ segs' = segs) ∧ (∀ part', Leads segs j part' ↔ part' = part) ∧
    Due sc ty j segs u ∧ Fault sc u part [] ⟨m.kind, []⟩) ∧
  (∀ segs part u k, Leads segs j part → Due sc ty j segs u → Fault sc u part [] ⟨k, []⟩ → ∃ m ∈ notes, m.kind = k ∧ Place (lineText say m) segs) ∧
  ((∀ k k', say k = say k' → k = k') → (notes.map (lineText say)).Nodup)

/-- the same for XML -/
def XLinesFit (ty : Ty C E S) (x : Xml) (notes : List Note) : Prop :=
  (∀ m ∈ notes, ∃ segs part u, (∀ segs', Place (lineText say m) segs' ↔ segs' = segs) ∧ (∀ part', XLeads segs x part' ↔ part' = part) ∧
    XDue sc ty x segs u ∧ XFault sc u part [] ⟨m.kind, []⟩) ∧
  (∀ segs part u k, XLeads segs x part → XDue sc ty x segs u → XFault sc u part [] ⟨k, []⟩ → ∃ m ∈ notes, m.kind = k ∧ Place (lineText say m) segs) ∧
  ((∀ k k', say k = say k' → k = k') → (notes.map (lineText say)).Nodup)

theorem lines_fit (hl : Legible sc) {ty : Ty C E S} {j : Json} (hw : WF j) {notes : List Note} (h2 : ∀ m, m ∈ notes ↔ Fault sc ty j [] m)
    (h3 : notes.Nodup) : LinesFit sc say ty j notes := by
  have plain : ∀ m ∈ notes, ∀ t ∈ m.path, t.Plain := by
    intro m hm
    obtain ⟨q, -, -, hq, hp, -⟩ := Parse.Fault.leads hl ((h2 m).mp hm)
    rw [hq]; exact hp
  refine ⟨fun m hm => ?_, fun segs part u k hld hdue hf => ?_, fun hsay => ?_⟩
  · obtain ⟨q, part, u, hq, hp, hld, hdue, hf⟩ := Parse.Fault.leads hl ((h2 m).mp hm)
    rw [List.nil_append] at hq
    have hpl := line_place say (n := m) (by rw [hq]; exact hp)
    rw [hq] at hpl
    exact ⟨_, part, u, fun segs' => ⟨fun h' => place_unique h' hpl, fun h' => h' ▸ hpl⟩,
      fun part' => ⟨fun h' => (leads_unique hld hw _ h').symm, fun h' => h' ▸ hld⟩, hdue, hf⟩
  · obtain ⟨q, hp, rfl, hf'⟩ := Parse.Due.fault hl hdue hw part k hld hf []
    exact ⟨_, (h2 _).mpr hf', rfl, line_place say (n := ⟨k, q⟩) hp⟩
  · exact List.pairwise_map.mpr (h3.imp_of_mem fun ha hb hne he => hne (line_inj hsay (plain _ ha) (plain _ hb) he))

theorem xlines_fit (hl : Legible sc) {ty : Ty C E S} {x : Xml} {notes : List Note} (h2 : ∀ m, m ∈ notes ↔ XFault sc ty x [] m)
    (h3 : notes.Nodup) : XLinesFit sc say ty x notes := by
  have plain : ∀ m ∈ notes, ∀ t ∈ m.path, t.Plain := by
    intro m hm
    obtain ⟨q, -, -, hq, hp, -⟩ := Parse.XFault.leads hl ((h2 m).mp hm)
    rw [hq]; exact hp
  refine ⟨fun m hm => ?_, fun segs part u k hld hdue hf => ?_, fun hsay => ?_⟩
  · obtain ⟨q, part, u, hq, hp, hld, hdue, hf⟩ := Parse.XFault.leads hl ((h2 m).mp hm)
    rw [List.nil_append] at hq
    have hpl := line_place say (n := m) (by rw [hq]; exact hp)
    rw [hq] at hpl
    exact ⟨_, part, u, fun segs' => ⟨fun h' => place_unique h' hpl, fun h' => h' ▸ hpl⟩,
      fun part' => ⟨fun h' => (xleads_unique hld _ h').symm, fun h' => h' ▸ hld⟩, hdue, hf⟩
  · obtain ⟨q, hp, rfl, hf'⟩ := Parse.XDue.fault hl hdue part k hld hf []
    exact ⟨_, (h2 _).mpr hf', rfl, line_place say (n := ⟨k, q⟩) hp⟩
  · exact List.pairwise_map.mpr (h3.imp_of_mem fun ha hb hne he => hne (line_inj hsay (plain _ ha) (plain _ hb) he))

/-- The lines about a JSON value, for every schema. -/
theorem C89_json (hs : Sane sc) (hd : DistinctKeys sc) (hsup : sc.Supported) (hl : Legible sc) (ty : Ty C E S) (hty : Parse.Supported ty) (j : Json)
    (hw : WF j) (n : Nat) (hn : j.size < n) (res : Res Note) (hres : res.ok = true) :
    ∃ v notes, parseF jsonOps sc n ty ⟨j, []⟩ res = .ok (v, res.appendAll (errs notes)) ∧ LinesFit sc say ty j notes := by
  obtain ⟨v, notes, h1, h2, h3⟩ := C86_json sc hs hd hsup ty hty j hw [] n hn res hres
  exact ⟨v, notes, h1, lines_fit sc say hl hw h2 h3⟩

/-- The lines about an XML element. -/
theorem C89_xml (hs : Sane sc) (hx : XmlNames sc) (hd : DistinctKeys sc) (hl : Legible sc) (ty : Ty C E S) (x : Xml) (n : Nat) (res r : Res Note)
    (v : Val C E S F) (h : parseF xmlOps sc n ty ⟨x, []⟩ res = .ok (v, r)) :
    ∃ notes, r = res.appendAll (errs notes) ∧ XLinesFit sc say ty x notes := by
  obtain ⟨notes, h1, h2, h3⟩ := C86_xml sc hs hx hd ty x [] n res r v h
  exact ⟨notes, h1, xlines_fit sc say hl h2 h3⟩

end

section
variable (lim : Option Nat) (say : Kind → Str)

/-- a name that begins with a lower case letter and has no slash and no space -/
def plainKey : Str → Bool
  | [] => false
  | c :: s => decide (97 ≤ c) && (c :: s).all fun d => d != pc! '/' && d != pc! ' '

theorem plainKeys (c : Cls) : (allKeys ((schema none).fields c)).all plainKey = true := by cases c <;> decide +kernel

/-- The names of the attributes of the meta-model can be told from numbers, and have no slashes and spaces. -/
theorem C89_names : Legible (schema lim) := by
  intro c key hk
  have h := List.all_eq_true.mp (plainKeys c) key hk
  cases key with
  | nil => cases h
  | cons a s =>
    simp only [plainKey, Bool.and_eq_true, decide_eq_true_eq, List.all_eq_true, bne_iff_ne, ne_eq] at h
    refine ⟨by simp, fun hm => (h.2 _ hm).1 rfl, fun hm => (h.2 _ hm).2 rfl, fun i he => ?_⟩
    have := natStr_digits i a (by rw [← he]; simp)
    omega

/-- The whole report on JSON data that does not conform to the meta-model. -/
theorem C89_data (T : Str) (c : Cls) (hT : symbol T = .ok (.cls c)) (j : Json) (hw : WF j) (h : ¬ Conforms (schema lim) (.cls c) j) :
    ∃ notes v, jsonToObj lim j T = .ok (faultReport notes, v) ∧ notes ≠ [] ∧ LinesFit (schema lim) say (.cls c) j notes := by
  obtain ⟨notes, v, h1, h2, h3, h4⟩ := C86_data lim T c hT j hw h
  exact ⟨notes, v, h1, h2, lines_fit _ say (C89_names lim) hw h4 h3⟩

/-- The whole report on XML data with a mistake. -/
theorem C89_xml_data (T : Str) (c : Cls) (hT : symbol T = .ok (.cls c)) (x : Xml) (r : Res Note) (v : AVal) (h : xmlToObj lim x T = .ok (r, v))
    (m : Note) (hm : XFault (schema lim) (.cls c) x [] m) :
    ∃ notes, r = faultReport notes ∧ notes ≠ [] ∧ XLinesFit (schema lim) say (.cls c) x notes := by
  obtain ⟨notes, h1, h2, h3⟩ := C86_xml_data lim T c hT x r v h m hm
  refine ⟨notes, h1, ?_, xlines_fit _ say (C89_names lim) h3 h2⟩
  rintro rfl
  exact absurd ((h3 m).mpr hm) (by simp)

/-- the line about the missing identifier of the second submodel, whose wording has a slash and an ` @ ` -/
example : Place (lineText (fun _ => py!"a/b @ c") ⟨.missingAttribute py!"id", [.key py!"submodels", .idx 1]⟩) [py!"submodels", py!"1"] :=
  line_place (fun _ => py!"a/b @ c") (n := ⟨.missingAttribute py!"id", [.key py!"submodels", .idx 1]⟩) (by
    intro t ht
    simp only [List.mem_cons, List.not_mem_nil, or_false] at ht
    rcases ht with rfl | rfl
    · refine ⟨by decide, by decide, by decide, fun k i h => ?_⟩
      cases h
      exact (C89_names none .environment _ (by decide +kernel : py!"submodels" ∈ _)).2.2.2 i
    · exact idx_plain 1)

example : lineText (fun _ => py!"a/b @ c") ⟨.missingAttribute py!"id", [.key py!"submodels", .idx 1]⟩ = py!"a/b @ c @ /submodels/1" := by decide +kernel

/-- it leads to the submodel -/
example : Leads [py!"submodels", py!"1"] (.obj [(py!"submodels", .arr [.null, .obj [(py!"modelType", .str py!"Submodel")]])])
    (.obj [(py!"modelType", .str py!"Submodel")]) :=
  .member (List.mem_singleton.mpr rfl) (.item (i := 1) rfl (.here _))

/-- in XML, the last of two attributes of the same name counts -/
example : XLeads [py!"submodels", py!"0"] (el py!"environment" none [el py!"submodels" none [], el py!"submodels" none [tx py!"submodel" py!"t"]])
    (tx py!"submodel" py!"t") := by
  refine .member (pre := [el py!"submodels" none []]) (post := [])
    ((C89_names none .environment _ (by decide +kernel : py!"submodels" ∈ _)).2.2.2) (.inr ⟨by decide +kernel, rfl⟩) rfl (by decide +kernel) (by simp)
    (.inr ⟨fun h => absurd h.2 (by decide +kernel), rfl⟩) (.item (i := 0) rfl (.here _))

/-- a number, or the Python name of an attribute and its name in documents -/
def Renamed (s s' : Str) : Prop :=
  (∃ n, s = Py.natStr n ∧ s' = Py.natStr n) ∨ ∃ ws, ws ≠ [] ∧ (∀ w ∈ ws, Word w) ∧ s = snake ws ∧ s' = camel ws

/-- the names of a path, renamed one by one -/
inductive AllRenamed : List Str → List Str → Prop
  | nil : AllRenamed [] []
  | cons {s s' l l'} : Renamed s s' → AllRenamed l l' → AllRenamed (s :: l) (s' :: l')

theorem zip_of_mem {f : Fld} {w : AVal} : ∀ {fs : List (Field Cls Enm Sfv Fld)} {attrs : List (Fld × AVal)}, attrs.map (·.1) = fs.map (·.name) →
    (f, w) ∈ attrs → ∃ slot, (Field.mk f slot, f, w) ∈ fs.zip attrs
  | [], [], _, h => by cases h
  | [], _ :: _, he, _ => by cases he
  | _ :: _, [], he, _ => by cases he
  | ⟨n, slot⟩ :: fs, (g, v) :: attrs, he, h => by
    simp only [List.map_cons, List.cons.injEq] at he
    cases h with
    | head => exact ⟨slot, by rw [he.1]; exact List.mem_cons_self⟩
    | tail _ h =>
      obtain ⟨slot', h'⟩ := zip_of_mem he.2 h
      exact ⟨slot', List.mem_cons_of_mem _ h'⟩

/-- the objects of a value that a JSON value describes are in parts of this value -/
theorem nested_leads {w x : AVal} {p : List PTok} (h : Nested Fld.pyName w p x) : ∀ ty j, Spec.Parse.Describes (schema lim) ty j w →
    ∃ segs part c, AllRenamed (p.map PTok.text) segs ∧ Leads segs j part ∧ Spec.Parse.Describes (schema lim) (.cls c) part x := by
  induction h with
  | here c attrs =>
    intro ty j hd
    cases hd with
    | obj isA tag names present absent excluded =>
      exact ⟨[], _, _, .nil, .here _, .obj isA tag names present absent excluded⟩
  | @attr c attrs f w p x hm hn ih =>
    intro ty j hd
    cases hd with
    | @obj _ _ kvs _ isA tag names present absent excluded =>
      obtain ⟨slot, hz⟩ := zip_of_mem names hm
      cases slot with
      | excluded => rw [excluded f w hz] at hn; cases hn
      | attr key ty req =>
        by_cases hk : ∃ j, (key, j) ∈ kvs
        · obtain ⟨j, hj⟩ := hk
          obtain ⟨segs, part, c', h1, h2, h3⟩ := ih _ _ (present f key ty req w j hz hj)
          obtain ⟨ws, a1, a2, a3, a4⟩ := C39_keys c f key ty req (List.of_mem_zip hz).1
          exact ⟨key :: segs, part, c', .cons (.inr ⟨ws, a1, a2, a3, a4⟩) h1, .member hj h2, h3⟩
        · rw [absent f key ty req w hz fun j hj => hk ⟨j, hj⟩] at hn; cases hn
  | @item c attrs f l i w p x hm hi hn ih =>
    intro ty j hd
    cases hd with
    | @obj _ _ kvs _ isA tag names present absent excluded =>
      obtain ⟨slot, hz⟩ := zip_of_mem names hm
      cases slot with
      | excluded => cases excluded f _ hz
      | attr key ty req =>
        by_cases hk : ∃ j, (key, j) ∈ kvs
        · obtain ⟨j, hj⟩ := hk
          have hd := present f key ty req _ j hz hj
          cases hd with
          | @list it ae js vs length items =>
            obtain ⟨u, hu⟩ : ∃ u, js[i]? = some u := by
              have := (List.getElem?_eq_some_iff.mp hi).1
              exact ⟨_, List.getElem?_eq_getElem (by omega)⟩
            obtain ⟨segs, part, c', h1, h2, h3⟩ := ih _ _ (items i u w hu hi)
            obtain ⟨ws, a1, a2, a3, a4⟩ := C39_keys c f key _ req (List.of_mem_zip hz).1
            exact ⟨key :: Py.natStr i :: segs, part, c', .cons (.inr ⟨ws, a1, a2, a3, a4⟩) (.cons (.inl ⟨i, rfl, rfl⟩) h1),
              .member hj (.item hu h2), h3⟩
        · cases absent f key ty req _ hz fun j hj => hk ⟨j, hj⟩

theorem pyNames (f : Fld) : plainKey f.pyName = true := by cases f <;> decide +kernel

theorem nested_plain {w x : AVal} {p : List PTok} (h : Nested Fld.pyName w p x) : ∀ t ∈ p, t.Plain := by
  have key : ∀ f : Fld, (PTok.key f.pyName).Plain := by
    intro f
    have h := pyNames f
    simp only [PTok.Plain, PTok.text]
    generalize f.pyName = k at h
    cases k with
    | nil => cases h
    | cons a s =>
      simp only [plainKey, Bool.and_eq_true, decide_eq_true_eq, List.all_eq_true, bne_iff_ne, ne_eq] at h
      refine ⟨by simp, fun hm => (h.2 _ hm).1 rfl, fun hm => (h.2 _ hm).2 rfl, fun k i hk he => ?_⟩
      cases hk
      have := natStr_digits i a (by rw [← he]; simp)
      omega
  induction h with
  | here => intro t ht; cases ht
  | attr _ _ ih => exact List.forall_mem_cons.mpr ⟨key _, ih⟩
  | item _ _ _ ih => exact List.forall_mem_cons.mpr ⟨key _, List.forall_mem_cons.mpr ⟨idx_plain _, ih⟩⟩

/-- The lines about broken rules name one place as well, but with the Python names of attributes. When these are replaced, the names lead to the part
that describes the object by which the rule is broken. -/
theorem C89_rules_partial (c : Cls) (j : Json) (hw : WF j) (w : AVal) (hd : Spec.Parse.Describes (schema lim) (.cls c) j w) (p : List PTok) (t : Str)
    (l : Level) (hb : Breaks lim w p t l) :
    ∃ segs segs' part x c', (∀ s, Place (lineText say ⟨.constraint t, p⟩) s ↔ s = segs) ∧ AllRenamed segs segs' ∧
      (∀ part', Leads segs' j part' ↔ part' = part) ∧ Spec.Parse.Describes (schema lim) (.cls c') part x ∧ Broken lim (IndexText lim) x t l := by
  obtain ⟨x, hn, hb⟩ := hb
  obtain ⟨segs, part, c', h1, h2, h3⟩ := nested_leads lim hn _ _ hd
  have hpl := line_place say (n := ⟨.constraint t, p⟩) (nested_plain hn)
  exact ⟨_, segs, part, x, c', fun s => ⟨fun h => place_unique h hpl, fun h => h ▸ hpl⟩, h1,
    fun part' => ⟨fun h => (leads_unique h2 hw _ h).symm, fun h => h ▸ h2⟩, h3, hb⟩

theorem last_tag {k : Str} : ∀ {l : List Xml}, (∃ y ∈ l, y.tag = k) → ∃ pre y post, l = pre ++ y :: post ∧ y.tag = k ∧ ∀ u ∈ post, u.tag ≠ k
  | [], h => by obtain ⟨y, h, -⟩ := h; cases h
  | y :: l, h => by
    by_cases hl : ∃ z ∈ l, z.tag = k
    · obtain ⟨pre, z, post, rfl, h1, h2⟩ := last_tag hl
      exact ⟨y :: pre, z, post, rfl, h1, h2⟩
    · obtain ⟨z, hz, ht⟩ := h
      rcases List.mem_cons.mp hz with rfl | hz
      · exact ⟨[], z, l, rfl, ht, fun u hu hu' => hl ⟨u, hu, hu'⟩⟩
      · exact absurd ⟨z, hz, ht⟩ hl

/-- the same for XML -/
theorem nested_xleads {w x : AVal} {p : List PTok} (h : Nested Fld.pyName w p x) : ∀ ty (d : Xml), XAccepts (schema lim) ty d w →
    ∃ segs part c, AllRenamed (p.map PTok.text) segs ∧ XLeads segs d part ∧ XAccepts (schema lim) (.cls c) part x := by
  induction h with
  | here c attrs =>
    intro ty j hd
    cases hd with
    | obj isA ns text content called named known single names present absent excluded =>
      exact ⟨[], _, _, .nil, .here _, .obj isA ns text content called named known single names present absent excluded⟩
  | @attr c attrs f w p x hm hn ih =>
    intro ty j hd
    cases hd with
    | @obj _ _ _ d _ isA ns text content called named known single names present absent excluded =>
      obtain ⟨slot, hz⟩ := zip_of_mem names hm
      cases slot with
      | excluded => rw [excluded f w hz] at hn; cases hn
      | attr key ty req =>
        by_cases hk : ∃ y ∈ d.children, y.tag = xmlns ++ key
        · obtain ⟨pre, y, post, h1, h2, h3⟩ := last_tag hk
          obtain ⟨z, hin⟩ : ∃ z, Inside d y z := by
            by_cases ho : IsOpValue d y
            · obtain ⟨z, hz⟩ := single y (by rw [h1]; simp) ho
              exact ⟨z, .inl ⟨ho, hz⟩⟩
            · exact ⟨y, .inr ⟨ho, rfl⟩⟩
          obtain ⟨segs, part, c', g1, g2, g3⟩ := ih _ _ (present f key ty req w pre y post z hz h1 h2 h3 hin)
          have hf := (List.of_mem_zip hz).1
          obtain ⟨ws, a1, a2, a3, a4⟩ := C39_keys c f key ty req hf
          exact ⟨key :: segs, part, c', .cons (.inr ⟨ws, a1, a2, a3, a4⟩) g1,
            .member (C89_names lim c key (mem_allKeys.mpr ⟨_, _, _, hf⟩)).2.2.2 content h1 h2 h3 hin g2, g3⟩
        · rw [(absent f key ty req w hz fun y hy ht => hk ⟨y, hy, ht⟩).2] at hn; cases hn
  | @item c attrs f l i w p x hm hi hn ih =>
    intro ty j hd
    cases hd with
    | @obj _ _ _ d _ isA ns text content called named known single names present absent excluded =>
      obtain ⟨slot, hz⟩ := zip_of_mem names hm
      cases slot with
      | excluded => cases excluded f _ hz
      | attr key ty req =>
        by_cases hk : ∃ y ∈ d.children, y.tag = xmlns ++ key
        · obtain ⟨pre, y, post, h1, h2, h3⟩ := last_tag hk
          obtain ⟨z, hin⟩ : ∃ z, Inside d y z := by
            by_cases ho : IsOpValue d y
            · obtain ⟨z, hz⟩ := single y (by rw [h1]; simp) ho
              exact ⟨z, .inl ⟨ho, hz⟩⟩
            · exact ⟨y, .inr ⟨ho, rfl⟩⟩
          have hd := present f key ty req _ pre y post z hz h1 h2 h3 hin
          have hf := (List.of_mem_zip hz).1
          cases hd with
          | @list it ae _ vs nonempty length items =>
            obtain ⟨u, hu⟩ : ∃ u, z.children[i]? = some u := by
              have := (List.getElem?_eq_some_iff.mp hi).1
              exact ⟨_, List.getElem?_eq_getElem (by omega)⟩
            obtain ⟨segs, part, c', g1, g2, g3⟩ := ih _ _ (items i u w hu hi)
            obtain ⟨ws, a1, a2, a3, a4⟩ := C39_keys c f key _ req hf
            exact ⟨key :: Py.natStr i :: segs, part, c', .cons (.inr ⟨ws, a1, a2, a3, a4⟩) (.cons (.inl ⟨i, rfl, rfl⟩) g1),
              .member (C89_names lim c key (mem_allKeys.mpr ⟨_, _, _, hf⟩)).2.2.2 content h1 h2 h3 hin (.item hu g2), g3⟩
        · cases (absent f key ty req _ hz fun y hy ht => hk ⟨y, hy, ht⟩).2

/-- The same for XML documents. -/
theorem C89_xml_rules_partial (c : Cls) (x : Xml) (w : AVal) (hd : XAccepts (schema lim) (.cls c) x w) (p : List PTok) (t : Str)
    (l : Level) (hb : Breaks lim w p t l) :
    ∃ segs segs' part y c', (∀ s, Place (lineText say ⟨.constraint t, p⟩) s ↔ s = segs) ∧ AllRenamed segs segs' ∧
      (∀ part', XLeads segs' x part' ↔ part' = part) ∧ XAccepts (schema lim) (.cls c') part y ∧ Broken lim (IndexText lim) y t l := by
  obtain ⟨y, hn, hb⟩ := hb
  obtain ⟨segs, part, c', h1, h2, h3⟩ := nested_xleads lim hn _ _ hd
  have hpl := line_place say (n := ⟨.constraint t, p⟩) (nested_plain hn)
  exact ⟨_, segs, part, y, c', fun s => ⟨fun h => place_unique h hpl, fun h => h ▸ hpl⟩, h1,
    fun part' => ⟨fun h => (xleads_unique h2 _ h).symm, fun h => h ▸ h2⟩, h3, hb⟩

/-- Without replacing the names, the reader finds nothing: neither in the asset administration shells nor in the concept descriptions of an environment. -/
theorem C89_rules_violated (kvs : List (Str × Json)) (w : AVal) (hc : Conforms (schema lim) (.cls .environment) (.obj kvs))
    (hd : Spec.Parse.Describes (schema lim) (.cls .environment) (.obj kvs) w) (p : List PTok) (t : Str) (l : Level) (hb : Breaks lim w p t l)
    (hp : ∀ q, p ≠ .key py!"submodels" :: q) (segs : List Str) (hs : Place (lineText say ⟨.constraint t, p⟩) segs) (part : Json) :
    ¬ Leads segs (.obj kvs) part := by
  have hpl : Place (lineText say ⟨.constraint t, p⟩) (p.map PTok.text) := by
    obtain ⟨x, hn, -⟩ := hb
    exact line_place say (n := ⟨.constraint t, p⟩) (nested_plain hn)
  cases place_unique hs hpl
  obtain ⟨f, key, cl, i, u, q, hsl, -, rfl, -⟩ := (C88_lines kvs w hd p t l).mp hb
  intro hl
  obtain ⟨v, hm⟩ : ∃ v, (f.pyName, v) ∈ kvs := by
    generalize hsg : List.map PTok.text _ = segs at hl
    generalize hj : Json.obj kvs = j at hl
    cases hl with
    | here => cases hsg
    | item => cases hj
    | member hm _ => cases hj; injection hsg with h1; exact ⟨_, h1 ▸ hm⟩
  rcases env_conforms.mp hc _ hm with he | ⟨f', c', l', hsl', -⟩
  · change f.pyName = _ at he
    cases hsl <;> revert he <;> decide +kernel
  · change Slot f' f.pyName c' at hsl'
    generalize hk : f.pyName = k at hsl'
    cases hsl
    · cases hsl' <;> revert hk <;> decide +kernel
    · exact hp _ rfl
    · cases hsl' <;> revert hk <;> decide +kernel

/-- the lines of the check of constraints -/
def ruleLines (x : Except PyExc (Res Note × AVal)) : Except PyExc (List Note) :=
  x.map fun p => (p.1.subs.getD 1 p.1).subs.map (·.msg)

/-- a concept description and a submodel whose names begin with digits -/
def ruleDoc : Json := .obj [(py!"submodels", .arr [.obj [(py!"modelType", .str py!"Submodel"), (py!"id", .str py!"urn:a"), (py!"idShort", .str py!"1")]]),
  (py!"conceptDescriptions", .arr [partB py!"1"])]

example : ruleLines (jsonToObj none ruleDoc py!"Environment") = .ok [⟨.constraint py!"AASd-002", [.key py!"submodels", .idx 0]⟩,
    ⟨.constraint py!"AASd-002", [.key py!"concept_descriptions", .idx 0]⟩] := by decide +kernel

/-- all hypotheses are met: the line about the concept description -/
example : ∃ kvs w p t l, Conforms (schema none) (.cls .environment) (.obj kvs) ∧ Spec.Parse.Describes (schema none) (.cls .environment) (.obj kvs) w ∧
    Breaks none w p t l ∧ ∀ q, p ≠ .key py!"submodels" :: q := by
  obtain ⟨w, hw, hn⟩ : ∃ w, contentOf (.inl ruleDoc) = some w ∧ ∃ c attrs, idShort? (.obj c attrs) = some py!"1" ∧
      Nested Fld.pyName w [.key Fld.conceptDescriptions.pyName, .idx 0] (.obj c attrs) := by
    have hn : ∀ (c : Cls) (a b : AVal) (e : Cls) (attrs : List (Fld × AVal)), Nested Fld.pyName
        (.obj c [(.assetAdministrationShells, a), (.submodels, b), (.conceptDescriptions, .list [.obj e attrs])] : AVal)
        [.key Fld.conceptDescriptions.pyName, .idx 0] (.obj e attrs) := fun c a b e attrs =>
      .item (List.mem_cons_of_mem _ (List.mem_cons_of_mem _ List.mem_cons_self)) (i := 0) rfl (.here _ _)
    exact ⟨_, rfl, _, _, rfl, hn _ _ _ _ _⟩
  obtain ⟨c, attrs, hid, hn⟩ := hn
  have := holds_of (fun j h => by cases h; exact wf_sound _ (by decide +kernel)) hw
  obtain ⟨h1, h2, h3⟩ := this
  refine ⟨_, w, _, _, _, h2, h3, ⟨_, hn, .aasd002 fun h => ?_⟩, fun q hq => ?_⟩
  · obtain ⟨c, t, he, hc, -⟩ := h _ hid
    cases he
    revert hc
    decide
  · injection hq with hq
    revert hq
    decide +kernel

end

end Verif.Props
