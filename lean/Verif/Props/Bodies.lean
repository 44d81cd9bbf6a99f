import Verif.Spec.Bodies
import Verif.BodyLemmas

/-!
# C74: the bodies of responses
-/

namespace Verif.Props
open Verif Verif.Parse Verif.Spec.Parse Verif.Aas Verif.Spec Verif.Spec.Bodies
open Verif.Api hiding sane supported

variable {lim : Option Nat}

theorem conforms_model (c : Cls) (j : Json) : Conforms (respSchema lim) (.cls (.model c)) j ↔ Instance lim c j :=
  ⟨fun h => conforms_emb_mp h (.cls c) rfl, fun h => conforms_emb_mpr (ty := .cls c) h⟩

/-! ## other objects -/

/-- the members demanded by fields -/
def membersOf (lim : Option Nat) (fs : List RField) : List Member :=
  fs.filterMap fun f => match f.slot with
    | .attr key ty req => some ⟨key, req, Conforms (respSchema lim) ty⟩
    | .excluded => none

theorem mem_membersOf {fs : List RField} {m : Member} :
    m ∈ membersOf lim fs ↔ ∃ f key ty req, (⟨f, .attr key ty req⟩ : RField) ∈ fs ∧ m = ⟨key, req, Conforms (respSchema lim) ty⟩ := by
  unfold membersOf
  rw [List.mem_filterMap]
  constructor
  · rintro ⟨⟨f, slot⟩, hf, he⟩
    cases slot with
    | excluded => cases he
    | attr key ty req => cases he; exact ⟨f, key, ty, req, hf, rfl⟩
  · rintro ⟨f, key, ty, req, hf, rfl⟩
    exact ⟨_, hf, rfl⟩

theorem conforms_object (c : RCls) (hc : ∀ d, c ≠ .model d) (j : Json) :
    Conforms (respSchema lim) (.cls c) j ↔ Object (membersOf lim (respFields c)) j := by
  have ha : (respSchema lim).abstract c = false := by cases c <;> first | rfl | exact absurd rfl (hc _)
  have hn : (respSchema lim).needsModelType c = false := by cases c <;> first | rfl | exact absurd rfl (hc _)
  constructor
  · intro h
    cases h with
    | obj isA tag known required values =>
      rename_i c' kvs
      obtain ⟨-, rfl⟩ | ⟨h, -⟩ := isA
      · refine ⟨kvs, rfl, ?_, ?_, ?_⟩
        · intro e he
          rcases known e he with h | ⟨f, ty, req, h⟩
          · exact .inl h
          · exact .inr ⟨_, mem_membersOf.mpr ⟨f, e.1, ty, req, h, rfl⟩, rfl⟩
        · intro m hm hr
          obtain ⟨f, key, ty, req, hf, rfl⟩ := mem_membersOf.mp hm
          cases hr
          exact required f key ty hf
        · intro m hm v hv
          obtain ⟨f, key, ty, req, hf, rfl⟩ := mem_membersOf.mp hm
          exact values f key ty req v hf hv
      · rw [ha] at h; cases h
  · rintro ⟨kvs, rfl, h1, h2, h3⟩
    refine .obj (c' := c) (.inl ⟨ha, rfl⟩) ?_ ?_ ?_ ?_
    · rw [ha, hn]; rintro (h | h) <;> cases h
    · intro e he
      rcases h1 e he with h | ⟨m, hm, hme⟩
      · exact .inl h
      · obtain ⟨f, key, ty, req, hf, rfl⟩ := mem_membersOf.mp hm
        cases hme
        exact .inr ⟨f, ty, req, hf⟩
    · intro f key ty hf
      exact h2 _ (mem_membersOf.mpr ⟨f, key, ty, true, hf, rfl⟩) rfl
    · intro f key ty req j hf hj
      exact h3 _ (mem_membersOf.mpr ⟨f, key, ty, req, hf, rfl⟩) j hj

theorem conforms_str : Conforms (respSchema lim) .str = Text := by
  funext j
  exact propext ⟨fun h => by cases h; exact ⟨_, rfl⟩, fun ⟨s, h⟩ => h ▸ .str s⟩

theorem conforms_any : Conforms (respSchema lim) .any = fun _ => True := by
  funext j
  exact propext ⟨fun _ => trivial, fun _ => .any j⟩

theorem conforms_enum (e : REnum) : Conforms (respSchema lim) (.enum e) = OneOf ((respSchema lim).enumValues e) := by
  funext j
  exact propext ⟨fun h => by cases h; exact ⟨_, ‹_›, rfl⟩, fun ⟨s, hs, h⟩ => h ▸ .enum hs⟩

theorem conforms_list (it : RTy) : Conforms (respSchema lim) (.list it true) = ListOf (Conforms (respSchema lim) it) := by
  funext j
  exact propext ⟨fun h => by cases h; exact ⟨_, rfl, ‹_›⟩, fun ⟨l, h, hl⟩ => h ▸ .list (.inr rfl) hl⟩

theorem conforms_message : Conforms (respSchema lim) (.cls .message) = Message := by
  funext j
  rw [conforms_object .message (fun _ h => by cases h)]
  simp only [membersOf, respFields, List.filterMap_cons, List.filterMap_nil, conforms_str, conforms_enum]
  rfl

/-- C74: the bodies that count as rejections. -/
theorem C74_error : Conforms (respSchema lim) (.cls .errorResult) = ErrorResult := by
  funext j
  rw [conforms_object .errorResult (fun _ h => by cases h)]
  simp only [membersOf, respFields, List.filterMap_cons, List.filterMap_nil, conforms_list, conforms_message]
  rfl

/-- C74: the bodies that count as descriptions. -/
theorem C74_description : Conforms (respSchema lim) (.cls .serviceDescription) = Description := by
  funext j
  rw [conforms_object .serviceDescription (fun _ h => by cases h)]
  simp only [membersOf, respFields, List.filterMap_cons, List.filterMap_nil, conforms_list, conforms_str]
  rfl

theorem loose_mp {ty : RTy} {j : Json} (h : Conforms (respSchema lim) ty j) : ty = .cls .unconstrainedReference → LooseReference lim j := by
  induction h with
  | str | bool | any | enum | sfv | list => intro h; cases h
  | @obj c c' kvs isA tag known required values ih =>
    intro he
    cases he
    obtain ⟨-, rfl⟩ | ⟨h, -⟩ := isA
    case inr => cases h
    have hf1 : (⟨.type_, .attr py!"type" (.enum (.model .referenceType)) true⟩ : RField) ∈ respFields .unconstrainedReference := by simp [respFields]
    have hf2 : (⟨.referredSemanticId, .attr py!"referredSemanticId" (.cls .unconstrainedReference) false⟩ : RField) ∈ respFields .unconstrainedReference := by
      simp [respFields]
    have hf3 : (⟨.keys, .attr py!"keys" (.list (.cls (.model .key)) true) true⟩ : RField) ∈ respFields .unconstrainedReference := by simp [respFields]
    have ht : ∀ v, (py!"type", v) ∈ kvs → OneOf [py!"ExternalReference", py!"ModelReference"] v := by
      intro v hv
      have := values _ _ _ _ v hf1 hv
      rw [conforms_enum] at this
      exact this
    refine .mk ?_ ?_ ht ?_ ?_ ?_
    · intro e he
      rcases known e he with h | ⟨f, ty, req, h⟩
      · rw [h]; exact List.mem_cons_self
      · have h : _ ∈ respFields .unconstrainedReference := h
        simp only [respFields, List.mem_cons, Field.mk.injEq, Slot.attr.injEq, List.not_mem_nil, or_false] at h
        rcases h with ⟨-, h, -⟩ | ⟨-, h, -⟩ | ⟨-, h, -⟩ <;> rw [h] <;> decide
    · obtain ⟨v, hv⟩ := required _ _ _ hf1
      obtain ⟨s, hs, rfl⟩ := ht v hv
      exact ⟨s, hs, hv⟩
    · exact fun v hv => ih _ _ _ _ v hf2 hv rfl
    · exact required _ _ _ hf3
    · intro v hv
      have := values _ _ _ _ v hf3 hv
      rw [conforms_list] at this
      obtain ⟨l, rfl, hl⟩ := this
      exact ⟨l, rfl, fun x hx => (conforms_model _ _).mp (hl x hx)⟩

theorem loose_mpr {j : Json} (h : LooseReference lim j) : Conforms (respSchema lim) (.cls .unconstrainedReference) j := by
  induction h with
  | @mk kvs known hty htype href hkeys hkey ih =>
    refine .obj (c' := .unconstrainedReference) (.inl ⟨rfl, rfl⟩) ?_ ?_ ?_ ?_
    · rintro (h | h) <;> cases h
    · intro e he
      have := known e he
      simp only [List.mem_cons, List.not_mem_nil, or_false] at this
      rcases this with h | h | h | h
      · exact .inl h
      · exact .inr ⟨_, _, _, by rw [h]; exact List.mem_cons_self⟩
      · exact .inr ⟨_, _, _, by rw [h]; exact List.mem_cons_of_mem _ List.mem_cons_self⟩
      · exact .inr ⟨_, _, _, by rw [h]; exact List.mem_cons_of_mem _ (List.mem_cons_of_mem _ List.mem_cons_self)⟩
    · intro f key ty hf
      have hf : _ ∈ respFields .unconstrainedReference := hf
      simp only [respFields, List.mem_cons, Field.mk.injEq, Slot.attr.injEq, List.not_mem_nil, or_false] at hf
      rcases hf with ⟨-, rfl, -⟩ | ⟨-, rfl, -, h⟩ | ⟨-, rfl, -⟩
      · obtain ⟨s, -, h⟩ := hty; exact ⟨_, h⟩
      · cases h
      · exact hkeys
    · intro f key ty req v hf hv
      have hf : _ ∈ respFields .unconstrainedReference := hf
      simp only [respFields, List.mem_cons, Field.mk.injEq, Slot.attr.injEq, List.not_mem_nil, or_false] at hf
      rcases hf with ⟨-, rfl, rfl, -⟩ | ⟨-, rfl, rfl, -⟩ | ⟨-, rfl, rfl, -⟩
      · rw [conforms_enum]; exact htype v hv
      · exact ih v hv
      · rw [conforms_list]
        obtain ⟨l, rfl, hl⟩ := hkey v hv
        exact ⟨l, rfl, fun x hx => (conforms_model _ _).mpr (hl x hx)⟩

/-- C74: the bodies that count as references of submodels and elements. -/
theorem C74_reference (j : Json) : Conforms (respSchema lim) (.cls .unconstrainedReference) j ↔ LooseReference lim j :=
  ⟨fun h => loose_mp h rfl, loose_mpr⟩

/-- C74: the bodies that count as pages. -/
theorem C74_page (p : Page) : Conforms (respSchema lim) (.cls (.page p)) = PageOf (entryForm lim p) := by
  have hi : Conforms (respSchema lim) p.item = entryForm lim p := by
    funext j
    cases p
    case elementRefs => exact propext (C74_reference j)
    case submodelValues | elementValues => exact congrFun conforms_any j
    case submodelPaths | elementPaths => exact congrFun conforms_str j
    all_goals exact propext (conforms_model _ j)
  have hm : Conforms (respSchema lim) (.cls .pagingMetadata) = Object [⟨py!"cursor", false, Text⟩] := by
    funext j
    rw [conforms_object .pagingMetadata (fun _ h => by cases h)]
    simp only [membersOf, respFields, List.filterMap_cons, List.filterMap_nil, conforms_str]
  funext j
  rw [conforms_object (.page p) (fun _ h => by cases h)]
  simp only [membersOf, respFields, List.filterMap_cons, List.filterMap_nil, conforms_list, hi, hm]
  rfl

/-- C74: the bodies that count as objects of the meta-model: those that count as such in a document. -/
theorem C74_model (c : Cls) (j : Json) : Conforms (respSchema lim) (.cls (.model c)) j ↔ Conforms (schema lim) (.cls c) j := conforms_model c j

/-- C74: a negative test passes iff the status is that of a client error and the body is an error result. -/
theorem C74_rejection (r : Response) (hw : ∀ j, r.json = .ok j → WF j) :
    (∃ v, Acceptable lim (.cls .errorResult) (clientError · = true) r v) ↔ 400 ≤ r.status ∧ r.status < 500 ∧ ∃ j, r.json = .ok j ∧ ErrorResult j := by
  rw [(C57_error lim r hw).1, C74_error]

/-- types whose instances contain no objects of the meta-model -/
theorem plain_accepted {ty : RTy} (hty : ResponseTy ty) (hp : plainTy ty = true) (hc : ∀ j, Conforms (respSchema lim) ty j → Container j)
    (r : Response) (hw : ∀ j, r.json = .ok j → WF j) :
    (∃ v, Acceptable lim ty (· = 200) r v) ↔ r.status = 200 ∧ ∃ j, r.json = .ok j ∧ Conforms (respSchema lim) ty j := by
  constructor
  · rintro ⟨v, -, h2, j, hcon, -⟩
    exact ⟨h2, j, hcon.json, hcon.conforms⟩
  · rintro ⟨h2, j, hj, hcf⟩
    obtain ⟨v, hread, -, ht, hd, -⟩ := (C57_content lim ty hty j (hw j hj)).2 hcf
    exact ⟨v, by rw [h2]; decide, h2, j, ⟨hj, hc j hcf, hcf, ht, hd, hread⟩, fun ⟨p, a, hn, _⟩ => nested_plain hn hp ht a rfl,
      fun p t ⟨a, hn, _⟩ => nested_plain hn hp ht a rfl⟩

/-- C74: descriptions and lists of paths are accepted iff the status is 200 and the body has the right form. -/
theorem C74_accepted (r : Response) (hw : ∀ j, r.json = .ok j → WF j) :
    ((∃ v, Acceptable lim (.cls .serviceDescription) (· = 200) r v) ↔ r.status = 200 ∧ ∃ j, r.json = .ok j ∧ Description j) ∧
    ((∃ v, Acceptable lim (.list .str true) (· = 200) r v) ↔ r.status = 200 ∧ ∃ j, r.json = .ok j ∧ ListOf Text j) := by
  constructor
  · rw [plain_accepted (ty := .cls .serviceDescription) ⟨rfl, trivial⟩ rfl (fun j h => by cases h; exact .inr ⟨_, rfl⟩) r hw, C74_description]
  · rw [plain_accepted (ty := .list .str true) ⟨rfl, trivial⟩ rfl (fun j h => by cases h; exact .inl ⟨_, rfl⟩) r hw, conforms_list, conforms_str]

/-- C74: an object of the meta-model is accepted iff the status is 200 and the body is accepted as a document of that class: the tests of
a server and the checks of files agree. -/
theorem C74_document (c : Cls) (hc : c ≠ .langStringSet) (r : Response) (hw : ∀ j, r.json = .ok j → WF j) :
    (∃ v, Acceptable lim (.cls (.model c)) (· = 200) r v) ↔ r.status = 200 ∧ ∃ j, r.json = .ok j ∧ Accepted lim c j := by
  constructor
  · rintro ⟨v, -, h2, j, hcon, hfine⟩
    exact ⟨h2, j, hcon.json, (accepted_iff c hc j (hw j hcon.json)).mpr ⟨v, hcon.reads, hfine⟩⟩
  · rintro ⟨h2, j, hj, hacc⟩
    obtain ⟨v, hr, hfine⟩ := (accepted_iff c hc j (hw j hj)).mp hacc
    have hcf := Read.conforms (Api.sane lim) hr (hw j hj)
    have hcon : Container j := by
      cases hcf with
      | obj => exact .inr ⟨_, rfl⟩
    exact ⟨v, by rw [h2]; decide, h2, j, ⟨hj, hcon, hcf, Read.typed (Api.sane lim) json_nonempty hr, Read.describes (Api.sane lim) hr (hw j hj), hr⟩, hfine⟩

theorem entry_conforms (p : Page) : Conforms (respSchema lim) p.item = entryForm lim p := by
  funext j
  cases p
  case elementRefs => exact propext (C74_reference j)
  case submodelValues | elementValues => exact congrFun conforms_any j
  case submodelPaths | elementPaths => exact congrFun conforms_str j
  all_goals exact propext (conforms_model _ j)

theorem plain_fine {ty : RTy} (hp : plainTy ty = true) {v : RVal} (ht : HasType (respSchema lim) ty v) : Fine lim v :=
  fine_of fun _ a hn => absurd rfl (nested_plain hn hp ht a)

theorem entry_iff (p : Page) (j : Json) (hw : WF j) :
    entryOk lim (Accepted lim) p j ↔ ∃ w, Read jsonOps (respSchema lim) p.item ⟨j, []⟩ w ∧ Fine lim w := by
  have always : (∀ w, HasType (respSchema lim) p.item w → Fine lim w) →
      (entryForm lim p j ↔ ∃ w, Read jsonOps (respSchema lim) p.item ⟨j, []⟩ w ∧ Fine lim w) := by
    intro h
    rw [← entry_conforms]
    constructor
    · intro hcf
      obtain ⟨w, hr⟩ := Conforms.read (Api.sane lim) hcf hw []
      exact ⟨w, hr, h w (Read.typed (Api.sane lim) json_nonempty hr)⟩
    · rintro ⟨w, hr, -⟩
      exact Read.conforms (Api.sane lim) hr hw
  cases p
  case elementRefs => exact always fun w ht => fine_of fun q a hn => loose_fine hn ht a rfl
  case submodelValues | elementValues => exact always fun w ht => plain_fine (ty := .any) rfl ht
  case submodelPaths | elementPaths => exact always fun w ht => plain_fine (ty := .str) rfl ht
  case shells => exact accepted_iff .assetAdministrationShell nofun j hw
  case shellRefs | submodelRefs => exact accepted_iff .reference nofun j hw
  case submodels => exact accepted_iff .submodel nofun j hw
  case elements => exact accepted_iff .submodelElement nofun j hw

theorem pageOf_mono {P Q : Json → Prop} {kvs : List (Str × Json)} (h : PageOf P (.obj kvs))
    (hx : ∀ js, (py!"result", .arr js) ∈ kvs → (∀ x ∈ js, P x) → ∀ x ∈ js, Q x) : PageOf Q (.obj kvs) := by
  obtain ⟨kvs', he, hk, hreq, hform⟩ := h
  cases he
  refine ⟨kvs, rfl, ?_, ?_, ?_⟩
  · intro e he
    rcases hk e he with h | ⟨m, hm, h⟩
    · exact .inl h
    · simp only [List.mem_cons, List.not_mem_nil, or_false] at hm
      rcases hm with rfl | rfl
      · exact .inr ⟨_, List.mem_cons_self, h⟩
      · exact .inr ⟨_, List.mem_cons_of_mem _ List.mem_cons_self, h⟩
  · intro m hm hr
    simp only [List.mem_cons, List.not_mem_nil, or_false] at hm
    rcases hm with rfl | rfl
    · exact hreq _ List.mem_cons_self rfl
    · exact hreq ⟨py!"result", true, ListOf P⟩ (List.mem_cons_of_mem _ List.mem_cons_self) rfl
  · intro m hm w hmem
    simp only [List.mem_cons, List.not_mem_nil, or_false] at hm
    rcases hm with rfl | rfl
    · exact hform _ List.mem_cons_self w hmem
    · obtain ⟨js, rfl, hall⟩ := hform _ (List.mem_cons_of_mem _ List.mem_cons_self) w hmem
      exact ⟨js, rfl, hx js hmem hall⟩

/-- C74: a page is accepted iff the status is 200 and the body is a page whose entries are accepted on their own. -/
theorem C74_entries (p : Page) (r : Response) (hw : ∀ j, r.json = .ok j → WF j) :
    (∃ v, Acceptable lim (.cls (.page p)) (· = 200) r v) ↔
    r.status = 200 ∧ ∃ j, r.json = .ok j ∧ PageOf (entryOk lim (Accepted lim) p) j := by
  have wf : ∀ {kvs js x}, WF (.obj kvs) → dictGet py!"result" kvs = some (.arr js) → x ∈ js → WF x := by
    intro kvs js x h hd hx
    exact WF.item (WF.value h (dictGet_mem hd)) hx
  constructor
  · rintro ⟨v, -, h2, j, hcon, hfine⟩
    have hj := hw j hcon.json
    refine ⟨h2, j, hcon.json, ?_⟩
    have hpage := C74_page (lim := lim) p ▸ hcon.conforms
    obtain ⟨kvs, js, v1, vs, a1, rfl, hd, rfl, hr1, hl, hg⟩ := page_read hcon.reads
    refine pageOf_mono hpage fun js' hmem _ x hx => ?_
    have hu := dictGet_of_mem (WF.nodup hj) hmem
    rw [hd] at hu
    cases hu
    obtain ⟨i, hi⟩ := List.getElem?_of_mem hx
    have hlt : i < vs.length := hl ▸ (List.getElem?_eq_some_iff.mp hi).1
    obtain ⟨q, hr⟩ := hg i x _ hi (List.getElem?_eq_getElem hlt)
    have hwx := wf hj hd hx
    have hcf := Read.conforms (Api.sane lim) hr hwx
    obtain ⟨w, hr'⟩ := Conforms.read (Api.sane lim) hcf hwx []
    obtain rfl := read_same (Api.sane lim) hwx hr hr'
    exact (entry_iff p x hwx).mpr ⟨_, hr', (fine_page (Read.typed (Api.sane lim) json_nonempty hr1)).mp hfine _ (List.getElem_mem hlt)⟩
  · rintro ⟨h2, j, hj, hpage⟩
    have hwj := hw j hj
    have hform : PageOf (entryForm lim p) j := by
      obtain ⟨kvs, rfl, -⟩ := id hpage
      refine pageOf_mono hpage fun js hmem hall x hx => ?_
      have hwx := wf hwj (dictGet_of_mem (WF.nodup hwj) hmem) hx
      obtain ⟨w, hr, -⟩ := (entry_iff p x hwx).mp (hall x hx)
      rw [← entry_conforms]
      exact Read.conforms (Api.sane lim) hr hwx
    have hcf : Conforms (respSchema lim) (.cls (.page p)) j := C74_page (lim := lim) p ▸ hform
    obtain ⟨v, hr⟩ := Conforms.read (Api.sane lim) hcf hwj []
    have hcon : Container j := by
      cases hcf with
      | obj => exact .inr ⟨_, rfl⟩
    refine ⟨v, by rw [h2]; decide, h2, j, ⟨hj, hcon, hcf, Read.typed (Api.sane lim) json_nonempty hr,
      Read.describes (Api.sane lim) hr hwj, hr⟩, ?_⟩
    obtain ⟨kvs, js, v1, vs, a1, rfl, hd, rfl, hr1, hl, hg⟩ := page_read hr
    refine (fine_page (Read.typed (Api.sane lim) json_nonempty hr1)).mpr fun w hw' => ?_
    obtain ⟨i, hi⟩ := List.getElem?_of_mem hw'
    have hlt : i < js.length := hl ▸ (List.getElem?_eq_some_iff.mp hi).1
    obtain ⟨q, hrx⟩ := hg i _ w (List.getElem?_eq_getElem hlt) hi
    have hwx := wf hwj hd (List.getElem_mem hlt)
    obtain ⟨kvs', he, -, -, hf⟩ := hpage
    cases he
    obtain ⟨js', he, hall⟩ := hf _ (List.mem_cons_of_mem _ List.mem_cons_self) _ (dictGet_mem hd)
    cases he
    obtain ⟨w', hr', hfine⟩ := (entry_iff p _ hwx).mp (hall _ (List.getElem_mem hlt))
    obtain rfl := read_same (Api.sane lim) hwx hrx hr'
    exact hfine

/-! ## examples -/

/-- a usual error result -/
example : ErrorResult (.obj [(py!"messages", .arr [.obj [(py!"code", .str py!"404"), (py!"messageType", .str py!"Error")]])]) := by
  refine ⟨_, rfl, ?_, ?_, ?_⟩
  · intro e he
    cases List.mem_singleton.mp he
    exact .inr ⟨_, List.mem_singleton_self _, rfl⟩
  · intro m hm hr
    cases List.mem_singleton.mp hm
    cases hr
  · intro m hm v hv
    cases List.mem_singleton.mp hm
    cases List.mem_singleton.mp hv
    refine ⟨_, rfl, fun x hx => ?_⟩
    cases List.mem_singleton.mp hx
    refine ⟨_, rfl, ?_, ?_, ?_⟩
    · intro e he
      simp only [List.mem_cons, List.not_mem_nil, or_false] at he
      rcases he with rfl | rfl
      · exact .inr ⟨_, List.mem_cons_self, rfl⟩
      · exact .inr ⟨_, List.mem_cons_of_mem _ (List.mem_cons_of_mem _ List.mem_cons_self), rfl⟩
    · intro m hm hr
      simp only [List.mem_cons, List.not_mem_nil, or_false] at hm
      rcases hm with rfl | rfl | rfl | rfl | rfl <;> cases hr
    · intro m hm v hv
      simp only [List.mem_cons, List.not_mem_nil, or_false] at hm
      simp only [List.mem_cons, List.not_mem_nil, or_false, Prod.mk.injEq] at hv
      rcases hm with rfl | rfl | rfl | rfl | rfl <;> rcases hv with ⟨h, rfl⟩ | ⟨h, rfl⟩ <;> first | exact ⟨_, rfl⟩ | exact ⟨_, by decide, rfl⟩ | (exact absurd h (by decide))

/-- the cursor of the last page is left out, not `null` -/
example (entry : Json → Prop) : ¬ PageOf entry (.obj [(py!"paging_metadata", .obj [(py!"cursor", .null)]), (py!"result", .arr [])]) := by
  rintro ⟨kvs, h, -, -, h3⟩
  cases h
  obtain ⟨kvs, h, -, -, h4⟩ := h3 _ List.mem_cons_self _ List.mem_cons_self
  cases h
  obtain ⟨s, h⟩ := h4 _ List.mem_cons_self _ List.mem_cons_self
  cases h

/-- a page of paths as a response -/
def pathsPage : Response :=
  ⟨200, none, .ok (.obj [(py!"paging_metadata", .obj []), (py!"result", .arr [.str py!"a.b", .str py!"c"])])⟩

theorem pathsPage_wf (j : Json) (h : pathsPage.json = .ok j) : WF j := by
  cases h
  refine .obj (by decide) fun e he => ?_
  simp only [List.mem_cons, List.not_mem_nil, or_false] at he
  rcases he with rfl | rfl
  · exact .obj (by decide) fun e he => by cases he
  · refine .arr fun x hx => ?_
    simp only [List.mem_cons, List.not_mem_nil, or_false] at hx
    rcases hx with rfl | rfl <;> exact .str _

example (lim : Option Nat) : ∃ v, Acceptable lim (.cls (.page .elementPaths)) (· = 200) pathsPage v := by
  refine (C74_entries .elementPaths pathsPage pathsPage_wf).mpr ⟨rfl, _, rfl, _, rfl, ?_, ?_, ?_⟩
  · intro e he
    simp only [List.mem_cons, List.not_mem_nil, or_false] at he
    rcases he with rfl | rfl
    · exact .inr ⟨_, List.mem_cons_self, rfl⟩
    · exact .inr ⟨_, List.mem_cons_of_mem _ List.mem_cons_self, rfl⟩
  · intro m hm _
    simp only [List.mem_cons, List.not_mem_nil, or_false] at hm
    rcases hm with rfl | rfl
    · exact ⟨_, List.mem_cons_self⟩
    · exact ⟨_, List.mem_cons_of_mem _ List.mem_cons_self⟩
  · intro m hm v hv
    simp only [List.mem_cons, List.not_mem_nil, or_false] at hm
    simp only [List.mem_cons, List.not_mem_nil, or_false, Prod.mk.injEq] at hv
    rcases hm with rfl | rfl <;> rcases hv with ⟨h, rfl⟩ | ⟨h, rfl⟩
    · exact ⟨[], rfl, (fun e he => by cases he), (fun m hm hr => by rw [List.mem_singleton.mp hm] at hr; cases hr), (fun m hm v hv => by cases hv)⟩
    · exact absurd h (by decide)
    · exact absurd h (by dsimp only; decide)
    · refine ⟨_, rfl, fun x hx => ?_⟩
      simp only [List.mem_cons, List.not_mem_nil, or_false] at hx
      rcases hx with rfl | rfl <;> exact ⟨_, rfl⟩

/-- a reference that is accepted as a document and as a response -/
def goodRef : Json := .obj [(py!"type", .str py!"ExternalReference"),
  (py!"keys", .arr [.obj [(py!"type", .str py!"GlobalReference"), (py!"value", .str py!"a")]])]

theorem accepted_of {c : Cls} {j : Json}
    (h : (match checkDocument jsonOps lim (j.size + 1) c ⟨j, []⟩ with | .ok (res, _) => res.ok | .error _ => false) = true) : Accepted lim c j := by
  split at h
  · exact ⟨_, _, ‹_›, h⟩
  · cases h

example : Accepted none .reference goodRef := accepted_of (by decide +kernel)

/-- one that is not: AASd-124 -/
example : ¬ Accepted none .reference (.obj [(py!"type", .str py!"ExternalReference"),
    (py!"keys", .arr [.obj [(py!"type", .str py!"Blob"), (py!"value", .str py!"a")]])]) := by
  rintro ⟨res, v, h, hok⟩
  have h3 : (match checkDocument jsonOps none ((Json.obj [(py!"type", .str py!"ExternalReference"),
    (py!"keys", .arr [.obj [(py!"type", .str py!"Blob"), (py!"value", .str py!"a")]])]).size + 1) .reference ⟨.obj [(py!"type", .str py!"ExternalReference"),
    (py!"keys", .arr [.obj [(py!"type", .str py!"Blob"), (py!"value", .str py!"a")]])], []⟩ with | .ok (res, _) => res.ok | .error _ => false) = false := by decide +kernel
  rw [h] at h3
  exact absurd (hok.symm.trans h3) (by decide)

end Verif.Props
