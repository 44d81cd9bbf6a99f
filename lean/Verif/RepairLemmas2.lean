import Verif.RepairLemmas
import Verif.FaultLemmas3

/-! # The mistakes of an XML document after a change of one part -/

namespace Verif.Parse
open Verif Verif.Spec.Parse

section
variable {C E S F : Type} {sc : Schema C E S F}

theorem bad_opens {x d : Xml} {k : Kind} (hb : Bad x k) (ho : Opens x d) : False := by
  obtain ⟨h1, h2, h3, h4, h5⟩ := ho
  cases hb with
  | ns h => exact h h1
  | text _ h => exact h h2
  | content _ _ h => exact h d h3
  | childNs _ _ h g1 _ _ g2 =>
    cases content_one h3 h
    exact g2 (h4 _ (by rw [g1]; simp)).1
  | childOne _ _ h g1 _ _ g2 g3 =>
    cases content_one h3 h
    obtain ⟨z, hz⟩ := (h4 _ (by rw [g1]; simp)).2 g2
    exact g3 z hz

theorem called_tag {d d' : Xml} (h : d'.tag = d.tag) {name : Str} : Called d' name ↔ Called d name := by rw [Called, Called, h]

theorem xreadAs_tag {d d' : Xml} (h : d'.tag = d.tag) {c c' : C} : XReadAs sc c c' d' ↔ XReadAs sc c c' d := by
  rw [XReadAs, XReadAs, called_tag h]

theorem xreadAs_one (hs : Sane sc) (hx : XmlNames sc) {c a b : C} {d : Xml} (h : XReadAs sc c a d) (h' : XReadAs sc c b d) : a = b := by
  rcases h with ⟨h1, rfl⟩ | ⟨h1, h2, h3⟩ <;> rcases h' with ⟨g1, rfl⟩ | ⟨g1, g2, g3⟩
  · rfl
  · rw [h1] at g1; cases g1
  · rw [h1] at g1; cases g1
  · exact names_one (hs.names c) h2 g2 (((called_iff hx).mp h3).symm.trans ((called_iff hx).mp g3))

theorem xpath_cons_ne {p : List PTok} {t : PTok} {m : Note} {ty : Ty C E S} {x : Xml} (h : XFault sc ty x (p ++ [t]) m) : m.path ≠ p := by
  obtain ⟨q, hq, -⟩ := XFault.shift h
  intro he
  have := congrArg List.length (hq.symm.trans he)
  simp at this

/-- the mistakes of an element for an object itself -/
theorem xown {x d x' d' : Xml} (ho : Opens x d) (ho' : Opens x' d') (ht : d'.tag = d.tag)
    (hk : ∀ t, (∃ y ∈ d.children, y.tag = t) ↔ ∃ y ∈ d'.children, y.tag = t) {c : C} {k : Kind} (hf : XFault sc (.cls c) x [] ⟨k, []⟩) :
    XFault sc (.cls c) x' [] ⟨k, []⟩ := by
  have hn : HasName d → HasName d' := fun h => by rw [HasName, ht]; exact h
  generalize hm : Note.mk k [] = m at hf
  generalize hty : Ty.cls c = ty at hf
  generalize hp : ([] : List PTok) = p at hf
  cases hf with
  | children h1 => subst hty; rcases h1 with h1 | h1 <;> cases h1
  | notInEnum => cases hty
  | format => cases hty
  | emptyList => cases hty
  | item => cases hty
  | noContent h1 h2 => exact absurd ho.2.2.1 (h2 d)
  | invalidModelType h1 h2 h3 h4 =>
    cases hty; cases hm
    cases content_one ho.2.2.1 h2
    exact .invalidModelType h1 ho'.2.2.1 (hn h3) fun c' hc h => h4 c' hc ((called_tag ht).mp h)
  | bad h1 h2 => exact (bad_opens h2 ho).elim
  | wrongModelType h1 h2 h3 h4 h5 =>
    cases hty; cases hm
    cases content_one ho.2.2.1 h3.2.2.1
    exact .wrongModelType h1 h2 ho' (hn h4) fun h => h5 ((called_tag ht).mp h)
  | missing h1 h2 h3 h4 =>
    cases hty; cases hm
    cases content_one ho.2.2.1 h1.2.2.1
    refine .missing ho' ((xreadAs_tag ht).mpr h2) h3 fun y hy he => ?_
    obtain ⟨y', hy', he'⟩ := (hk _).mpr ⟨y, hy, he⟩
    exact h4 y' hy' he'
  | unknown h1 h2 h3 h4 h5 =>
    cases hty; cases hm
    cases content_one ho.2.2.1 h1.2.2.1
    obtain ⟨y', hy', he'⟩ := (hk _).mp ⟨_, h3, h4⟩
    exact .unknown ho' ((xreadAs_tag ht).mpr h2) hy' he' h5
  | value h1 h2 h3 h4 h5 h6 h7 h8 =>
    subst hp hm
    exact absurd rfl (xpath_cons_ne (p := []) h8)

theorem xown_list {x x' : Xml} (he : x.children = [] ↔ x'.children = []) {it : Ty C E S} {ae : Bool} {k : Kind}
    (hf : XFault sc (.list it ae) x [] ⟨k, []⟩) : XFault sc (.list it ae) x' [] ⟨k, []⟩ := by
  generalize hm : Note.mk k [] = m at hf
  generalize hty : Ty.list it ae = ty at hf
  generalize hp : ([] : List PTok) = p at hf
  cases hf with
  | children h1 => subst hty; rcases h1 with h1 | h1 <;> cases h1
  | emptyList h => cases hty; cases hm; exact .emptyList (he.mp h)
  | item h1 h2 =>
    subst hp hm
    exact absurd rfl (xpath_cons_ne (p := []) h2)
  | notInEnum => cases hty
  | format => cases hty
  | noContent => cases hty
  | invalidModelType => cases hty
  | bad => cases hty
  | wrongModelType => cases hty
  | missing => cases hty
  | unknown => cases hty
  | value => cases hty

/-- the last element with a name -/
def LastTag (l : List Xml) (t : Str) (y : Xml) : Prop := ∃ pre post, l = pre ++ y :: post ∧ y.tag = t ∧ ∀ u ∈ post, u.tag ≠ t

theorem lastTag_one {l : List Xml} {t : Str} {y y' : Xml} (h : LastTag l t y) (h' : LastTag l t y') : y = y' := by
  obtain ⟨pre, post, h1, h2, h3⟩ := h
  obtain ⟨pre', post', g1, g2, g3⟩ := h'
  exact last_tag_unique (P := fun u => u.tag = t) h2 g2 h3 g3 (h1.symm.trans g1)

theorem lastTag_find {l : List Xml} {t : Str} {y : Xml} : LastTag l t y ↔ l.reverse.find? (fun u => decide (u.tag = t)) = some y := by
  rw [List.find?_eq_some_iff_append]
  constructor
  · rintro ⟨pre, post, rfl, h2, h3⟩
    exact ⟨by simpa using h2, post.reverse, pre.reverse, by simp, fun u hu => by simpa using h3 u (by simpa using hu)⟩
  · rintro ⟨h1, as, bs, h2, h3⟩
    refine ⟨bs.reverse, as.reverse, ?_, by simpa using h1, fun u hu => by simpa using h3 u (by simpa using hu)⟩
    have := congrArg List.reverse h2
    simpa using this

/-- another element in the middle does not matter, if it has not this name -/
theorem lastTag_other {pre post : List Xml} {u v y : Xml} {t : Str} (hu : u.tag ≠ t) (hv : v.tag ≠ t) :
    LastTag (pre ++ u :: post) t y ↔ LastTag (pre ++ v :: post) t y := by
  rw [lastTag_find, lastTag_find]
  simp [List.find?_append, hu, hv]

theorem xfaultAt_obj (hl : Legible sc) {c : C} {x : Xml} {k : Kind} {s : List Str} : XFaultAt sc (.cls c) x k s ↔
    (s = [] ∧ XFault sc (.cls c) x [] ⟨k, []⟩) ∨
    ∃ key r c' f ty req d y z, s = key :: r ∧ Opens x d ∧ XReadAs sc c c' d ∧ ⟨f, .attr key ty req⟩ ∈ sc.fields c' ∧
      LastTag d.children (xmlns ++ key) y ∧ Inside d y z ∧ XFaultAt sc ty z k r := by
  constructor
  · rintro ⟨part, u, hld, hd, hf⟩
    cases hd with
    | here => cases hld; exact .inl ⟨rfl, hf⟩
    | @member c c' f key req r x d pre y post z ty u h1 h2 h3 h4 h5 h6 h7 h8 =>
      generalize hs : key :: r = s at hld
      cases hld with
      | here => cases hs
      | item => injection hs with hs _; exact absurd hs ((hl _ _ (mem_allKeys.mpr ⟨_, _, _, h3⟩)).2.2.2 _)
      | @member _ _ _ d' _ y' _ z' _ g1 g2 g4 g5 g6 g7 g8 =>
        cases hs
        cases content_one h1.2.2.1 g2
        cases lastTag_one ⟨_, _, h4, h5, h6⟩ ⟨_, _, g4, g5, g6⟩
        cases inside_one h7 g7
        exact .inr ⟨_, _, _, _, _, _, _, _, _, rfl, h1, h2, h3, ⟨_, _, h4, h5, h6⟩, h7, _, _, g8, h8, hf⟩
  · rintro (⟨rfl, hf⟩ | ⟨key, r, c', f, ty, req, d, y, z, rfl, h1, h2, h3, ⟨pre, post, h4, h5, h6⟩, h7, part, u, g1, g2, g3⟩)
    · exact ⟨_, _, .here _, .here _ _, hf⟩
    · exact ⟨part, u, .member (hl _ _ (mem_allKeys.mpr ⟨_, _, _, h3⟩)).2.2.2 h1.2.2.1 h4 h5 h6 h7 g1, .member h1 h2 h3 h4 h5 h6 h7 g2, g3⟩

theorem xfaultAt_list {it : Ty C E S} {ae : Bool} {x : Xml} {k : Kind} {s : List Str} : XFaultAt sc (.list it ae) x k s ↔
    (s = [] ∧ XFault sc (.list it ae) x [] ⟨k, []⟩) ∨ ∃ i r y, s = Py.natStr i :: r ∧ x.children[i]? = some y ∧ XFaultAt sc it y k r := by
  constructor
  · rintro ⟨part, u, hl, hd, hf⟩
    generalize hs : s = s' at hl
    cases hl with
    | here => subst hs; cases hd; exact .inl ⟨rfl, hf⟩
    | member g1 =>
      generalize hty : Ty.list it ae = ty at hd
      cases hd with
      | here => cases hs
      | item => injection hs with hs _; exact absurd hs.symm (g1 _)
      | member => cases hty
    | @item i r _ v _ hi hl =>
      generalize hi' : Py.natStr i :: r = s' at hs
      cases hd with
      | here => subst hs; cases hi'
      | item hi2 hd =>
        subst hs
        injection hi' with h1 h2
        subst h2
        cases Aas.natStr_inj h1
        rw [hi] at hi2
        cases hi2
        exact .inr ⟨i, r, v, rfl, hi, _, _, hl, hd, hf⟩
  · rintro (⟨rfl, hf⟩ | ⟨i, r, v, rfl, hi, part, u, h4, h5, h6⟩)
    · exact ⟨_, _, .here _, .here _ _, hf⟩
    · exact ⟨part, u, .item hi h4, .item hi h5, h6⟩

@[simp] theorem withChildren_tag (x : Xml) (l : List Xml) : (withChildren x l).tag = x.tag := rfl

@[simp] theorem withChildren_text (x : Xml) (l : List Xml) : (withChildren x l).text = x.text := rfl

@[simp] theorem withChildren_children (x : Xml) (l : List Xml) : (withChildren x l).children = l := rfl

theorem isOpValue_tag {d d' y y' : Xml} (h : d'.tag = d.tag) (hy : y'.tag = y.tag) : IsOpValue d' y' ↔ IsOpValue d y := by
  rw [IsOpValue, IsOpValue, called_tag h, hy]

/-- the changed element -/
theorem replaced_opens {x d x' d' y y' z' : Xml} {pre post : List Xml} (ho : Opens x d) (hc : d.children = pre ++ y :: post)
    (hy : (IsOpValue d y ∧ y' = withChildren y [z']) ∨ (¬ IsOpValue d y ∧ z'.tag = y.tag ∧ y' = z')) (hd : d' = withChildren d (pre ++ y' :: post))
    (hx : (py!"dataSpecificationContent" <:+ x.tag ∧ x' = withChildren x [d']) ∨ (¬ py!"dataSpecificationContent" <:+ x.tag ∧ x' = d')) :
    Opens x' d' ∧ Inside d' y' z' ∧ y'.tag = y.tag := by
  obtain ⟨h1, h2, h3, h4, h5⟩ := ho
  have ht : d'.tag = d.tag := by rw [hd]; rfl
  have hyt : y'.tag = y.tag := by rcases hy with ⟨-, rfl⟩ | ⟨-, h, rfl⟩ <;> first | rfl | exact h
  have hin : Inside d' y' z' := by
    rcases hy with ⟨hv, rfl⟩ | ⟨hv, h, rfl⟩
    · exact .inl ⟨(isOpValue_tag ht hyt).mpr hv, rfl⟩
    · exact .inr ⟨fun hv' => hv ((isOpValue_tag ht hyt).mp hv'), rfl⟩
  have hxx : x'.tag = x.tag ∧ x'.text = x.text ∧ Spec.Parse.Content x' d' := by
    rcases h3 with ⟨g1, g2⟩ | ⟨g1, rfl⟩ <;> rcases hx with ⟨k1, rfl⟩ | ⟨k1, rfl⟩
    · exact ⟨rfl, rfl, .inl ⟨k1, rfl⟩⟩
    · exact absurd g1 k1
    · exact absurd k1 g1
    · exact ⟨ht, by rw [hd]; rfl, .inr ⟨by rw [ht]; exact k1, rfl⟩⟩
  refine ⟨⟨by rw [hxx.1]; exact h1, by rw [NoText, hxx.2.1]; exact h2, hxx.2.2, fun u hu => ?_, .inr ?_⟩, hin, hyt⟩
  · have keep : ∀ {u}, u ∈ d.children → Fine d' u := fun hm =>
      ⟨(h4 _ hm).1, fun hv => (h4 _ hm).2 ((isOpValue_tag ht rfl).mp hv)⟩
    rw [hd, withChildren_children, List.mem_append, List.mem_cons] at hu
    rcases hu with hu | rfl | hu
    · exact keep (by rw [hc]; simp [hu])
    · refine ⟨by rw [hyt]; exact (h4 y (by rw [hc]; simp)).1, fun hv => ?_⟩
      rcases hin with ⟨-, h⟩ | ⟨h, -⟩
      · exact ⟨_, h⟩
      · exact absurd hv h
    · exact keep (by rw [hc]; simp [hu])
  · rcases h5 with h5 | h5
    · rw [hc] at h5; simp at h5
    · rw [HasName, ht]; exact h5

/-- The mistakes after a change: those outside of the part stay, those of the new part are added. -/
theorem xreplaced_faults (hs : Sane sc) (hx : XmlNames sc) (hdk : DistinctKeys sc) (hl : Legible sc) {new : Xml} {segs : List Str} {x x' : Xml}
    (h : XReplaced new segs x x') : ∀ {ty u : Ty C E S}, XDue sc ty x segs u → ∀ k s, XFaultAt sc ty x' k s ↔
      (XFaultAt sc ty x k s ∧ ¬ segs <+: s) ∨ ∃ s', s = segs ++ s' ∧ XFaultAt sc u new k s' := by
  induction h with
  | here j =>
    intro ty u hd k s
    cases hd
    simp
  | @member key r x d x' d' pre y y' post z z' a1 a2 a3 a4 a5 a6 _ a8 a9 a10 ih =>
    intro ty u hd k s
    generalize hsg : key :: r = segs at hd
    cases hd with
    | here => cases hsg
    | item => injection hsg with hsg _; exact absurd hsg (a1 _)
    | @member c c' f _ req _ _ d0 pre0 y0 post0 z0 ty _ h1 h2 h3 h4 h5 h6 h7 h8 =>
      cases hsg
      cases content_one a2 h1.2.2.1
      cases lastTag_one ⟨_, _, a3, a4, a5⟩ ⟨_, _, h4, h5, h6⟩
      cases inside_one a6 h7
      obtain ⟨ho', hin', hyt⟩ := replaced_opens h1 a3 a8 a9 a10
      have ht : d'.tag = d.tag := by rw [a9]; rfl
      have hch : d'.children = pre ++ y' :: post := by rw [a9]; rfl
      have hk : ∀ t, (∃ y ∈ d.children, y.tag = t) ↔ ∃ y ∈ d'.children, y.tag = t := by
        intro t
        have : ∀ l : List Xml, (∃ y ∈ l, y.tag = t) ↔ t ∈ l.map Xml.tag := fun l => by simp
        rw [this, this, a3, hch, List.map_append, List.map_append, List.map_cons, List.map_cons, hyt]
      have hk' : ∀ t, (∃ y ∈ d'.children, y.tag = t) ↔ ∃ y ∈ d.children, y.tag = t := fun t => (hk t).symm
      have hlast' : LastTag d'.children (xmlns ++ key) y' := ⟨_, _, hch, by rw [hyt]; exact a4, a5⟩
      have hlast : LastTag d.children (xmlns ++ key) y := ⟨_, _, a3, a4, a5⟩
      have hother : ∀ {k' w}, k' ≠ key → (LastTag d'.children (xmlns ++ k') w ↔ LastTag d.children (xmlns ++ k') w) := by
        intro k' w hne
        rw [a3, hch]
        have hne' : xmlns ++ key ≠ xmlns ++ k' := fun h => hne (List.append_cancel_left h).symm
        exact lastTag_other (by rw [hyt, a4]; exact hne') (by rw [a4]; exact hne')
      have hins : ∀ {v w}, Inside d' v w ↔ Inside d v w := by
        intro v w
        rw [Inside, Inside, isOpValue_tag ht rfl]
      have hty : ∀ {c'' f' ty' req'}, XReadAs sc c c'' d → ⟨f', .attr key ty' req'⟩ ∈ sc.fields c'' → ty' = ty := by
        intro c'' f' ty' req' hr' hm
        cases xreadAs_one hs hx hr' h2
        exact attr_one (hdk _) hm h3
      rw [xfaultAt_obj hl, xfaultAt_obj hl]
      constructor
      · rintro (⟨rfl, hf⟩ | ⟨k', s, c'', f', ty', req', e, v, w, rfl, g1, g2, g3, g4, g5, g6⟩)
        · exact .inl ⟨.inl ⟨rfl, xown ho' h1 ht.symm hk' hf⟩, by simp⟩
        · cases content_one ho'.2.2.1 g1.2.2.1
          have g2' := (xreadAs_tag ht).mp g2
          by_cases hkk : k' = key
          · subst hkk
            cases lastTag_one hlast' g4
            cases inside_one hin' g5
            cases hty g2' g3
            rcases (ih h8 k s).mp g6 with ⟨g7, g8⟩ | ⟨s', rfl, g7⟩
            · exact .inl ⟨.inr ⟨k', s, c'', f', ty, req', d, y, z, rfl, h1, g2', g3, hlast, a6, g7⟩, by simpa [List.cons_prefix_cons] using g8⟩
            · exact .inr ⟨s', rfl, g7⟩
          · exact .inl ⟨.inr ⟨k', s, c'', f', ty', req', d, v, w, rfl, h1, g2', g3, (hother hkk).mp g4, hins.mp g5, g6⟩,
              by simp [List.cons_prefix_cons, Ne.symm hkk]⟩
      · rintro (⟨⟨rfl, hf⟩ | ⟨k', s, c'', f', ty', req', e, v, w, rfl, g1, g2, g3, g4, g5, g6⟩, hno⟩ | ⟨s', rfl, g⟩)
        · exact .inl ⟨rfl, xown h1 ho' ht hk hf⟩
        · cases content_one h1.2.2.1 g1.2.2.1
          refine .inr ?_
          by_cases hkk : k' = key
          · subst hkk
            cases lastTag_one hlast g4
            cases inside_one a6 g5
            cases hty g2 g3
            exact ⟨k', s, c'', f', ty, req', d', y', z', rfl, ho', (xreadAs_tag ht).mpr g2, g3, hlast', hin',
              (ih h8 k s).mpr (.inl ⟨g6, by simpa [List.cons_prefix_cons] using hno⟩)⟩
          · exact ⟨k', s, c'', f', ty', req', d', v, w, rfl, ho', (xreadAs_tag ht).mpr g2, g3, (hother hkk).mpr g4, hins.mpr g5, g6⟩
        · exact .inr ⟨key, r ++ s', c', f, ty, req, d', y', z', rfl, ho', (xreadAs_tag ht).mpr h2, h3, hlast', hin',
            (ih h8 k (r ++ s')).mpr (.inr ⟨s', rfl, g⟩)⟩
  | @item r x pre v v' post hc hr ih =>
    intro ty u hd k s
    generalize hs' : Py.natStr pre.length :: r = segs at hd
    cases hd with
    | here => cases hs'
    | member _ _ h3 => injection hs' with h _; exact absurd h.symm ((hl _ _ (mem_allKeys.mpr ⟨_, _, _, h3⟩)).2.2.2 _)
    | @item it ae i r' _ v0 _ hi hd =>
      injection hs' with e1 e2
      subst e2
      have e1 := Aas.natStr_inj e1
      subst e1
      have hv : v0 = v := by rw [hc] at hi; simpa using hi.symm
      subst hv
      have he : x.children = [] ↔ (withChildren x (pre ++ v' :: post)).children = [] := by rw [hc]; simp
      have hout : ∀ {i : Nat} {w : Xml}, i ≠ pre.length → (x.children[i]? = some w ↔ (withChildren x (pre ++ v' :: post)).children[i]? = some w) := by
        intro i w hne
        rw [hc, withChildren_children]
        rcases Nat.lt_or_gt_of_ne hne with h | h
        · rw [List.getElem?_append_left h, List.getElem?_append_left h]
        · rw [List.getElem?_append_right (Nat.le_of_lt h), List.getElem?_append_right (Nat.le_of_lt h)]
          obtain ⟨d, hd⟩ : ∃ d, i - pre.length = d + 1 := ⟨i - pre.length - 1, by omega⟩
          rw [hd, List.getElem?_cons_succ, List.getElem?_cons_succ]
      have inj : ∀ {i : Nat}, Py.natStr pre.length = Py.natStr i → i = pre.length := fun h => (Aas.natStr_inj h).symm
      rw [xfaultAt_list, xfaultAt_list]
      constructor
      · rintro (⟨rfl, hf⟩ | ⟨i, s, w, rfl, g3, g4⟩)
        · exact .inl ⟨.inl ⟨rfl, xown_list he.symm hf⟩, by simp⟩
        · by_cases hk : i = pre.length
          · subst hk
            have : v' = w := by simpa using g3
            subst this
            rcases (ih hd k s).mp g4 with ⟨g5, g6⟩ | ⟨s', rfl, g5⟩
            · exact .inl ⟨.inr ⟨_, s, v0, rfl, hi, g5⟩, by simpa [List.cons_prefix_cons] using g6⟩
            · exact .inr ⟨s', rfl, g5⟩
          · exact .inl ⟨.inr ⟨i, s, w, rfl, (hout hk).mpr g3, g4⟩, fun hp => hk (inj (List.cons_prefix_cons.mp hp).1)⟩
      · rintro (⟨⟨rfl, hf⟩ | ⟨i, s, w, rfl, g3, g4⟩, hno⟩ | ⟨s', rfl, g⟩)
        · exact .inl ⟨rfl, xown_list he hf⟩
        · refine .inr ?_
          by_cases hk : i = pre.length
          · subst hk
            rw [hi] at g3
            cases g3
            exact ⟨_, s, v', rfl, by simp, (ih hd k s).mpr (.inl ⟨g4, by simpa [List.cons_prefix_cons] using hno⟩)⟩
          · exact ⟨i, s, w, rfl, (hout hk).mp g3, g4⟩
        · exact .inr ⟨_, r ++ s', v', rfl, by simp, (ih hd k (r ++ s')).mpr (.inr ⟨s', rfl, g⟩)⟩

end
end Verif.Parse
