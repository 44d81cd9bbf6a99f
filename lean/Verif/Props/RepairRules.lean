import Verif.Props.Repair
import Verif.Props.XmlAccepted

/-!
# C90 Changes of one part and the lines about broken rules

Where a part of a document is replaced and an object is expected there: the rules that are broken by objects inside of the new part are those that the
new part breaks on its own, and the rules broken by objects that are neither inside nor around it are the same as before.
-/

namespace Verif.Props
open Verif Verif.Parse Verif.Spec.Parse Verif.Aas Verif.Spec.Model Verif.Engine Verif.Spec.Engine Res

/-- the value at a path is another one, everything else is the same -/
inductive Changed (y y' : AVal) : List PTok → AVal → AVal → Prop
  | here : Changed y y' [] y y'
  | attr {c attrs attrs' f v v' p} (nd : (attrs.map fun a : Fld × AVal => a.1.pyName).Nodup) (nd' : (attrs'.map fun a : Fld × AVal => a.1.pyName).Nodup)
      (others : ∀ g u, g ≠ f → ((g, u) ∈ attrs ↔ (g, u) ∈ attrs')) : (f, v) ∈ attrs → (f, v') ∈ attrs' → Changed y y' p v v' →
      Changed y y' (.key f.pyName :: p) (.obj c attrs) (.obj c attrs')
  | item {c attrs attrs' f l l' i v v' p} (nd : (attrs.map fun a : Fld × AVal => a.1.pyName).Nodup)
      (nd' : (attrs'.map fun a : Fld × AVal => a.1.pyName).Nodup)
      (others : ∀ g u, g ≠ f → ((g, u) ∈ attrs ↔ (g, u) ∈ attrs')) (same : ∀ k, k ≠ i → l[k]? = l'[k]?) : (f, .list l) ∈ attrs → (f, .list l') ∈ attrs' →
      l[i]? = some v → l'[i]? = some v' → Changed y y' p v v' → Changed y y' (.key f.pyName :: .idx i :: p) (.obj c attrs) (.obj c attrs')

theorem Changed.symm {y y' w w' : AVal} {p : List PTok} (h : Changed y y' p w w') : Changed y' y p w' w := by
  induction h with
  | here => exact .here
  | attr nd nd' others h h' _ ih => exact .attr nd' nd (fun g u hg => (others g u hg).symm) h' h ih
  | item nd nd' others same h h' hi hi' _ ih =>
    exact .item nd' nd (fun g u hg => (others g u hg).symm) (fun k hk => (same k hk).symm) h' h hi' hi ih

theorem Changed.obj {y y' w w' : AVal} {p : List PTok} (h : Changed y y' p w w') (hy : ∃ c a, y = .obj c a) : ∃ c a, w = .obj c a := by
  cases h with
  | here => exact hy
  | attr => exact ⟨_, _, rfl⟩
  | item => exact ⟨_, _, rfl⟩

theorem attr_once {attrs : List (Fld × AVal)} (nd : (attrs.map fun a : Fld × AVal => a.1.pyName).Nodup) {f g : Fld} {v u : AVal} (h : (f, v) ∈ attrs)
    (h' : (g, u) ∈ attrs) (he : g.pyName = f.pyName) : g = f ∧ u = v := by
  have := nodup_map_inj nd h' h he
  injection this with h1 h2
  exact ⟨h1, h2⟩

/-- the objects inside of the changed value -/
theorem Changed.inside {y y' w w' : AVal} {p : List PTok} (h : Changed y y' p w w') (hy : ∃ c a, y' = .obj c a) (q : List PTok) (x : AVal) :
    Nested Fld.pyName w' (p ++ q) x ↔ Nested Fld.pyName y' q x := by
  induction h with
  | here => rfl
  | @attr c attrs attrs' f v v' p nd nd' others h h' hc ih =>
    rw [← ih]
    obtain ⟨d, a, hv'⟩ := hc.symm.obj hy
    constructor
    · intro hn
      generalize hs : (PTok.key f.pyName :: p) ++ q = s at hn
      cases hn with
      | here => cases hs
      | @attr _ _ g u r _ hm hn =>
        injection hs with h1 h2
        injection h1 with h1
        obtain ⟨rfl, rfl⟩ := attr_once nd' h' hm h1.symm
        subst h2
        exact hn
      | @item _ _ g l i u r _ hm hi hn =>
        injection hs with h1 h2
        injection h1 with h1
        obtain ⟨rfl, e⟩ := attr_once nd' h' hm h1.symm
        rw [hv'] at e; cases e
    · exact fun hn => .attr h' hn
  | @item c attrs attrs' f l l' i v v' p nd nd' others same h h' hi hi' hc ih =>
    rw [← ih]
    constructor
    · intro hn
      generalize hs : (PTok.key f.pyName :: .idx i :: p) ++ q = s at hn
      cases hn with
      | here => cases hs
      | @attr _ _ g u r _ hm hn =>
        injection hs with h1 h2
        injection h1 with h1
        obtain ⟨rfl, rfl⟩ := attr_once nd' h' hm h1.symm
        cases hn
      | @item _ _ g k j u r _ hm hj hn =>
        injection hs with h1 h2
        injection h1 with h1
        obtain ⟨rfl, e⟩ := attr_once nd' h' hm h1.symm
        injection e with e
        subst e
        injection h2 with h2 h3
        injection h2 with h2
        subst h2 h3
        rw [hi'] at hj
        injection hj with hj
        subst hj
        exact hn
    · exact fun hn => .item h' hi' hn

/-- the objects that are neither inside nor around the changed value -/
theorem Changed.outside {y y' w w' : AVal} {p : List PTok} (h : Changed y y' p w w') (hy : ∃ c a, y = .obj c a) : ∀ (q : List PTok) (x : AVal),
    ¬ p <+: q → ¬ q <+: p → Nested Fld.pyName w q x → Nested Fld.pyName w' q x := by
  induction h with
  | here => intro q x h1 _ _; exact absurd (List.nil_prefix) h1
  | @attr c attrs attrs' f v v' p nd nd' others h h' hc ih =>
    intro q x h1 h2 hn
    obtain ⟨d, a, hv⟩ := hc.obj hy
    cases hn with
    | here => exact absurd List.nil_prefix h2
    | @attr _ _ g u r _ hm hn =>
      by_cases hg : g = f
      · subst hg
        obtain ⟨-, rfl⟩ := attr_once nd h hm rfl
        simp only [List.cons_prefix_cons, true_and] at h1 h2
        exact .attr h' (ih r x h1 h2 hn)
      · exact .attr ((others g u hg).mp hm) hn
    | @item _ _ g l i u r _ hm hi hn =>
      by_cases hg : g = f
      · subst hg
        obtain ⟨-, e⟩ := attr_once nd h hm rfl
        rw [hv] at e; cases e
      · exact .item ((others g _ hg).mp hm) hi hn
  | @item c attrs attrs' f l l' i v v' p nd nd' others same h h' hi hi' hc ih =>
    intro q x h1 h2 hn
    cases hn with
    | here => exact absurd List.nil_prefix h2
    | @attr _ _ g u r _ hm hn =>
      by_cases hg : g = f
      · subst hg
        obtain ⟨-, rfl⟩ := attr_once nd h hm rfl
        cases hn
      · exact .attr ((others g u hg).mp hm) hn
    | @item _ _ g k j u r _ hm hj hn =>
      by_cases hg : g = f
      · subst hg
        obtain ⟨-, e⟩ := attr_once nd h hm rfl
        injection e with e
        subst e
        by_cases hji : j = i
        · subst hji
          rw [hi] at hj
          injection hj with hj
          subst hj
          simp only [List.cons_prefix_cons, true_and] at h1 h2
          exact .item h' hi' (ih r x h1 h2 hn)
        · exact .item h' ((same j hji).symm.trans hj) hn
      · exact .item ((others g _ hg).mp hm) hj hn

variable (lim : Option Nat)

theorem Changed.breaks {y y' w w' : AVal} {p : List PTok} (h : Changed y y' p w w') (hy : ∃ c a, y = .obj c a) (hy' : ∃ c a, y' = .obj c a) :
    (∀ q t l, Breaks lim w' (p ++ q) t l ↔ Breaks lim y' q t l) ∧ (∀ q t l, Breaks lim w (p ++ q) t l ↔ Breaks lim y q t l) ∧
    ∀ q t l, ¬ p <+: q → ¬ q <+: p → (Breaks lim w' q t l ↔ Breaks lim w q t l) := by
  refine ⟨fun q t l => exists_congr fun x => and_congr (h.inside hy' q x) Iff.rfl,
    fun q t l => exists_congr fun x => and_congr (h.symm.inside hy q x) Iff.rfl, fun q t l h1 h2 => exists_congr fun x => and_congr ?_ Iff.rfl⟩
  exact ⟨h.symm.outside hy' q x h1 h2, h.outside hy q x h1 h2⟩

/-! ## JSON -/

/-- no lists of lists -/
def flat : ATy → Bool
  | .list (.list _ _) _ => false
  | _ => true

theorem fields_flat (c : Cls) {f : Fld} {k : Str} {ty : ATy} {req : Bool} (h : ⟨f, .attr k ty req⟩ ∈ (schema lim).fields c) : flat ty = true := by
  have : (fieldsOf c).all (fun f => match f.slot with
    | .attr _ ty _ => flat ty
    | .excluded => true) = true := by cases c <;> decide +kernel
  rw [List.all_eq_true] at this
  exact this _ h

theorem zip_of_field {f : Fld} {slot} : ∀ {fs : List (Field Cls Enm Sfv Fld)} {attrs : List (Fld × AVal)}, attrs.map (·.1) = fs.map (·.name) →
    Field.mk f slot ∈ fs → ∃ v, (Field.mk f slot, f, v) ∈ fs.zip attrs
  | [], _, _, h => by cases h
  | _ :: _, [], he, _ => by cases he
  | ⟨n, s⟩ :: fs, (g, v) :: attrs, he, h => by
    simp only [List.map_cons, List.cons.injEq] at he
    cases h with
    | head => exact ⟨v, by rw [← he.1]; exact List.mem_cons_self⟩
    | tail _ h =>
      obtain ⟨v', h'⟩ := zip_of_field he.2 h
      exact ⟨v', List.mem_cons_of_mem _ h'⟩

theorem key_field {fs : List (Field Cls EnumCls SfvCls Fld)} (hn : (allKeys fs).Nodup) {f f' : Fld} {k : Str} {ty ty' : ATy} {req req' : Bool}
    (h : ⟨f, .attr k ty req⟩ ∈ fs) (h' : ⟨f', .attr k ty' req'⟩ ∈ fs) : f = f' := by
  induction fs with
  | nil => cases h
  | cons a fs ih =>
    rcases List.mem_cons.mp h with rfl | h1 <;> rcases List.mem_cons.mp h' with h2 | h2
    · injection h2 with h2 _
      exact h2.symm
    · have hk : k ∉ allKeys fs := (by simpa [allKeys] using hn : k ∉ allKeys fs ∧ (allKeys fs).Nodup).1
      exact absurd (mem_allKeys.mpr ⟨_, _, _, h2⟩) hk
    · subst h2
      have hk : k ∉ allKeys fs := (by simpa [allKeys] using hn : k ∉ allKeys fs ∧ (allKeys fs).Nodup).1
      exact absurd (mem_allKeys.mpr ⟨_, _, _, h1⟩) hk
    · refine ih ?_ h1 h2
      rcases a with ⟨fa, ka⟩
      cases ka with
      | attr => exact (by simpa [allKeys] using hn : _ ∧ (allKeys fs).Nodup).2
      | _ => simpa [allKeys] using hn

theorem attrs_nodup {c : Cls} {attrs : List (Fld × AVal)} (h : attrs.map (·.1) = (fieldsOf c).map (·.name)) :
    (attrs.map fun a : Fld × AVal => a.1.pyName).Nodup := by
  have h2 := pyNames_nodup c
  have e : ((fieldsOf c).map fun f => f.name.pyName) = ((fieldsOf c).map (·.name)).map Fld.pyName := by rw [List.map_map]; rfl
  rw [e] at h2
  have e2 : (attrs.map fun a : Fld × AVal => a.1.pyName) = (attrs.map (·.1)).map Fld.pyName := by rw [List.map_map]; rfl
  rw [e2, h]
  exact h2

/-- what the change of a document means for the value it describes -/
inductive ChangedAt (y y' : AVal) : ATy → List Str → AVal → AVal → Prop
  | one {ty segs w w'} (p : List PTok) : (∀ it ae, ty ≠ .list it ae) → AllRenamed (p.map PTok.text) segs → Changed y y' p w w' → ChangedAt y y' ty segs w w'
  | item {it ae segs l l' i v v'} (p : List PTok) : AllRenamed (p.map PTok.text) segs → (∀ k, k ≠ i → l[k]? = l'[k]?) → l[i]? = some v → l'[i]? = some v' →
      Changed y y' p v v' → ChangedAt y y' (.list it ae) (Py.natStr i :: segs) (.list l) (.list l')

/-- the attribute of an object is another one -/
theorem ChangedAt.attr {y y' : AVal} {c : Cls} {attrs attrs' : List (Fld × AVal)} {f : Fld} {k : Str} {ty : ATy} {req : Bool} {segs : List Str} {v v' : AVal}
    (hf : ⟨f, .attr k ty req⟩ ∈ (schema lim).fields c) (hn : attrs.map (·.1) = (fieldsOf c).map (·.name)) (hn' : attrs'.map (·.1) = (fieldsOf c).map (·.name))
    (others : ∀ g u, g ≠ f → ((g, u) ∈ attrs ↔ (g, u) ∈ attrs')) (h : (f, v) ∈ attrs) (h' : (f, v') ∈ attrs') (hc : ChangedAt y y' ty segs v v') (d : Cls) :
    ChangedAt y y' (.cls d) (k :: segs) (.obj c attrs) (.obj c attrs') := by
  obtain ⟨ws, a1, a2, a3, a4⟩ := C39_keys c f k ty req hf
  cases hc with
  | one p hp ha hc => exact .one (.key f.pyName :: p) (fun _ _ => by simp) (.cons (.inr ⟨ws, a1, a2, a3, a4⟩) ha) (.attr (attrs_nodup hn) (attrs_nodup hn') others h h' hc)
  | @item _ _ _ _ _ i _ _ p ha same hi hi' hc =>
    exact .one (.key f.pyName :: .idx i :: p) (fun _ _ => by simp) (.cons (.inr ⟨ws, a1, a2, a3, a4⟩) (.cons (.inl ⟨i, rfl, rfl⟩) ha))
      (.item (attrs_nodup hn) (attrs_nodup hn') others same h h' hi hi' hc)

theorem replaced_changed {new : Json} {segs : List Str} {j j' : Json} (h : Replaced new segs j j') :
    ∀ {ty : ATy} {u : Cls} {w w' : AVal}, WF j → WF new → flat ty = true → Due (schema lim) ty j segs (.cls u) → Spec.Parse.Describes (schema lim) ty j w →
      Spec.Parse.Describes (schema lim) ty j' w' → ∃ part y y', Leads segs j part ∧ Spec.Parse.Describes (schema lim) (.cls u) part y ∧
        Spec.Parse.Describes (schema lim) (.cls u) new y' ∧ ChangedAt y y' ty segs w w' := by
  induction h with
  | here j =>
    intro ty u w w' _ _ _ hd h h'
    cases hd
    exact ⟨j, w, w', .here _, h, h', .one [] (fun _ _ => by simp) .nil .here⟩
  | @member key r v v' pre post hr ih =>
    intro ty u w w' hw hn hfl hd h h'
    have hw' := Replaced.wf hn (.member (k := key) (pre := pre) (post := post) hr) hw
    cases hd with
    | @member c c' _ f _ req _ v0 ty _ h1 h2 h3 h4 =>
      have hsh : SameShape (pre ++ (key, v) :: post) (pre ++ (key, v') :: post) := sameShape (field_key (sane lim) h2)
      have hnd : ((pre ++ (key, v) :: post).map (·.1)).Nodup := by
        cases hw with
        | obj hnd _ => exact hnd
      have hws : ∀ e ∈ pre ++ (key, v) :: post, WF e.2 := by
        cases hw with
        | obj _ hws => exact hws
      have hv : v0 = v := by
        have := (dictGet_of_mem hnd h3).symm.trans (dictGet_of_mem (k := key) (v := v) hnd (by simp))
        cases this; rfl
      subst hv
      have hout : ∀ {k' : Str} {w : Json}, k' ≠ key → ((k', w) ∈ pre ++ (key, v0) :: post ↔ (k', w) ∈ pre ++ (key, v') :: post) := by
        intro k' w hne
        simp only [List.mem_append, List.mem_cons, Prod.mk.injEq, hne, false_and, false_or]
      have hnd' : ((pre ++ (key, v') :: post).map (·.1)).Nodup := by simpa using hnd
      cases h with
      | @obj _ d _ attrs isA tag names present absent excluded =>
        cases h' with
        | @obj _ d' _ attrs' isA' tag' names' present' absent' excluded' =>
          have r1 : ReadAs (schema lim) c d (pre ++ (key, v0) :: post) := isA.imp id fun g => ⟨g.1, g.2, tag g.1⟩
          have r2 : ReadAs (schema lim) c d' (pre ++ (key, v') :: post) := isA'.imp id fun g => ⟨g.1, g.2, tag' g.1⟩
          cases readAs_one (sane lim) hnd r1 h1
          cases readAs_one (sane lim) hnd' r2 (readAs_shape hsh h1)
          obtain ⟨a, ha⟩ := zip_of_field names h2
          obtain ⟨a', ha'⟩ := zip_of_field names' h2
          obtain ⟨part, y, y', b1, b2, b3, b4⟩ := ih (hws (key, v0) (by simp)) hn (fields_flat lim _ h2) h4 (present f key ty req a v0 ha h3)
            (present' f key ty req a' v' ha' (by simp))
          refine ⟨part, y, y', .member h3 b1, b2, b3, .attr lim h2 names names' (fun g x hg => ?_) (List.of_mem_zip ha).2 (List.of_mem_zip ha').2 b4 c⟩
          have eq : ∀ {slot x x'}, (Field.mk g slot, g, x) ∈ ((schema lim).fields c').zip attrs → (Field.mk g slot, g, x') ∈ ((schema lim).fields c').zip attrs' →
              x = x' := by
            intro slot x x' e e'
            cases slot with
            | excluded => rw [excluded g x e, excluded' g x' e']
            | attr k2 ty2 req2 =>
              have hk : k2 ≠ key := by
                rintro rfl
                exact hg (key_field (distinctKeys lim c') (List.of_mem_zip e).1 h2)
              by_cases hex : ∃ j, (k2, j) ∈ pre ++ (key, v0) :: post
              · obtain ⟨j2, hj2⟩ := hex
                exact Describes.unique (sane lim).names (present _ _ _ _ _ _ e hj2) (hws _ hj2) _ (present' _ _ _ _ _ _ e' ((hout hk).mp hj2))
              · rw [absent _ _ _ _ _ e fun j hj => hex ⟨j, hj⟩, absent' _ _ _ _ _ e' fun j hj => hex ⟨j, (hout hk).mpr hj⟩]
          constructor
          · intro hm
            obtain ⟨slot, hz⟩ := zip_of_mem names hm
            obtain ⟨x', hz'⟩ := zip_of_field names' (List.of_mem_zip hz).1
            rw [eq hz hz']
            exact (List.of_mem_zip hz').2
          · intro hm
            obtain ⟨slot, hz'⟩ := zip_of_mem names' hm
            obtain ⟨x', hz⟩ := zip_of_field names (List.of_mem_zip hz').1
            rw [← eq hz hz']
            exact (List.of_mem_zip hz).2
  | @item r v v' pre post hr ih =>
    intro ty u w w' hw hn hfl hd h h'
    generalize hseg : Py.natStr pre.length = seg at hd
    cases hd with
    | @item it ae i _ _ v0 _ h3 h4 =>
      have hi : pre.length = i := natStr_inj hseg
      subst hi
      have hv : v0 = v := by simpa using h3.symm
      subst hv
      have hws : ∀ e ∈ pre ++ v0 :: post, WF e := by
        cases hw with
        | arr hws => exact hws
      cases h with
      | @list _ _ _ vs length items =>
        cases h' with
        | @list _ _ _ vs' length' items' =>
          have hlen : vs.length = vs'.length := by simp at length length'; omega
          have hlt : pre.length < vs.length := by simp at length; omega
          have g1 : vs[pre.length]? = some vs[pre.length] := List.getElem?_eq_getElem hlt
          have g2 : vs'[pre.length]? = some (vs'[pre.length]'(by omega)) := List.getElem?_eq_getElem (by omega)
          have hnl : ∀ it' ae', it ≠ .list it' ae' := by
            rintro it' ae' rfl; cases hfl
          have hfl' : flat it = true := by
            cases it <;> first | rfl | exact absurd rfl (hnl _ _)
          generalize vs[pre.length] = a at g1
          generalize vs'[pre.length]'(by omega) = a' at g2
          obtain ⟨part, y, y', b1, b2, b3, b4⟩ := ih (hws v0 (by simp)) hn hfl' h4 (items _ _ _ h3 g1) (items' _ v' _ (by simp) g2)
          refine ⟨part, y, y', .item h3 b1, b2, b3, ?_⟩
          cases b4 with
          | one p hp ha hc =>
            refine .item p ha (fun k hk => ?_) g1 g2 hc
            have hsame : (pre ++ v0 :: post)[k]? = (pre ++ v' :: post)[k]? := by
              rw [List.getElem?_append, List.getElem?_append]
              split
              · rfl
              · rw [List.getElem?_cons, List.getElem?_cons, if_neg (by omega), if_neg (by omega)]
            by_cases hkl : k < vs.length
            · have e1 : vs[k]? = some vs[k] := List.getElem?_eq_getElem hkl
              have e2 : vs'[k]? = some (vs'[k]'(by omega)) := List.getElem?_eq_getElem (by omega)
              have e3 : (pre ++ v0 :: post)[k]? = some ((pre ++ v0 :: post)[k]'(by omega)) := List.getElem?_eq_getElem (by omega)
              rw [e1, e2, Describes.unique (sane lim).names (items _ _ _ e3 e1) (hws _ (List.getElem_mem _)) _ (items' _ _ _ (hsame.symm.trans e3) e2)]
            · rw [List.getElem?_eq_none (by omega), List.getElem?_eq_none (by omega)]
          | item => exact absurd rfl (hnl _ _)

theorem described_obj {u : Cls} {j : Json} {y : AVal} (h : Spec.Parse.Describes (schema lim) (.cls u) j y) : ∃ c a, y = .obj c a := by
  cases h; exact ⟨_, _, rfl⟩

/-- JSON: a part is replaced where an object is expected. Inside of the part, exactly those rules are broken that the new part breaks on its own (and, before,
those that the old part breaks on its own); outside, all objects that do not contain the part break the same rules as before. -/
theorem C90_rules (c u : Cls) (j j' new : Json) (hw : WF j) (hn : WF new) (segs : List Str) (hr : Replaced new segs j j')
    (hdue : Due (schema lim) (.cls c) j segs (.cls u)) (w w' : AVal) (hd : Spec.Parse.Describes (schema lim) (.cls c) j w)
    (hd' : Spec.Parse.Describes (schema lim) (.cls c) j' w') :
    ∃ p part y y', AllRenamed (p.map PTok.text) segs ∧ Leads segs j part ∧ Spec.Parse.Describes (schema lim) (.cls u) part y ∧
      Spec.Parse.Describes (schema lim) (.cls u) new y' ∧ (∀ q t l, Breaks lim w' (p ++ q) t l ↔ Breaks lim y' q t l) ∧
      (∀ q t l, Breaks lim w (p ++ q) t l ↔ Breaks lim y q t l) ∧ ∀ q t l, ¬ p <+: q → ¬ q <+: p → (Breaks lim w' q t l ↔ Breaks lim w q t l) := by
  obtain ⟨part, y, y', h1, h2, h3, h4⟩ := replaced_changed lim hr hw hn rfl hdue hd hd'
  cases h4 with
  | one p _ ha hc => exact ⟨p, part, y, y', ha, h1, h2, h3, hc.breaks lim (described_obj lim h2) (described_obj lim h3)⟩

/-- the concept description of `ruleDoc` gets another name -/
def ruleDoc2 : Json := .obj [(py!"submodels", .arr [.obj [(py!"modelType", .str py!"Submodel"), (py!"id", .str py!"urn:a"), (py!"idShort", .str py!"1")]]),
  (py!"conceptDescriptions", .arr [partB py!"a"])]

/-- the line about the submodel stays, the other one is gone -/
example : ruleLines (jsonToObj none ruleDoc2 py!"Environment") = .ok [⟨.constraint py!"AASd-002", [.key py!"submodels", .idx 0]⟩] := by decide +kernel

/-- all hypotheses are met -/
example : ∃ w w', WF ruleDoc ∧ WF (partB py!"a") ∧ Replaced (partB py!"a") [py!"conceptDescriptions", py!"0"] ruleDoc ruleDoc2 ∧
    Due (schema none) (.cls .environment) ruleDoc [py!"conceptDescriptions", py!"0"] (.cls .conceptDescription) ∧
    Spec.Parse.Describes (schema none) (.cls .environment) ruleDoc w ∧ Spec.Parse.Describes (schema none) (.cls .environment) ruleDoc2 w' := by
  have h1 : WF ruleDoc := wf_sound _ (by decide +kernel)
  obtain ⟨w, hw⟩ : ∃ w, contentOf (.inl ruleDoc) = some w := ⟨_, rfl⟩
  obtain ⟨w', hw'⟩ : ∃ w, contentOf (.inl ruleDoc2) = some w := ⟨_, rfl⟩
  obtain ⟨-, -, h2⟩ := holds_of (fun j h => by cases h; exact h1) hw
  obtain ⟨-, -, h3⟩ := holds_of (fun j h => by cases h; exact wf_sound _ (by decide +kernel)) hw'
  refine ⟨w, w', h1, wf_sound _ (by decide +kernel), .member (pre := [_]) (post := []) (.item (pre := []) (post := []) (.here _)), ?_, h2, h3⟩
  have hf : (⟨.conceptDescriptions, .attr py!"conceptDescriptions" (.list (.cls .conceptDescription) false) false⟩ :
      Field Cls EnumCls SfvCls Fld) ∈ (schema none).fields .environment := by decide +kernel
  exact .member (.inl ⟨rfl, rfl⟩) hf (List.mem_cons_of_mem _ List.mem_cons_self) (.item (i := 0) rfl (.here _ _))

/-! ## XML -/

theorem xreplaced_changed {new : Xml} {segs : List Str} {x x' : Xml} (h : XReplaced new segs x x') :
    ∀ {ty : ATy} {u : Cls} {w w' : AVal}, flat ty = true → XDue (schema lim) ty x segs (.cls u) → XAccepts (schema lim) ty x w →
      XAccepts (schema lim) ty x' w' → ∃ part y y', XLeads segs x part ∧ XAccepts (schema lim) (.cls u) part y ∧
        XAccepts (schema lim) (.cls u) new y' ∧ ChangedAt y y' ty segs w w' := by
  have unique := C83_unique (schema lim) (sane lim) (xmlNames lim)
  induction h with
  | here x =>
    intro ty u w w' _ hd h h'
    cases hd
    exact ⟨x, w, w', .here _, h, h', .one [] (fun _ _ => by simp) .nil .here⟩
  | @member key r x d x' d' pre y y' post z z' a1 a2 a3 a4 a5 a6 _ a8 a9 a10 ih =>
    intro ty u w w' hfl hd h h'
    generalize hsg : key :: r = segs at hd
    cases hd with
    | here => cases hsg
    | item => injection hsg with hsg _; exact absurd hsg (a1 _)
    | @member c c' f _ req _ _ d0 pre0 y0 post0 z0 ty _ h1 h2 h3 h4 h5 h6 h7 h8 =>
      cases hsg
      cases content_one a2 h1.2.2.1
      cases lastTag_one ⟨_, _, a3, a4, a5⟩ ⟨_, _, h4, h5, h6⟩
      cases inside_one a6 h7
      obtain ⟨ho', hin', hyt⟩ := replaced_opens h1 a3 a8 a9 a10
      have ht : d'.tag = d.tag := by rw [a9]; rfl
      have hch : d'.children = pre ++ y' :: post := by rw [a9]; rfl
      have hother : ∀ {k' w}, k' ≠ key → (LastTag d'.children (xmlns ++ k') w ↔ LastTag d.children (xmlns ++ k') w) := by
        intro k' w hne
        rw [a3, hch]
        have hne' : xmlns ++ key ≠ xmlns ++ k' := fun h => hne (List.append_cancel_left h).symm
        exact lastTag_other (by rw [hyt, a4]; exact hne') (by rw [a4]; exact hne')
      have hins : ∀ {v w}, Inside d' v w ↔ Inside d v w := by
        intro v w
        rw [Inside, Inside, isOpValue_tag ht rfl]
      cases h with
      | @obj _ e _ d1 attrs isA ns text content called named known single names present absent excluded =>
        cases h' with
        | @obj _ e' _ d1' attrs' isA' ns' text' content' called' named' known' single' names' present' absent' excluded' =>
          cases content_one a2 content
          cases content_one ho'.2.2.1 content'
          have r1 : XReadAs (schema lim) c e d := isA.imp id fun g => ⟨g.1, g.2, called (.inl g.1)⟩
          have r2 : XReadAs (schema lim) c e' d' := isA'.imp id fun g => ⟨g.1, g.2, called' (.inl g.1)⟩
          cases xreadAs_one (sane lim) (xmlNames lim) r1 h2
          cases xreadAs_one (sane lim) (xmlNames lim) ((xreadAs_tag ht).mp r2) h2
          obtain ⟨a, ha⟩ := zip_of_field names h3
          obtain ⟨a', ha'⟩ := zip_of_field names' h3
          obtain ⟨part, v, v', b1, b2, b3, b4⟩ := ih (fields_flat lim _ h3) h8 (present f key ty req a _ _ _ _ ha a3 a4 a5 a6)
            (present' f key ty req a' _ _ _ _ ha' hch (by rw [hyt]; exact a4) a5 hin')
          refine ⟨part, v, v', .member a1 a2 a3 a4 a5 a6 b1, b2, b3,
            .attr lim h3 names names' (fun g x hg => ?_) (List.of_mem_zip ha).2 (List.of_mem_zip ha').2 b4 c⟩
          have eq : ∀ {slot x x'}, (Field.mk g slot, g, x) ∈ ((schema lim).fields c').zip attrs → (Field.mk g slot, g, x') ∈ ((schema lim).fields c').zip attrs' →
              x = x' := by
            intro slot x x' e e'
            cases slot with
            | excluded => rw [excluded g x e, excluded' g x' e']
            | attr k2 ty2 req2 =>
              have hk : k2 ≠ key := by
                rintro rfl
                exact hg (key_field (distinctKeys lim c') (List.of_mem_zip e).1 h3)
              by_cases hex : ∃ y ∈ d.children, y.tag = xmlns ++ k2
              · obtain ⟨pre2, y2, post2, g1, g2, g3⟩ := last_tag hex
                obtain ⟨z2, hz2⟩ : ∃ z, Inside d y2 z := by
                  by_cases ho : IsOpValue d y2
                  · obtain ⟨z, hz⟩ := single y2 (by rw [g1]; simp) ho
                    exact ⟨z, .inl ⟨ho, hz⟩⟩
                  · exact ⟨y2, .inr ⟨ho, rfl⟩⟩
                obtain ⟨pre3, post3, g4, g5, g6⟩ := (hother hk).mpr ⟨pre2, post2, g1, g2, g3⟩
                exact unique _ _ _ _ (present _ _ _ _ _ _ _ _ _ e g1 g2 g3 hz2) (present' _ _ _ _ _ _ _ _ _ e' g4 g5 g6 (hins.mpr hz2))
              · have hex' : ∀ y ∈ d'.children, y.tag ≠ xmlns ++ k2 := by
                  intro y2 hy2 he
                  obtain ⟨pre3, y3, post3, g4, g5, g6⟩ := last_tag ⟨y2, hy2, he⟩
                  obtain ⟨pre2, post2, g1, g2, -⟩ := (hother hk).mp ⟨pre3, post3, g4, g5, g6⟩
                  exact hex ⟨y3, by rw [g1]; simp, g2⟩
                rw [(absent _ _ _ _ _ e fun y hy he => hex ⟨y, hy, he⟩).2, (absent' _ _ _ _ _ e' hex').2]
          constructor
          · intro hm
            obtain ⟨slot, hz⟩ := zip_of_mem names hm
            obtain ⟨x', hz'⟩ := zip_of_field names' (List.of_mem_zip hz).1
            rw [eq hz hz']
            exact (List.of_mem_zip hz').2
          · intro hm
            obtain ⟨slot, hz'⟩ := zip_of_mem names' hm
            obtain ⟨x', hz⟩ := zip_of_field names (List.of_mem_zip hz').1
            rw [← eq hz hz']
            exact (List.of_mem_zip hz).2
  | @item r x pre v v' post hc hr ih =>
    intro ty u w w' hfl hd h h'
    generalize hs' : Py.natStr pre.length :: r = segs at hd
    cases hd with
    | here => cases hs'
    | member _ _ h3 => injection hs' with h _; exact absurd h.symm ((C89_names lim _ _ (mem_allKeys.mpr ⟨_, _, _, h3⟩)).2.2.2 _)
    | @item it ae i r' _ v0 _ h3 h4 =>
      injection hs' with e1 e2
      subst e2
      have e1 := Aas.natStr_inj e1
      subst e1
      have hv : v0 = v := by rw [hc] at h3; simpa using h3.symm
      subst hv
      cases h with
      | @list _ _ _ vs _ length items =>
        cases h' with
        | @list _ _ _ vs' _ length' items' =>
          simp only [withChildren_children] at length' items'
          have hlen : vs.length = vs'.length := by rw [hc] at length; simp at length length'; omega
          have hlt : pre.length < vs.length := by rw [hc] at length; simp at length; omega
          have g1 : vs[pre.length]? = some vs[pre.length] := List.getElem?_eq_getElem hlt
          have g2 : vs'[pre.length]? = some (vs'[pre.length]'(by omega)) := List.getElem?_eq_getElem (by omega)
          have hnl : ∀ it' ae', it ≠ .list it' ae' := by
            rintro it' ae' rfl; cases hfl
          have hfl' : flat it = true := by
            cases it <;> first | rfl | exact absurd rfl (hnl _ _)
          generalize vs[pre.length] = a at g1
          generalize vs'[pre.length]'(by omega) = a' at g2
          obtain ⟨part, y, y', b1, b2, b3, b4⟩ := ih hfl' h4 (items _ _ _ h3 g1) (items' _ v' _ (by simp) g2)
          refine ⟨part, y, y', .item h3 b1, b2, b3, ?_⟩
          cases b4 with
          | one p hp ha hch =>
            refine .item p ha (fun k hk => ?_) g1 g2 hch
            have hsame : x.children[k]? = (pre ++ v' :: post)[k]? := by
              rw [hc, List.getElem?_append, List.getElem?_append]
              split
              · rfl
              · rw [List.getElem?_cons, List.getElem?_cons, if_neg (by omega), if_neg (by omega)]
            by_cases hkl : k < vs.length
            · have e1 : vs[k]? = some vs[k] := List.getElem?_eq_getElem hkl
              have e2 : vs'[k]? = some (vs'[k]'(by omega)) := List.getElem?_eq_getElem (by omega)
              have e3 : x.children[k]? = some (x.children[k]'(by omega)) := List.getElem?_eq_getElem (by omega)
              rw [e1, e2, unique _ _ _ _ (items _ _ _ e3 e1) (items' _ _ _ (hsame.symm.trans e3) e2)]
            · rw [List.getElem?_eq_none (by omega), List.getElem?_eq_none (by omega)]
          | item => exact absurd rfl (hnl _ _)

theorem accepted_obj {u : Cls} {x : Xml} {y : AVal} (h : XAccepts (schema lim) (.cls u) x y) : ∃ c a, y = .obj c a := by
  cases h; exact ⟨_, _, rfl⟩

/-- the same for XML documents -/
theorem C90_xml_rules (c u : Cls) (x x' new : Xml) (segs : List Str) (hr : XReplaced new segs x x')
    (hdue : XDue (schema lim) (.cls c) x segs (.cls u)) (w w' : AVal) (hd : XAccepts (schema lim) (.cls c) x w)
    (hd' : XAccepts (schema lim) (.cls c) x' w') :
    ∃ p part y y', AllRenamed (p.map PTok.text) segs ∧ XLeads segs x part ∧ XAccepts (schema lim) (.cls u) part y ∧
      XAccepts (schema lim) (.cls u) new y' ∧ (∀ q t l, Breaks lim w' (p ++ q) t l ↔ Breaks lim y' q t l) ∧
      (∀ q t l, Breaks lim w (p ++ q) t l ↔ Breaks lim y q t l) ∧ ∀ q t l, ¬ p <+: q → ¬ q <+: p → (Breaks lim w' q t l ↔ Breaks lim w q t l) := by
  obtain ⟨part, y, y', h1, h2, h3, h4⟩ := xreplaced_changed lim hr rfl hdue hd hd'
  cases h4 with
  | one p _ ha hc => exact ⟨p, part, y, y', ha, h1, h2, h3, hc.breaks lim (accepted_obj lim h2) (accepted_obj lim h3)⟩

def ruleXml (name : Str) : Xml := el py!"environment" none [el py!"submodels" none [el py!"submodel" none [tx py!"idShort" py!"1", tx py!"id" py!"urn:a"]],
  el py!"conceptDescriptions" none [el py!"conceptDescription" none [tx py!"idShort" name, tx py!"id" py!"urn:a"]]]

/-- the line about the concept description is gone -/
example : ruleLines (xmlToObj none (ruleXml py!"1") py!"Environment") = .ok [⟨.constraint py!"AASd-002", [.key py!"submodels", .idx 0]⟩,
      ⟨.constraint py!"AASd-002", [.key py!"concept_descriptions", .idx 0]⟩] ∧
    ruleLines (xmlToObj none (ruleXml py!"a") py!"Environment") = .ok [⟨.constraint py!"AASd-002", [.key py!"submodels", .idx 0]⟩] := by decide +kernel

/-- all hypotheses are met -/
example : ∃ new w w', XReplaced new [py!"conceptDescriptions", py!"0"] (ruleXml py!"1") (ruleXml py!"a") ∧
    XDue (schema none) (.cls .environment) (ruleXml py!"1") [py!"conceptDescriptions", py!"0"] (.cls .conceptDescription) ∧
    XAccepts (schema none) (.cls .environment) (ruleXml py!"1") w ∧ XAccepts (schema none) (.cls .environment) (ruleXml py!"a") w' := by
  obtain ⟨w, hw⟩ : ∃ w, contentOf (.inr (ruleXml py!"1")) = some w := ⟨_, rfl⟩
  obtain ⟨w', hw'⟩ : ∃ w, contentOf (.inr (ruleXml py!"a")) = some w := ⟨_, rfl⟩
  have h2 := holds_of (fun j h => by cases h) hw
  have h3 := holds_of (fun j h => by cases h) hw'
  cases h2 with | xml h2 => ?_
  cases h3 with | xml h3 => ?_
  have hk : ∀ i, py!"conceptDescriptions" ≠ Py.natStr i := (C89_names none .environment _ (by decide +kernel : py!"conceptDescriptions" ∈ _)).2.2.2
  have hc : Spec.Parse.Content (ruleXml py!"1") (ruleXml py!"1") := .inr ⟨by decide +kernel, rfl⟩
  have hno : ∀ d y : Xml, ¬ y.tag = xmlns ++ py!"value" → ¬ IsOpValue d y := fun _ _ h h' => h h'.2
  refine ⟨el py!"conceptDescription" none [tx py!"idShort" py!"a", tx py!"id" py!"urn:a"], w, w', .member (pre := [_]) (post := []) hk hc rfl rfl (by simp) (.inr ⟨hno _ _ (by decide +kernel), rfl⟩)
    (.item (pre := []) (post := []) rfl (.here _)) (.inr ⟨hno _ _ (by decide +kernel), rfl, rfl⟩) rfl (.inr ⟨by decide +kernel, rfl⟩), ?_, h2, h3⟩
  have hf : (⟨.conceptDescriptions, .attr py!"conceptDescriptions" (.list (.cls .conceptDescription) false) false⟩ :
      Field Cls EnumCls SfvCls Fld) ∈ (schema none).fields .environment := by decide +kernel
  have ho : Opens (ruleXml py!"1") (ruleXml py!"1") := by
    refine ⟨by decide +kernel, (fun s h => by cases h), hc, fun y hy => ⟨?_, fun h => ?_⟩, .inr (by unfold HasName; decide +kernel)⟩
    · revert y; decide +kernel
    · exfalso
      revert h
      refine hno _ _ ?_
      revert y; decide +kernel
  exact .member (pre := [_]) (post := []) ho (.inl ⟨rfl, rfl⟩) hf rfl rfl (by simp) (.inr ⟨hno _ _ (by decide +kernel), rfl⟩) (.item (i := 0) rfl (.here _ _))

end Verif.Props
