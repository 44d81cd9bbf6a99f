import Verif.PlaceLemmas
import Verif.Spec.Repair

/-! # The mistakes of a document after a change of one part -/

namespace Verif.Parse
open Verif Verif.Spec.Parse

section
variable {C E S F : Type} {sc : Schema C E S F}

/-- entries with the same names, and the same model type -/
def SameShape (kvs kvs' : List (Str × Json)) : Prop :=
  (∀ k, (∃ v, (k, v) ∈ kvs) ↔ ∃ v, (k, v) ∈ kvs') ∧ ∀ v, (py!"modelType", v) ∈ kvs ↔ (py!"modelType", v) ∈ kvs'

theorem SameShape.symm {kvs kvs' : List (Str × Json)} (h : SameShape kvs kvs') : SameShape kvs' kvs :=
  ⟨fun k => (h.1 k).symm, fun v => (h.2 v).symm⟩

theorem sameShape {k : Str} {v v' : Json} {pre post : List (Str × Json)} (hk : k ≠ py!"modelType") :
    SameShape (pre ++ (k, v) :: post) (pre ++ (k, v') :: post) := by
  constructor
  · intro key
    simp only [List.mem_append, List.mem_cons, Prod.mk.injEq]
    constructor
    · rintro ⟨u, h | ⟨h, -⟩ | h⟩
      · exact ⟨u, .inl h⟩
      · exact ⟨v', .inr (.inl ⟨h, rfl⟩)⟩
      · exact ⟨u, .inr (.inr h)⟩
    · rintro ⟨u, h | ⟨h, -⟩ | h⟩
      · exact ⟨u, .inl h⟩
      · exact ⟨v, .inr (.inl ⟨h, rfl⟩)⟩
      · exact ⟨u, .inr (.inr h)⟩
  · intro u
    simp only [List.mem_append, List.mem_cons, Prod.mk.injEq]
    constructor
    · rintro (h | ⟨h, -⟩ | h)
      · exact .inl h
      · exact absurd h.symm hk
      · exact .inr (.inr h)
    · rintro (h | ⟨h, -⟩ | h)
      · exact .inl h
      · exact absurd h.symm hk
      · exact .inr (.inr h)

theorem readAs_shape {kvs kvs' : List (Str × Json)} (h : SameShape kvs kvs') {c c' : C} (hr : ReadAs sc c c' kvs) : ReadAs sc c c' kvs' :=
  hr.imp id fun ⟨h1, h2, h3⟩ => ⟨h1, h2, (h.2 _).mp h3⟩

theorem path_cons_ne {p : List PTok} {t : PTok} {m : Note} {ty : Ty C E S} {j : Json} (h : Fault sc ty j (p ++ [t]) m) : m.path ≠ p := by
  obtain ⟨q, hq, -⟩ := Fault.shift h
  intro he
  have := congrArg List.length (hq.symm.trans he)
  simp at this

/-- the mistakes of an object itself -/
theorem own_shape {kvs kvs' : List (Str × Json)} (h : SameShape kvs kvs') {c : C} {k : Kind} (hf : Fault sc (.cls c) (.obj kvs) [] ⟨k, []⟩) :
    Fault sc (.cls c) (.obj kvs') [] ⟨k, []⟩ := by
  have no : ∀ key, (∀ v, (key, v) ∉ kvs) → ∀ v, (key, v) ∉ kvs' := fun key hn v hv => by
    obtain ⟨u, hu⟩ := (h.1 key).mpr ⟨v, hv⟩
    exact hn u hu
  generalize hj : Json.obj kvs = j at hf
  generalize hm : Note.mk k [] = m at hf
  generalize hty : Ty.cls c = ty at hf
  generalize hp : ([] : List PTok) = p at hf
  cases hf with
  | notString h1 => subst hty; cases h1
  | notInEnum => cases hty
  | format => cases hty
  | notBool => cases hty
  | notList => cases hty
  | emptyList => cases hty
  | item => cases hty
  | notObject h1 => subst hj; exact absurd rfl (h1 kvs)
  | noModelType h1 h2 => cases hj; cases hty; cases hm; exact .noModelType h1 (no _ h2)
  | invalidModelType h1 h2 h3 => cases hj; cases hty; cases hm; exact .invalidModelType h1 ((h.2 _).mp h2) h3
  | missingModelType h1 h2 h3 => cases hj; cases hty; cases hm; exact .missingModelType h1 h2 (no _ h3)
  | wrongModelType h1 h2 h3 h4 => cases hj; cases hty; cases hm; exact .wrongModelType h1 h2 ((h.2 _).mp h3) h4
  | missing h1 h2 h3 => cases hj; cases hty; cases hm; exact .missing (readAs_shape h h1) h2 (no _ h3)
  | unknown h1 h2 h3 h4 =>
    cases hj; cases hty; cases hm
    obtain ⟨v, hv⟩ := (h.1 _).mp ⟨_, h2⟩
    exact .unknown (readAs_shape h h1) hv h3 h4
  | value h1 h2 h3 h4 =>
    subst hp hm
    exact absurd rfl (path_cons_ne (p := []) h4)

theorem own_list {l l' : List Json} (he : l = [] ↔ l' = []) {ty : Ty C E S} {k : Kind} (hf : Fault sc ty (.arr l) [] ⟨k, []⟩) :
    Fault sc ty (.arr l') [] ⟨k, []⟩ := by
  generalize hj : Json.arr l = j at hf
  generalize hm : Note.mk k [] = m at hf
  generalize hp : ([] : List PTok) = p at hf
  cases hf with
  | notString h1 => cases hm; exact .notString h1 (by simp)
  | notInEnum => cases hj
  | format => cases hj
  | notBool => cases hm; exact .notBool (by simp)
  | notList h1 => exact absurd hj.symm (h1 l)
  | emptyList => cases hm; cases hj; rw [he.mp rfl]; exact .emptyList
  | item h1 h2 =>
    subst hp hm
    exact absurd rfl (path_cons_ne (p := []) h2)
  | notObject => cases hm; exact .notObject (by simp)
  | noModelType => cases hj
  | invalidModelType => cases hj
  | missingModelType => cases hj
  | wrongModelType => cases hj
  | missing => cases hj
  | unknown => cases hj
  | value => cases hj

/-- the mistakes in an object: its own, and those of its members -/
theorem faultAt_obj {c : C} {kvs : List (Str × Json)} (hw : WF (.obj kvs)) {k : Kind} {s : List Str} : FaultAt sc (.cls c) (.obj kvs) k s ↔
    (s = [] ∧ Fault sc (.cls c) (.obj kvs) [] ⟨k, []⟩) ∨
    ∃ key r v c' f ty req, s = key :: r ∧ ReadAs sc c c' kvs ∧ ⟨f, .attr key ty req⟩ ∈ sc.fields c' ∧ (key, v) ∈ kvs ∧ FaultAt sc ty v k r := by
  constructor
  · rintro ⟨part, u, hl, hd, hf⟩
    cases hd with
    | here => cases hl; exact .inl ⟨rfl, hf⟩
    | member h1 h2 h3 h4 =>
      cases hl with
      | member h5 h6 =>
        cases hw with
        | obj hnd _ =>
          have := (dictGet_of_mem hnd h3).symm.trans (dictGet_of_mem hnd h5)
          cases this
          exact .inr ⟨_, _, _, _, _, _, _, rfl, h1, h2, h3, _, _, h6, h4, hf⟩
  · rintro (⟨rfl, hf⟩ | ⟨key, r, v, c', f, ty, req, rfl, h1, h2, h3, part, u, h4, h5, h6⟩)
    · exact ⟨_, _, .here _, .here _ _, hf⟩
    · exact ⟨part, u, .member h3 h4, .member h1 h2 h3 h5, h6⟩

theorem faultAt_arr {it : Ty C E S} {ae : Bool} {l : List Json} {k : Kind} {s : List Str} : FaultAt sc (.list it ae) (.arr l) k s ↔
    (s = [] ∧ Fault sc (.list it ae) (.arr l) [] ⟨k, []⟩) ∨ ∃ i r v, s = Py.natStr i :: r ∧ l[i]? = some v ∧ FaultAt sc it v k r := by
  constructor
  · rintro ⟨part, u, hl, hd, hf⟩
    generalize hj : Json.arr l = j at hl
    generalize hs : s = s' at hl
    cases hl with
    | here => subst hj hs; cases hd; exact .inl ⟨rfl, hf⟩
    | member => cases hj
    | @item i r l' v _ hi hl =>
      cases hj
      generalize hi' : Py.natStr i :: r = s' at hs
      cases hd with
      | here => subst hs; cases hi'
      | item hi2 hd =>
        subst hs
        injection hi' with h1 h2
        subst h2
        cases Aas.natStr_inj h1
        rw [hi] at hi2
        cases hi2
        exact .inr ⟨i, r, v, rfl, hi, _, _, hl, hd, hf⟩
  · rintro (⟨rfl, hf⟩ | ⟨i, r, v, rfl, hi, part, u, h4, h5, h6⟩)
    · exact ⟨_, _, .here _, .here _ _, hf⟩
    · exact ⟨part, u, .item hi h4, .item hi h5, h6⟩

theorem Replaced.wf {new : Json} (hn : WF new) {segs : List Str} {j j' : Json} (h : Replaced new segs j j') : WF j → WF j' := by
  induction h with
  | here => exact fun _ => hn
  | @member k r v v' pre post _ ih =>
    intro hw
    cases hw with
    | obj hnd hws =>
      refine .obj (by simpa using hnd) fun e he => ?_
      simp only [List.mem_append, List.mem_cons] at he
      rcases he with he | rfl | he
      · exact hws _ (by simp [he])
      · exact ih (hws (k, v) (by simp))
      · exact hws _ (by simp [he])
  | @item r v v' pre post _ ih =>
    intro hw
    cases hw with
    | arr hws =>
      refine .arr fun e he => ?_
      simp only [List.mem_append, List.mem_cons] at he
      rcases he with he | rfl | he
      · exact hws _ (by simp [he])
      · exact ih (hws v (by simp))
      · exact hws _ (by simp [he])

theorem field_key (hs : Sane sc) {c : C} {f : F} {k : Str} {ty : Ty C E S} {req : Bool} (h : ⟨f, .attr k ty req⟩ ∈ sc.fields c) : k ≠ py!"modelType" := by
  rintro rfl
  exact hs.keys _ _ _ _ h

theorem attr_one {fs : List (Field C E S F)} (hn : (allKeys fs).Nodup) {f f' : F} {k : Str} {ty ty' : Ty C E S} {req req' : Bool}
    (h : ⟨f, .attr k ty req⟩ ∈ fs) (h' : ⟨f', .attr k ty' req'⟩ ∈ fs) : ty = ty' := by
  induction fs with
  | nil => cases h
  | cons a fs ih =>
    rcases List.mem_cons.mp h with rfl | h1 <;> rcases List.mem_cons.mp h' with h2 | h2
    · injection h2 with _ h2
      injection h2 with _ h2
      exact h2.symm
    · have hk : k ∉ allKeys fs := by
        have : k ∉ allKeys fs ∧ (allKeys fs).Nodup := by simpa [allKeys] using hn
        exact this.1
      exact absurd (mem_allKeys.mpr ⟨_, _, _, h2⟩) hk
    · subst h2
      have hk : k ∉ allKeys fs := by
        have : k ∉ allKeys fs ∧ (allKeys fs).Nodup := by simpa [allKeys] using hn
        exact this.1
      exact absurd (mem_allKeys.mpr ⟨_, _, _, h1⟩) hk
    · refine ih ?_ h1 h2
      rcases a with ⟨fa, ka⟩
      cases ka with
      | attr => exact (by simpa [allKeys] using hn : _ ∧ (allKeys fs).Nodup).2
      | _ => simpa [allKeys] using hn

theorem names_one {c : C} (hn : ((sc.subclasses c).map sc.className).Nodup) {a b : C} (ha : a ∈ sc.subclasses c) (hb : b ∈ sc.subclasses c)
    (h : sc.className a = sc.className b) : a = b := by
  generalize sc.subclasses c = l at *
  induction l with
  | nil => cases ha
  | cons x l ih =>
    simp only [List.map_cons, List.nodup_cons] at hn
    rcases List.mem_cons.mp ha with rfl | ha' <;> rcases List.mem_cons.mp hb with rfl | hb'
    · rfl
    · exact absurd (h ▸ List.mem_map_of_mem hb') hn.1
    · exact absurd (h ▸ List.mem_map_of_mem ha') hn.1
    · exact ih hn.2 ha' hb'

theorem readAs_one (hs : Sane sc) {c a b : C} {kvs : List (Str × Json)} (hnd : (kvs.map (·.1)).Nodup) (h : ReadAs sc c a kvs) (h' : ReadAs sc c b kvs) :
    a = b := by
  rcases h with ⟨h1, rfl⟩ | ⟨h1, h2, h3⟩ <;> rcases h' with ⟨g1, rfl⟩ | ⟨g1, g2, g3⟩
  · rfl
  · rw [h1] at g1; cases g1
  · rw [h1] at g1; cases g1
  · have := (dictGet_of_mem hnd h3).symm.trans (dictGet_of_mem hnd g3)
    injection this with this
    injection this with this
    exact names_one (hs.names c) h2 g2 this

/-- The mistakes after a change: those outside of the part stay, those of the new part are added. -/
theorem replaced_faults (hs : Sane sc) (hdk : DistinctKeys sc) {new : Json} {segs : List Str} {j j' : Json} (h : Replaced new segs j j') :
    ∀ {ty u : Ty C E S}, WF j → WF new → Due sc ty j segs u → ∀ k s, FaultAt sc ty j' k s ↔
      (FaultAt sc ty j k s ∧ ¬ segs <+: s) ∨ ∃ s', s = segs ++ s' ∧ FaultAt sc u new k s' := by
  induction h with
  | here j =>
    intro ty u _ _ hd k s
    cases hd
    simp
  | @member key r v v' pre post hr ih =>
    intro ty u hw hn hd k s
    have hw' := Replaced.wf hn (.member (k := key) (pre := pre) (post := post) hr) hw
    cases hd with
    | @member c c' _ f _ req _ v0 ty _ h1 h2 h3 h4 =>
      have hsh : SameShape (pre ++ (key, v) :: post) (pre ++ (key, v') :: post) := sameShape (field_key hs h2)
      have hnd : ((pre ++ (key, v) :: post).map (·.1)).Nodup := by
        cases hw with
        | obj hnd _ => exact hnd
      have hwv : WF v := by
        cases hw with
        | obj _ hws => exact hws (key, v) (by simp)
      have hv : v0 = v := by
        have := (dictGet_of_mem hnd h3).symm.trans (dictGet_of_mem (k := key) (v := v) hnd (by simp))
        cases this; rfl
      subst hv
      have hout : ∀ {k' : Str} {w : Json}, k' ≠ key → ((k', w) ∈ pre ++ (key, v0) :: post ↔ (k', w) ∈ pre ++ (key, v') :: post) := by
        intro k' w hne
        simp only [List.mem_append, List.mem_cons, Prod.mk.injEq, hne, false_and, false_or]
      have hnd' : ((pre ++ (key, v') :: post).map (·.1)).Nodup := by simpa using hnd
      have hin : ∀ {w}, (key, w) ∈ pre ++ (key, v') :: post → w = v' := by
        intro w hm
        have := (dictGet_of_mem hnd' hm).symm.trans (dictGet_of_mem (k := key) (v := v') hnd' (by simp))
        cases this; rfl
      have hin0 : ∀ {w}, (key, w) ∈ pre ++ (key, v0) :: post → w = v0 := by
        intro w hm
        have := (dictGet_of_mem hnd hm).symm.trans (dictGet_of_mem (k := key) (v := v0) hnd h3)
        cases this; rfl
      have hty : ∀ {c'' f' ty' req'}, ReadAs sc c c'' (pre ++ (key, v0) :: post) → ⟨f', .attr key ty' req'⟩ ∈ sc.fields c'' → ty' = ty := by
        intro c'' f' ty' req' hr' hm
        cases readAs_one hs hnd hr' h1
        exact attr_one (hdk _) hm h2
      rw [faultAt_obj hw, faultAt_obj hw']
      constructor
      · rintro (⟨rfl, hf⟩ | ⟨k', s, w, c'', f', ty', req', rfl, g1, g2, g3, g4⟩)
        · exact .inl ⟨.inl ⟨rfl, own_shape hsh.symm hf⟩, by simp⟩
        · have g1' := readAs_shape hsh.symm g1
          by_cases hk : k' = key
          · subst hk
            cases hin g3
            cases hty g1' g2
            rcases (ih hwv hn h4 k s).mp g4 with ⟨g5, g6⟩ | ⟨s', rfl, g5⟩
            · exact .inl ⟨.inr ⟨k', s, v0, c'', f', ty, req', rfl, g1', g2, h3, g5⟩, by simpa [List.cons_prefix_cons] using g6⟩
            · exact .inr ⟨s', rfl, g5⟩
          · exact .inl ⟨.inr ⟨k', s, w, c'', f', ty', req', rfl, g1', g2, (hout hk).mpr g3, g4⟩, by simp [List.cons_prefix_cons, Ne.symm hk]⟩
      · rintro (⟨⟨rfl, hf⟩ | ⟨k', s, w, c'', f', ty', req', rfl, g1, g2, g3, g4⟩, hno⟩ | ⟨s', rfl, g⟩)
        · exact .inl ⟨rfl, own_shape hsh hf⟩
        · refine .inr ?_
          by_cases hk : k' = key
          · subst hk
            cases hin0 g3
            cases hty g1 g2
            exact ⟨k', s, v', c'', f', ty, req', rfl, readAs_shape hsh g1, g2, by simp, (ih hwv hn h4 k s).mpr (.inl ⟨g4, by simpa [List.cons_prefix_cons] using hno⟩)⟩
          · exact ⟨k', s, w, c'', f', ty', req', rfl, readAs_shape hsh g1, g2, (hout hk).mp g3, g4⟩
        · exact .inr ⟨key, r ++ s', v', c', f, ty, req, rfl, readAs_shape hsh h1, h2, by simp, (ih hwv hn h4 k (r ++ s')).mpr (.inr ⟨s', rfl, g⟩)⟩
  | @item r v v' pre post hr ih =>
    intro ty u hw hn hd k s
    generalize hs' : Py.natStr pre.length :: r = segs at hd
    cases hd with
    | here => cases hs'
    | @item it ae i r' _ v0 _ hi hd =>
      injection hs' with e1 e2
      subst e2
      have e1 := Aas.natStr_inj e1
      subst e1
      have hv : v0 = v := by simpa using hi.symm
      subst hv
      have hwv : WF v0 := by
        cases hw with
        | arr hws => exact hws v0 (by simp)
      have he : pre ++ v0 :: post = [] ↔ pre ++ v' :: post = [] := by simp
      have hout : ∀ {i : Nat} {w : Json}, i ≠ pre.length → ((pre ++ v0 :: post)[i]? = some w ↔ (pre ++ v' :: post)[i]? = some w) := by
        intro i w hne
        rcases Nat.lt_or_gt_of_ne hne with h | h
        · rw [List.getElem?_append_left h, List.getElem?_append_left h]
        · rw [List.getElem?_append_right (Nat.le_of_lt h), List.getElem?_append_right (Nat.le_of_lt h)]
          obtain ⟨d, hd⟩ : ∃ d, i - pre.length = d + 1 := ⟨i - pre.length - 1, by omega⟩
          rw [hd, List.getElem?_cons_succ, List.getElem?_cons_succ]
      have inj : ∀ {i : Nat}, Py.natStr pre.length = Py.natStr i → i = pre.length := fun h => (Aas.natStr_inj h).symm
      rw [faultAt_arr, faultAt_arr]
      constructor
      · rintro (⟨rfl, hf⟩ | ⟨i, s, w, rfl, g3, g4⟩)
        · exact .inl ⟨.inl ⟨rfl, own_list he.symm hf⟩, by simp⟩
        · by_cases hk : i = pre.length
          · subst hk
            have : v' = w := by simpa using g3
            subst this
            rcases (ih hwv hn hd k s).mp g4 with ⟨g5, g6⟩ | ⟨s', rfl, g5⟩
            · exact .inl ⟨.inr ⟨_, s, v0, rfl, by simp, g5⟩, by simpa [List.cons_prefix_cons] using g6⟩
            · exact .inr ⟨s', rfl, g5⟩
          · exact .inl ⟨.inr ⟨i, s, w, rfl, (hout hk).mpr g3, g4⟩, fun hp => hk (inj (List.cons_prefix_cons.mp hp).1)⟩
      · rintro (⟨⟨rfl, hf⟩ | ⟨i, s, w, rfl, g3, g4⟩, hno⟩ | ⟨s', rfl, g⟩)
        · exact .inl ⟨rfl, own_list he hf⟩
        · refine .inr ?_
          by_cases hk : i = pre.length
          · subst hk
            have : v0 = w := by simpa using g3
            subst this
            exact ⟨_, s, v', rfl, by simp, (ih hwv hn hd k s).mpr (.inl ⟨g4, by simpa [List.cons_prefix_cons] using hno⟩)⟩
          · exact ⟨i, s, w, rfl, (hout hk).mp g3, g4⟩
        · exact .inr ⟨_, r ++ s', v', rfl, by simp, (ih hwv hn hd k (r ++ s')).mpr (.inr ⟨s', rfl, g⟩)⟩

end
end Verif.Parse
