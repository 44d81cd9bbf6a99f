import Verif.Paths
import Verif.PathLemmas2
import Verif.HtmlLemmas
import Verif.DocumentLemmas

/-! # Distinct paths, the text of paths, submodels in documents -/

namespace Verif.Aas
open Verif Verif.Parse Verif.Spec.Parse Verif.Spec.Model Verif.Spec.Paths Verif.DataTypes Verif.Spec

variable {lim : Option Nat}

/-! ## distinct names of siblings -/

theorem child_fun {x y z : AVal} {i : Nat} {t s : Tok} (h : Child x i t y) (h' : Child x i s z) : t = s ∧ y = z := by
  cases h with
  | submodel hm => cases h' with | submodel hm' => rw [hm] at hm'; injection hm' with e; subst e; exact ⟨rfl, rfl⟩
  | collection hm => cases h' with | collection hm' => rw [hm] at hm'; injection hm' with e; subst e; exact ⟨rfl, rfl⟩
  | list hm => cases h' with | list hm' => rw [hm] at hm'; injection hm' with e; subst e; exact ⟨rfl, rfl⟩

theorem under_inj {w x y : AVal} {is js : List Nat} {ts : List Tok} (h : Under w is ts x)
    (hd : ∀ ks us n, Under w ks us n → ∀ i j t a b, Child n i t a → Child n j t b → i = j) (h' : Under w js ts y) : is = js ∧ x = y := by
  induction h generalizing js y with
  | here => cases h'; exact ⟨rfl, rfl⟩
  | step hc _ ih =>
    cases h' with
    | step hc' hu' =>
      have := hd _ _ _ .here _ _ _ _ _ hc hc'
      subst this
      obtain ⟨-, e⟩ := child_fun hc hc'
      subst e
      obtain ⟨h1, h2⟩ := ih (fun ks us n hn => hd _ _ n (.step hc hn)) hu'
      exact ⟨by rw [h1], h2⟩

theorem filterMap_nodup_inj {f : AVal → Option Str} : ∀ {l : List AVal}, (l.filterMap f).Nodup → ∀ {i j : Nat} {x y : AVal} {s : Str},
    l[i]? = some x → l[j]? = some y → f x = some s → f y = some s → i = j
  | [], _, i, j, x, y, s, hi, _, _, _ => by simp at hi
  | a :: l, hn, i, j, x, y, s, hi, hj, hx, hy => by
    have hmem : ∀ {k : Nat} {z : AVal}, l[k]? = some z → f z = some s → s ∈ l.filterMap f := fun hk hz =>
      List.mem_filterMap.mpr ⟨_, List.mem_of_getElem? hk, hz⟩
    cases i with
    | zero =>
      simp only [List.getElem?_cons_zero, Option.some.injEq] at hi
      subst hi
      rw [List.filterMap_cons, hx] at hn
      simp only [List.nodup_cons] at hn
      cases j with
      | zero => rfl
      | succ j => exact absurd (hmem (by simpa using hj) hy) hn.1
    | succ i =>
      cases j with
      | zero =>
        simp only [List.getElem?_cons_zero, Option.some.injEq] at hj
        subst hj
        rw [List.filterMap_cons, hy] at hn
        simp only [List.nodup_cons] at hn
        exact absurd (hmem (by simpa using hi) hx) hn.1
      | succ j =>
        have hn' : (l.filterMap f).Nodup := by
          rw [List.filterMap_cons] at hn
          split at hn
          · exact hn
          · exact (List.nodup_cons.mp hn).2
        have := filterMap_nodup_inj hn' (i := i) (j := j) (by simpa using hi) (by simpa using hj) hx hy
        rw [this]

/-- siblings have different names -/
theorem called_inj {l : List AVal} (hh : HaveIdShorts l) (hu : UniqueIdShorts l) {i j : Nat} {x y : AVal} (hi : l[i]? = some x)
    (hj : l[j]? = some y) (he : called x = called y) : i = j := by
  have h1 := hh x (List.mem_of_getElem? hi)
  have h2 := hh y (List.mem_of_getElem? hj)
  obtain ⟨s, hs⟩ := Option.isSome_iff_exists.mp h1
  obtain ⟨t, ht⟩ := Option.isSome_iff_exists.mp h2
  rw [called, called, hs, ht] at he
  simp only [Tok.name.injEq] at he
  subst he
  exact filterMap_nodup_inj hu hi hj hs ht

theorem lookup_mem {f : Fld} {v : AVal} : ∀ {attrs : List (Fld × AVal)}, lookup f attrs = some v → (f, v) ∈ attrs
  | [], h => by cases h
  | (g, w) :: rest, h => by
    rw [lookup] at h
    split at h
    · rename_i e; injection h with h; subst e h; exact List.mem_cons_self
    · exact List.mem_cons_of_mem _ (lookup_mem h)

/-- what is below an object is nested in it -/
theorem under_nested {w x : AVal} {is : List Nat} {ts : List Tok} (h : Under w is ts x) : ∀ {c : Cls}, Obj lim c w →
    (∃ p, Nested Fld.pyName w p x) ∧ ∃ c', Obj lim c' x ∧ (is ≠ [] → c' ∈ subclassesOf .submodelElement) := by
  induction h with
  | here => intro c ho; obtain ⟨attrs, rfl, _⟩ := ho.fields; exact ⟨⟨_, .here ..⟩, c, ho, by simp⟩
  | @step x y z i t is ts hc hu ih =>
    intro c ho
    obtain ⟨c', hm, ho'⟩ := child_element hc ho
    obtain ⟨⟨p, hp⟩, c2, h2, h3⟩ := ih ho'
    refine ⟨?_, c2, h2, fun _ => ?_⟩
    · cases hc with
      | submodel hm => obtain ⟨l, h1, h2⟩ := elems_get hm; exact ⟨_, .item (lookup_mem h1) h2 hp⟩
      | collection hm => obtain ⟨l, h1, h2⟩ := elems_get hm; exact ⟨_, .item (lookup_mem h1) h2 hp⟩
      | list hm => obtain ⟨l, h1, h2⟩ := elems_get hm; exact ⟨_, .item (lookup_mem h1) h2 hp⟩
    · cases hu with
      | here =>
        obtain ⟨as, rfl, _⟩ := ho'.fields
        obtain ⟨bs, e, _⟩ := h2.fields
        injection e with e _
        subst e
        exact hm
      | step => exact h3 (by simp)

/-! ## the text of paths -/

theorem natStr_val (n : Nat) : (Py.natStr n).foldl (fun acc c => acc * 10 + (c - 48)) 0 = n := by
  have key : ∀ f n, n < f → (Py.natStrF f n).foldl (fun acc c => acc * 10 + (c - 48)) 0 = n := by
    intro f
    induction f with
    | zero => intro n h; omega
    | succ f ih =>
      intro n h
      rw [Py.natStrF]
      split
      · simp
      · rw [List.foldl_append, ih _ (by omega)]
        simp; omega
  exact key _ _ (by omega)

theorem natStr_inj {n m : Nat} (h : Py.natStr n = Py.natStr m) : n = m := by rw [← natStr_val n, ← natStr_val m, h]

theorem natStr_ne_nil (n : Nat) : Py.natStr n ≠ [] := by
  rw [Py.natStr, Py.natStrF]
  split <;> simp

theorem split_at {d : Nat} : ∀ {a b r s : Str}, d ∉ a → d ∉ b → a ++ d :: r = b ++ d :: s → a = b ∧ r = s
  | [], [], r, s, _, _, h => by simpa using h
  | [], y :: b, r, s, _, hb, h => by
    simp only [List.nil_append, List.cons_append, List.cons.injEq] at h
    rw [← h.1] at hb
    exact absurd List.mem_cons_self hb
  | x :: a, [], r, s, ha, _, h => by
    simp only [List.nil_append, List.cons_append, List.cons.injEq] at h
    rw [h.1] at ha
    exact absurd List.mem_cons_self ha
  | x :: a, y :: b, r, s, ha, hb, h => by
    simp only [List.cons_append, List.cons.injEq] at h
    simp only [List.mem_cons, not_or] at ha hb
    obtain ⟨e, e'⟩ := split_at ha.2 hb.2 h.2
    exact ⟨by rw [h.1, e], e'⟩

theorem join_inj {d : Nat} : ∀ {as bs : List Str}, as ≠ [] → bs ≠ [] → (∀ a ∈ as, d ∉ a) → (∀ b ∈ bs, d ∉ b) →
    Py.join [d] as = Py.join [d] bs → as = bs
  | [], _, h, _, _, _, _ => absurd rfl h
  | _, [], _, h, _, _, _ => absurd rfl h
  | [a], [b], _, _, _, _, h => by simpa [Py.join] using h
  | [a], b :: b' :: bs, _, _, ha, _, h => by
    simp only [Py.join] at h
    exact absurd (by rw [h]; simp) (ha a List.mem_cons_self)
  | a :: a' :: as, [b], _, _, _, hb, h => by
    simp only [Py.join] at h
    exact absurd (by rw [← h]; simp) (hb b List.mem_cons_self)
  | a :: a' :: as, b :: b' :: bs, _, _, ha, hb, h => by
    have hj : ∀ (x y : Str) (l : List Str), Py.join [d] (x :: y :: l) = x ++ d :: Py.join [d] (y :: l) := by
      intro x y l; rw [Py.join] <;> simp
    rw [hj, hj] at h
    obtain ⟨e, e'⟩ := split_at (ha a List.mem_cons_self) (hb b List.mem_cons_self) h
    have := join_inj (by simp) (by simp) (fun x hx => ha x (List.mem_cons_of_mem _ hx)) (fun x hx => hb x (List.mem_cons_of_mem _ hx)) e'
    rw [e, this]

/-- tokens of valid paths -/
def TokOk : Tok → Prop
  | .unnamed => True
  | .idx _ => True
  | .name s => IdShortText s

theorem alpha_bounds {c : Nat} (h : IsAlpha c) : 65 ≤ c := by unfold IsAlpha IsLower IsUpper at h; omega

theorem tokStr_dot {t : Tok} (h : TokOk t) : 46 ∉ tokStr t := by
  cases t with
  | unnamed => decide
  | idx n => intro hm; have := Res.natStr_digits n 46 hm; omega
  | name s =>
    obtain ⟨c, r, rfl, hc, hr⟩ := h
    intro hm
    rcases List.mem_cons.mp hm with rfl | hm
    · have := alpha_bounds hc; omega
    · rcases hr _ hm with h | h | h
      · have := alpha_bounds h; omega
      · unfold IsNum at h; omega
      · cases h

theorem tokStr_inj {s t : Tok} (hs : TokOk s) (ht : TokOk t) (h : tokStr s = tokStr t) : s = t := by
  have idx_name : ∀ n s, IdShortText s → Py.natStr n ≠ s := by
    rintro n _ ⟨c, r, rfl, hc, -⟩ he
    have := Res.natStr_digits n c (by rw [he]; exact List.mem_cons_self)
    have := alpha_bounds hc
    omega
  have q_name : ∀ s, IdShortText s → [63] ≠ s := by
    rintro _ ⟨c, r, rfl, hc, -⟩ he
    injection he with e _
    have := alpha_bounds hc
    omega
  have q_idx : ∀ n, [63] ≠ Py.natStr n := by
    intro n he
    have := Res.natStr_digits n 63 (by rw [← he]; exact List.mem_cons_self)
    omega
  cases s <;> cases t <;> simp only [tokStr] at h
  · rfl
  · exact absurd h (q_idx _)
  · exact absurd h (q_name _ ht)
  · exact absurd h.symm (q_idx _)
  · rw [natStr_inj h]
  · exact absurd h (idx_name _ _ ht)
  · exact absurd h.symm (q_name _ hs)
  · exact absurd h.symm (idx_name _ _ hs)
  · rw [h]

theorem map_tokStr_inj : ∀ {ts us : List Tok}, (∀ t ∈ ts, TokOk t) → (∀ t ∈ us, TokOk t) → ts.map tokStr = us.map tokStr → ts = us
  | [], [], _, _, _ => rfl
  | [], _ :: _, _, _, h => by simp at h
  | _ :: _, [], _, _, h => by simp at h
  | t :: ts, u :: us, h1, h2, h => by
    simp only [List.map_cons, List.cons.injEq] at h
    rw [tokStr_inj (h1 t List.mem_cons_self) (h2 u List.mem_cons_self) h.1,
      map_tokStr_inj (fun x hx => h1 x (List.mem_cons_of_mem _ hx)) (fun x hx => h2 x (List.mem_cons_of_mem _ hx)) h.2]

theorem pathStr_inj {ri : Option Str} {rid : Str} {ts us : List Tok} (h1 : ts ≠ []) (h2 : us ≠ []) (ht : ∀ t ∈ ts, TokOk t)
    (hu : ∀ t ∈ us, TokOk t) (h : pathStr ri rid ts = pathStr ri rid us) : ts = us := by
  unfold pathStr at h
  simp only [List.append_assoc] at h
  have h := List.append_cancel_right h
  refine map_tokStr_inj ht hu (join_inj (by simpa using h1) (by simpa using h2) ?_ ?_ h)
  · intro a ha; obtain ⟨t, hm, rfl⟩ := List.mem_map.mp ha; exact tokStr_dot (ht t hm)
  · intro a ha; obtain ⟨t, hm, rfl⟩ := List.mem_map.mp ha; exact tokStr_dot (hu t hm)

/-! ## submodels in documents -/

/-- a submodel after `post_parse` -/
theorem postParse_paths {v w : AVal} (ho : Obj lim .submodel v) (h : postParseSubmodel v = .ok w) :
    ∀ is ts x, is ≠ [] → Under w is ts x → HasPath w ts x := by
  intro is ts x hne hu
  obtain ⟨w', e, how, -⟩ := postParseSubmodel_ok lim v ho
  rw [h] at e
  injection e with e
  subst e
  obtain ⟨attrs, rfl, hf⟩ := ho.fields
  rw [postParseSubmodel] at h
  split at h
  · rename_i hl
    injection h with h
    subst h
    cases hu with
    | here => exact absurd rfl hne
    | step hc _ =>
      cases hc with
      | submodel hm => obtain ⟨l, h1, -⟩ := elems_get hm; rw [hl] at h1; cases h1
  · rename_i l i k rid hl hi hd
    obtain ⟨l', e, rfl⟩ := map_ok h
    have hroot : idShort? (.obj .submodel (setAttr .submodelElements (.list l') attrs)) = rootIdShort i ∧
        txt (.obj .submodel (setAttr .submodelElements (.list l') attrs)) .id = rid := by
      rw [idShort?, get_obj, txt, get_obj, lookup_setAttr, lookup_setAttr, if_neg (by decide), if_neg (by decide), hi, hd]
      refine ⟨?_, rfl⟩
      cases i <;> rfl
    rw [HasPath, hroot.1, hroot.2]
    obtain ⟨c', hox, hcx⟩ := (under_nested hu how).2
    obtain ⟨attrs2, rfl, hf2⟩ := hox.fields
    have hex := lookup_typed hf2 (names_nodup c') (element_facts c' (hcx hne)).2.2.1
    obtain ⟨y, hy, -⟩ := hex
    cases hu with
    | here => exact absurd rfl hne
    | @step _ y' _ j t is ts hc hu =>
      cases hc with
      | submodel hm =>
        obtain ⟨l2, h1, h2⟩ := elems_get hm
        rw [lookup_setAttr, if_pos rfl, hl] at h1
        injection h1 with h1
        injection h1 with h1
        subst h1
        obtain ⟨v', hv'⟩ := setPathL_get l l' e j y' h2
        obtain ⟨v2, hv2⟩ := setPath_under hu hv'
        obtain ⟨c3, as3, as4, rfl, e4, -, ha⟩ := setPath_inv hv2
        injection e4 with e4 e5
        subst e4 e5
        have := (setPathA_lookup _ _ _ _ ha).1
        rw [get_obj, this]
        rw [hy] at this
        cases h5 : lookup Fld.idShortPath as3 with
        | none => rw [h5] at this; cases this
        | some z => simp
  · cases h

/-- no submodels occur in objects of these classes -/
def plain (c : Cls) : Bool := decide (c ≠ .submodel ∧ c ≠ .environment)

def plainTy : ATy → Bool
  | .cls c => plain c && (subclassesOf c).all plain
  | .list it _ => plainTy it
  | _ => true

/-- types whose submodels are read as submodels, not as members of an abstract class -/
def okTy : ATy → Bool
  | .cls c => !isAbstract c || (subclassesOf c).all plain
  | .list it _ => okTy it
  | _ => true

theorem all_plain : ∀ c, c ≠ .environment → (fieldsOf c).all (fun f => match f.slot with
    | .attr _ ty _ => plainTy ty
    | .excluded => true) = true := by
  intro c hc; cases c <;> first | exact absurd rfl hc | decide +kernel

theorem all_okTy : ∀ c, (fieldsOf c).all (fun f => match f.slot with
    | .attr _ ty _ => okTy ty
    | .excluded => true) = true := by
  intro c; cases c <;> decide +kernel

/-- the type of an attribute -/
theorem attr_type {P : ATy → Bool} {c : Cls} (hall : (fieldsOf c).all (fun f => match f.slot with
    | .attr _ ty _ => P ty
    | .excluded => true) = true) {attrs : List (Fld × AVal)} (hf : FieldsOk (schema lim) (fieldsOf c) attrs) {f : Fld} {w : AVal}
    (hm : (f, w) ∈ attrs) (hp : ∀ a b t, w ≠ .path a b t) (hn : w ≠ .none) : ∃ ty, P ty = true ∧ HasType (schema lim) ty w := by
  obtain ⟨⟨g, slot⟩, hg, hok⟩ := fieldsOk_mem hf hm
  rw [List.all_eq_true] at hall
  have hgood := hall _ hg
  obtain ⟨-, hok⟩ := hok
  cases slot with
  | excluded =>
    rcases hok with hok | ⟨a, b, t, hok⟩
    · exact absurd hok hn
    · exact absurd hok (hp a b t)
  | attr key ty req =>
    rcases hok with ⟨hok, -⟩ | hok
    · exact absurd hok hn
    · exact ⟨ty, hgood, hok⟩

theorem plain_of_isA {c c' : Cls} (h : plainTy (.cls c) = true) (hi : IsA (schema lim) c c') : plain c' = true := by
  rw [plainTy, Bool.and_eq_true] at h
  rcases hi with ⟨-, rfl⟩ | ⟨-, hm⟩
  · exact h.1
  · exact List.all_eq_true.mp h.2 _ hm

theorem plain_nested {v x : AVal} {p : List PTok} (h : Nested Fld.pyName v p x) :
    ∀ {ty : ATy}, plainTy ty = true → HasType (schema lim) ty v → ∀ attrs, x ≠ .obj .submodel attrs := by
  induction h with
  | here c attrs =>
    intro ty hp ht attrs' e
    injection e with e _
    subst e
    obtain ⟨c0, rfl⟩ := hasType_is_cls ht
    exact absurd (plain_of_isA hp (hasType_obj.mp ht).1) (by decide)
  | @attr c attrs f w p x hm hn ih =>
    intro ty hp ht
    obtain ⟨c0, rfl⟩ := hasType_is_cls ht
    have hpl := plain_of_isA hp (hasType_obj.mp ht).1
    have hne : c ≠ .environment := by rintro rfl; exact absurd hpl (by decide)
    obtain ⟨ty, hg', ht'⟩ := attr_type (all_plain c hne) (hasType_obj.mp ht).2 hm
      (fun a b t he => not_nested (by simp [he]) hn) (fun he => not_nested (by simp [he]) hn)
    exact ih hg' ht'
  | @item c attrs f l i w p x hm hi hn ih =>
    intro ty hp ht
    obtain ⟨c0, rfl⟩ := hasType_is_cls ht
    have hpl := plain_of_isA hp (hasType_obj.mp ht).1
    have hne : c ≠ .environment := by rintro rfl; exact absurd hpl (by decide)
    obtain ⟨ty, hg', ht'⟩ := attr_type (all_plain c hne) (hasType_obj.mp ht).2 hm (by simp) (by simp)
    cases ht' with
    | list _ hall => exact ih (by simpa [plainTy] using hg') (hall w (List.mem_of_getElem? hi))

/-- below a submodel there are no submodels -/
theorem submodel_alone {v : AVal} (ho : Obj lim .submodel v) {p : List PTok} {attrs : List (Fld × AVal)}
    (h : Nested Fld.pyName v p (.obj .submodel attrs)) : p = [] ∧ v = .obj .submodel attrs := by
  obtain ⟨as, rfl, hf⟩ := ho.fields
  cases h with
  | here => exact ⟨rfl, rfl⟩
  | @attr _ _ f w p _ hm hn =>
    obtain ⟨ty, hg', ht'⟩ := attr_type (all_plain .submodel (by decide)) hf hm
      (fun a b t he => not_nested (by simp [he]) hn) (fun he => not_nested (by simp [he]) hn)
    exact absurd rfl (plain_nested hn hg' ht' attrs)
  | @item _ _ f l i w p _ hm hi hn =>
    obtain ⟨ty, hg', ht'⟩ := attr_type (all_plain .submodel (by decide)) hf hm (by simp) (by simp)
    cases ht' with
    | list _ hall => exact absurd rfl (plain_nested hn (by simpa [plainTy] using hg') (hall w (List.mem_of_getElem? hi)) attrs)

/-- all submodels in a value are results of `post_parse` -/
def Posted (lim : Option Nat) (v : AVal) : Prop := ∀ p attrs, Nested Fld.pyName v p (.obj .submodel attrs) →
  ∃ u, Obj lim .submodel u ∧ postParseSubmodel u = .ok (.obj .submodel attrs)

def PostedL (lim : Option Nat) (v : AVal) : Prop := Posted lim v ∧ ∀ l, v = .list l → ∀ x ∈ l, Posted lim x

/-- … below the object -/
def PostedBelow (lim : Option Nat) (v : AVal) : Prop := ∀ p attrs, p ≠ [] → Nested Fld.pyName v p (.obj .submodel attrs) →
  ∃ u, Obj lim .submodel u ∧ postParseSubmodel u = .ok (.obj .submodel attrs)

theorem posted_of {v : AVal} (hv : ∀ c attrs, v ≠ .obj c attrs) (hl : ∀ l, v ≠ .list l) : PostedL lim v :=
  ⟨fun _ _ h => absurd h (not_nested hv), fun l e => absurd e (hl l)⟩

theorem posted_obj {c : Cls} {attrs : List (Fld × AVal)} (hc : c ≠ .submodel) (h : PostedBelow lim (.obj c attrs)) :
    PostedL lim (.obj c attrs) := by
  refine ⟨fun p as hn => ?_, by simp⟩
  by_cases hp : p = []
  · subst hp
    cases hn
    exact absurd rfl hc
  · exact h p as hp hn

theorem read_posted {A : Type} {ops : Ops A} (he : ∀ a as, ops.asList a false = .ok as → as ≠ []) {ty : ATy} {a : A} {v : AVal}
    (h : Read ops (schema lim) ty a v) : okTy ty = true → PostedL lim v := by
  refine Read.rec (motive_1 := fun ty _ v _ => okTy ty = true → PostedL lim v)
    (motive_2 := fun it _ vs _ => okTy it = true → ∀ v ∈ vs, Posted lim v)
    (motive_3 := fun c _ v _ => ∃ attrs, v = .obj c attrs ∧ FieldsOk (schema lim) (fieldsOf c) attrs ∧ PostedBelow lim v)
    (motive_4 := fun _ fs attrs _ => (∀ f ∈ fs, match f.slot with | .attr _ ty _ => okTy ty = true | .excluded => True) →
      FieldsOk (schema lim) fs attrs ∧ ∀ e ∈ attrs, PostedL lim e.2) ?_ ?_ ?_ ?_ ?_ ?_ ?_ ?_ ?_ ?_ ?_ ?_ ?_ ?_ ?_ h
  · intros; exact posted_of (by simp) (by simp)
  · intros; exact posted_of (by simp) (by simp)
  · intros; exact posted_of (by simp) (by simp)
  · intros; exact posted_of (by simp) (by simp)
  · intros; exact posted_of (by simp) (by simp)
  · intro a as it ae vs _ _ ih hok
    have := ih (by simpa [okTy] using hok)
    exact ⟨fun _ _ hn => absurd hn (not_nested (by simp)), fun l e x hx => by injection e with e; subst e; exact this x hx⟩
  · intro a c v w hab _ hp ih hok
    obtain ⟨attrs, rfl, hf, hb⟩ := ih
    unfold Post at hp
    by_cases hc : c = .submodel
    · subst hc
      change postParseSubmodel _ = _ at hp
      have ho : Obj lim .submodel (.obj .submodel attrs) := ⟨attrs, rfl, hf⟩
      obtain ⟨w', e, how, -⟩ := postParseSubmodel_ok lim _ ho
      rw [hp] at e
      injection e with e
      subst e
      refine ⟨fun p as hn => ?_, fun l e => ?_⟩
      · obtain ⟨-, e⟩ := submodel_alone how hn
        exact ⟨_, ho, by rw [hp, e]⟩
      · obtain ⟨as, e', -⟩ := how.fields; rw [e'] at e; cases e
    · have hpp : (schema lim).postParse c = none := by cases c <;> first | rfl | exact absurd rfl hc
      rw [hpp] at hp
      simp only at hp
      subst hp
      exact posted_obj hc hb
  · intro a c c' d v hab _ hfind _ ih hok
    obtain ⟨attrs, rfl, hf, hb⟩ := ih
    change isAbstract c = true at hab
    rw [okTy, hab] at hok
    have := (List.all_eq_true (l := subclassesOf c) (p := plain)).mp (by simpa using hok) c' (List.mem_of_find?_eq_some hfind)
    exact posted_obj (by rintro rfl; exact absurd this (by decide)) hb
  · intro it _ v hv; simp at hv
  · intro it a as v vs _ _ h1 h2 hok x hx
    rcases List.mem_cons.mp hx with rfl | hx
    · exact (h1 hok).1
    · exact h2 hok x hx
  · intro c a obj attrs _ _ _ _ ih
    have hall := List.all_eq_true.mp (all_okTy c)
    obtain ⟨h1, h2⟩ := ih (by
      intro f hf
      have := hall f hf
      split <;> simp_all)
    refine ⟨attrs, rfl, h1, ?_⟩
    intro p as hp hn
    cases hn with
    | here => exact absurd rfl hp
    | attr hm hn => exact (h2 _ hm).1 _ _ hn
    | item hm hi hn => exact (h2 _ hm).2 _ rfl _ (List.mem_of_getElem? hi) _ _ hn
  · intro obj _; exact ⟨.nil, by simp⟩
  · intro obj f fs attrs _ ih hall
    obtain ⟨h1, h2⟩ := ih fun g hg => hall g (List.mem_cons_of_mem _ hg)
    refine ⟨.cons ⟨rfl, .inl rfl⟩ h1, ?_⟩
    intro e hm
    rcases List.mem_cons.mp hm with rfl | hm
    · exact posted_of (by simp) (by simp)
    · exact h2 e hm
  · intro obj f key ty fs attrs _ _ ih hall
    obtain ⟨h1, h2⟩ := ih fun g hg => hall g (List.mem_cons_of_mem _ hg)
    refine ⟨.cons ⟨rfl, .inl ⟨rfl, rfl⟩⟩ h1, ?_⟩
    intro e hm
    rcases List.mem_cons.mp hm with rfl | hm
    · exact posted_of (by simp) (by simp)
    · exact h2 e hm
  · intro obj f key ty req a v fs attrs _ hr _ ih1 ih2 hall
    obtain ⟨h1, h2⟩ := ih2 fun g hg => hall g (List.mem_cons_of_mem _ hg)
    have hty := hall _ List.mem_cons_self
    refine ⟨.cons ⟨rfl, .inr (Read.typed (sane lim) he hr)⟩ h1, ?_⟩
    intro e hm
    rcases List.mem_cons.mp hm with rfl | hm
    · exact ih1 hty
    · exact h2 e hm

end Verif.Aas
