import Verif.DigitLemmas

/-! # Values with short texts, and the parser under different limits -/

namespace Verif.Aas.Digits
open Verif Verif.Parse Verif.Aas Verif.DataTypes Verif.Spec.Digits

/-- the formatted strings of a value have at most `n` characters -/
inductive Within (n : Nat) : AVal → Prop
  | none : Within n .none
  | invalid : Within n .invalid
  | foreign : Within n .foreign
  | str (s : Str) : Within n (.str s)
  | bool (b : Bool) : Within n (.bool b)
  | enum (e : EnumCls) (s : Str) : Within n (.enum e s)
  | path (a : Option Str) (b : Str) (c : List Tok) : Within n (.path a b c)
  | sfv (c : SfvCls) {s : Str} : s.length ≤ n → Within n (.sfv c s)
  | list {l : List AVal} : (∀ v ∈ l, Within n v) → Within n (.list l)
  | obj (c : Cls) {attrs : List (Fld × AVal)} : (∀ p ∈ attrs, Within n p.2) → Within n (.obj c attrs)

theorem dateTime_fine (s : Str) : ∃ b, isXsDateTime none s = .ok b := by
  obtain ⟨b, hb, -⟩ := Props.C20_date_time_partial none s (by intro l hl; cases hl)
  exact ⟨b, hb⟩

theorem dateTimeUtc_fine (s : Str) : ∃ b, isXsDateTimeUtc none s = .ok b := by
  obtain ⟨b, hb, -⟩ := Props.C20_date_time_utc_partial none s (by intro l hl; cases hl)
  exact ⟨b, hb⟩

theorem construct_none {lim : Option Nat} {s : Str} (h : Converts lim s.length) (c : SfvCls) : tellConstruct lim c s = tellConstruct none c s := by
  unfold tellConstruct
  cases tellBase c s with
  | error e => rfl
  | ok u =>
    cases c
    case dateTime =>
      dsimp only
      rw [isXsDateTime, dateTime_none h, ← isXsDateTime]
      obtain ⟨b, hb⟩ := dateTime_fine s
      rw [hb]
      cases b <;> rfl
    case dateTimeUtc =>
      dsimp only
      rw [isXsDateTimeUtc, dateTime_none h, ← isXsDateTimeUtc]
      obtain ⟨b, hb⟩ := dateTimeUtc_fine s
      rw [hb]
      cases b <;> rfl
    all_goals rfl

/-- a property of places of a document that is inherited by the places below, and bounds texts -/
structure Closed {A : Type} (ops : TOps A) (n : Nat) (P : A → Prop) : Prop where
  obj {a m} : P a → ops.asObject a = .ok m → ∀ q ∈ m, P q.2
  list {a e l} : P a → ops.asList a e = .ok l → ∀ b ∈ l, P b
  str {a s} : P a → ops.asString a = .ok s → s.length ≤ n

section
variable {A : Type} {W : Words} {ops : TOps A} {n : Nat} {P : A → Prop} {lim : Option Nat}

/-- the same outcome, and values with short texts -/
def Alike {α : Type} (Q : α → Prop) (x y : Except PyExc (α × Res Line)) : Prop := x = y ∧ ∀ v r, x = .ok (v, r) → Q v

theorem Alike.ok {α : Type} {Q : α → Prop} {v : α} {r : Res Line} (h : Q v) : Alike Q (.ok (v, r)) (.ok (v, r)) := ⟨rfl, by intro v' r' e; cases e; exact h⟩
theorem Alike.error {α : Type} {Q : α → Prop} {e : PyExc} : Alike Q (.error e) (.error e) := ⟨rfl, by intro v' r' e; cases e⟩

theorem sfv_alike (hP : Closed ops n P) (h : Converts lim n) (c : SfvCls) {a : A} (ha : P a) (res : Res Line) :
    Alike (Within n) (tellSfv (C := Cls) (F := Fld) ops (texts lim) c a res) (tellSfv ops (texts none) c a res) := by
  unfold tellSfv
  cases hs : ops.asString a with
  | error e => cases e <;> first | exact .ok .invalid | exact .error
  | ok s =>
    have hl := hP.str ha hs
    dsimp only [texts]
    rw [construct_none (converts_mono h hl)]
    cases tellConstruct none c s with
    | ok u => exact .ok (.sfv c hl)
    | error e => cases e <;> first | exact .ok .invalid | exact .error

theorem items_alike {rec rec' : A → T AVal} (hr : ∀ a res, P a → Alike (Within n) (rec a res) (rec' a res)) :
    ∀ (l : List A) (res : Res Line), (∀ a ∈ l, P a) → Alike (fun vs => ∀ v ∈ vs, Within n v) (tellItems rec l res) (tellItems rec' l res)
  | [], res, _ => .ok nofun
  | a :: l, res, hl => by
    obtain ⟨h1, h2⟩ := hr a res (hl a (List.mem_cons_self ..))
    rw [tellItems, tellItems, ← h1]
    cases hx : rec a res with
    | error e => exact .error
    | ok p =>
      obtain ⟨v, r⟩ := p
      dsimp only
      obtain ⟨h3, h4⟩ := items_alike hr l r fun b hb => hl b (List.mem_cons_of_mem _ hb)
      rw [← h3]
      cases hy : tellItems rec l r with
      | error e => exact .error
      | ok q =>
        refine .ok fun w hw => ?_
        rcases List.mem_cons.mp hw with rfl | hw
        · exact h2 _ _ hx
        · exact h4 _ _ hy w hw

theorem list_alike (hP : Closed ops n P) {rec rec' : A → T AVal} (hr : ∀ a res, P a → Alike (Within n) (rec a res) (rec' a res)) {a : A} (ha : P a)
    (e : Bool) (res : Res Line) : Alike (Within n) (tellListT ops rec a e res) (tellListT ops rec' a e res) := by
  unfold tellListT
  cases hs : ops.asList a e with
  | error e => cases e <;> first | exact .ok .invalid | exact .error
  | ok l =>
    obtain ⟨h3, h4⟩ := items_alike hr l res (hP.list ha hs)
    dsimp only
    rw [← h3]
    cases hy : tellItems rec l res with
    | error e => exact .error
    | ok q => exact .ok (.list (h4 _ _ hy))

theorem dictGet_mem {α : Type} {k : Str} : ∀ {m : List (Str × α)} {a : α}, dictGet k m = some a → ∃ q ∈ m, q.2 = a
  | (k', b) :: m, a, h => by
    rw [dictGet] at h
    split at h
    · cases h; exact ⟨_, List.mem_cons_self .., rfl⟩
    · obtain ⟨q, hq, e⟩ := dictGet_mem h
      exact ⟨q, List.mem_cons_of_mem _ hq, e⟩

theorem field_alike {rec rec' : Ty Cls EnumCls SfvCls → A → T AVal} (hr : ∀ ty a res, P a → Alike (Within n) (rec ty a res) (rec' ty a res))
    {m : List (Str × A)} (hm : ∀ q ∈ m, P q.2) (p : List PTok) (key : Str) (ty : Ty Cls EnumCls SfvCls) (required : Bool) (res : Res Line) :
    Alike (Within n) (tellField rec m p key ty required res) (tellField rec' m p key ty required res) := by
  unfold tellField
  cases hd : dictGet key m with
  | none => cases required <;> first | exact .ok .none | exact .ok .invalid
  | some a =>
    obtain ⟨q, hq, rfl⟩ := dictGet_mem hd
    exact hr ty q.2 res (hm q hq)

theorem fields_alike {rec rec' : Ty Cls EnumCls SfvCls → A → T AVal} (hr : ∀ ty a res, P a → Alike (Within n) (rec ty a res) (rec' ty a res))
    {m : List (Str × A)} (hm : ∀ q ∈ m, P q.2) (p : List PTok) : ∀ (fs : List (Field Cls EnumCls SfvCls Fld)) (res : Res Line),
    Alike (fun vs => ∀ q ∈ vs, Within n q.2) (tellFields rec m p fs res) (tellFields rec' m p fs res)
  | [], res => .ok nofun
  | ⟨nm, .excluded⟩ :: fs, res => by
    obtain ⟨h3, h4⟩ := fields_alike hr hm p fs res
    rw [tellFields, tellFields, ← h3]
    cases hy : tellFields rec m p fs res with
    | error e => exact .error
    | ok q =>
      refine .ok fun w hw => ?_
      rcases List.mem_cons.mp hw with rfl | hw
      · exact .none
      · exact h4 _ _ hy w hw
  | ⟨nm, .attr key ty required⟩ :: fs, res => by
    obtain ⟨h1, h2⟩ := field_alike hr hm p key ty required res
    rw [tellFields, tellFields, ← h1]
    cases hx : tellField rec m p key ty required res with
    | error e => exact .error
    | ok v =>
      obtain ⟨v, r⟩ := v
      dsimp only
      obtain ⟨h3, h4⟩ := fields_alike hr hm p fs r
      rw [← h3]
      cases hy : tellFields rec m p fs r with
      | error e => exact .error
      | ok q =>
        refine .ok fun w hw => ?_
        rcases List.mem_cons.mp hw with rfl | hw
        · exact h2 _ _ hx
        · exact h4 _ _ hy w hw

theorem concrete_alike (hP : Closed ops n P) {rec rec' : Ty Cls EnumCls SfvCls → A → T AVal}
    (hr : ∀ ty a res, P a → Alike (Within n) (rec ty a res) (rec' ty a res)) (c : Cls) {a : A} (ha : P a) (res : Res Line) :
    Alike (Within n) (tellConcrete ops (schema lim) rec c a res) (tellConcrete ops (schema none) rec' c a res) := by
  unfold tellConcrete
  cases hs : ops.asObject a with
  | error e => cases e <;> first | exact .ok .invalid | exact .error
  | ok m =>
    dsimp only
    have hd : tellDiscriminator ops (schema none) c a res = tellDiscriminator ops (schema lim) c a res := rfl
    rw [hd]
    cases tellDiscriminator ops (schema lim) c a res with
    | error e => exact .error
    | ok r =>
      dsimp only
      obtain ⟨h3, h4⟩ := fields_alike hr (hP.obj ha hs) (ops.path a) (fieldsOf c) r
      have e1 : (schema lim).fields = fieldsOf := rfl
      have e2 : (schema none).fields = fieldsOf := rfl
      rw [e1, e2, ← h3]
      cases hy : tellFields rec m (ops.path a) (fieldsOf c) r with
      | error e => exact .error
      | ok q => exact .ok (.obj c (h4 _ _ hy))

theorem abstract_alike (hP : Closed ops n P) {rec rec' : Ty Cls EnumCls SfvCls → A → T AVal}
    (hr : ∀ ty a res, P a → Alike (Within n) (rec ty a res) (rec' ty a res)) (c : Cls) {a : A} (ha : P a) (res : Res Line) :
    Alike (Within n) (tellAbstract ops (schema lim) rec c a res) (tellAbstract ops (schema none) rec' c a res) := by
  unfold tellAbstract
  cases hs : ops.modelType a with
  | error e => cases e <;> first | exact .ok .invalid | exact .error
  | ok d =>
    obtain ⟨d, t⟩ := d
    dsimp only
    have e1 : (schema lim).subclasses = (schema none).subclasses := rfl
    have e2 : (schema lim).className = (schema none).className := rfl
    rw [e1, e2]
    cases ((schema none).subclasses c).find? (fun s => decide (d = some ((schema none).className s))) with
    | none => exact .ok .invalid
    | some s => exact concrete_alike hP hr s ha res

end

/-! ## paths -/

theorem map_ok {α β : Type} {f : α → β} {x : Except PyExc α} {b : β} (h : x.map f = .ok b) : ∃ a, x = .ok a ∧ f a = b := by
  cases x with
  | error e => cases h
  | ok a => cases h; exact ⟨a, rfl, rfl⟩

theorem bind_ok {α β : Type} {f : α → Except PyExc β} {x : Except PyExc α} {b : β} (h : (x >>= f) = .ok b) : ∃ a, x = .ok a ∧ f a = .ok b := by
  cases x with
  | error e => cases h
  | ok a => exact ⟨a, rfl, h⟩

theorem cons_within {n : Nat} {p : Fld × AVal} {l : List (Fld × AVal)} (h1 : Within n p.2) (h2 : ∀ q ∈ l, Within n q.2) : ∀ q ∈ p :: l, Within n q.2 := by
  intro q hq
  rcases List.mem_cons.mp hq with rfl | hq
  · exact h1
  · exact h2 q hq

theorem setPathL_within {n : Nat} (ri : Option Str) (rid : Str) (p : List Tok) : ∀ (l l' : List AVal),
    (∀ v ∈ l, ∀ p w, setPath ri rid p v = .ok w → Within n w) → setPathL ri rid p l = .ok l' → ∀ v ∈ l', Within n v
  | [], l', _, h => by cases h; exact nofun
  | v :: vs, l', hv, h => by
    rw [setPathL] at h
    obtain ⟨t, -, h⟩ := bind_ok h
    obtain ⟨w, hw, h⟩ := bind_ok h
    obtain ⟨ws, hws, rfl⟩ := map_ok h
    intro u hu
    rcases List.mem_cons.mp hu with rfl | hu
    · exact hv v (List.mem_cons_self ..) _ _ hw
    · exact setPathL_within ri rid p vs ws (fun q hq => hv q (List.mem_cons_of_mem _ hq)) hws u hu

theorem setPathI_within {n : Nat} (ri : Option Str) (rid : Str) (p : List Tok) : ∀ (i : Nat) (l l' : List AVal),
    (∀ v ∈ l, ∀ p w, setPath ri rid p v = .ok w → Within n w) → setPathI ri rid p i l = .ok l' → ∀ v ∈ l', Within n v
  | _, [], l', _, h => by cases h; exact nofun
  | i, v :: vs, l', hv, h => by
    rw [setPathI] at h
    obtain ⟨w, hw, h⟩ := bind_ok h
    obtain ⟨ws, hws, rfl⟩ := map_ok h
    intro u hu
    rcases List.mem_cons.mp hu with rfl | hu
    · exact hv v (List.mem_cons_self ..) _ _ hw
    · exact setPathI_within ri rid p (i + 1) vs ws (fun q hq => hv q (List.mem_cons_of_mem _ hq)) hws u hu

theorem setPathA_within {n : Nat} (ri : Option Str) (rid : Str) (c : Cls) (p : List Tok) : ∀ (attrs as : List (Fld × AVal)),
    (∀ q ∈ attrs, Within n q.2) → (∀ q ∈ attrs, ∀ l, q.2 = .list l → ∀ v ∈ l, ∀ p w, setPath ri rid p v = .ok w → Within n w) →
    setPathA ri rid c p attrs = .ok as → ∀ q ∈ as, Within n q.2
  | [], as, _, _, h => by cases h; exact nofun
  | (f, v) :: rest, as, hv, hr, h => by
    have h1 : Within n v := hv _ (List.mem_cons_self ..)
    have ih := fun bs => setPathA_within ri rid c p rest bs (fun q hq => hv q (List.mem_cons_of_mem _ hq)) (fun q hq => hr q (List.mem_cons_of_mem _ hq))
    unfold setPathA at h
    split at h
    · rename_i e; cases e
    · rename_i e
      cases e
      obtain ⟨bs, hb, rfl⟩ := map_ok h
      exact cons_within (.path ..) (ih bs hb)
    · rename_i l rest' e
      cases e
      have hl := hr _ (List.mem_cons_self ..) l rfl
      split at h
      · obtain ⟨l', hl', h⟩ := bind_ok h
        obtain ⟨bs, hb, rfl⟩ := map_ok h
        exact cons_within (.list (setPathL_within ri rid p l l' hl hl')) (ih bs hb)
      · split at h
        · obtain ⟨l', hl', h⟩ := bind_ok h
          obtain ⟨bs, hb, rfl⟩ := map_ok h
          exact cons_within (.list (setPathI_within ri rid p 0 l l' hl hl')) (ih bs hb)
        · obtain ⟨bs, hb, rfl⟩ := map_ok h
          exact cons_within h1 (ih bs hb)
    · rename_i e
      cases e
      obtain ⟨bs, hb, rfl⟩ := map_ok h
      exact cons_within h1 (ih bs hb)

theorem setPath_within {n : Nat} (ri : Option Str) (rid : Str) {v : AVal} (hv : Within n v) :
    (∀ p w, setPath ri rid p v = .ok w → Within n w) ∧ ∀ l, v = .list l → ∀ x ∈ l, ∀ p w, setPath ri rid p x = .ok w → Within n w := by
  induction hv with
  | list h ih =>
    refine ⟨fun p w h => by rw [setPath] at h; cases h; exact nofun, fun l e x hx => ?_⟩
    cases e
    exact (ih x hx).1
  | obj c h ih =>
    refine ⟨fun p w hw => ?_, fun l e => by cases e⟩
    rw [setPath] at hw
    split at hw
    · obtain ⟨as, ha, rfl⟩ := map_ok hw
      exact .obj c (setPathA_within ri rid c p _ as h (fun q hq => (ih q hq).2) ha)
    · cases hw
  | _ => exact ⟨fun p w h => by rw [setPath] at h; cases h; exact nofun, fun l e => by cases e⟩

theorem lookup_within {n : Nat} {f : Fld} : ∀ {attrs : List (Fld × AVal)} {v : AVal}, (∀ q ∈ attrs, Within n q.2) → lookup f attrs = some v → Within n v
  | (g, w) :: attrs, v, hv, h => by
    rw [lookup] at h
    split at h
    · cases h; exact hv _ (List.mem_cons_self ..)
    · exact lookup_within (fun q hq => hv q (List.mem_cons_of_mem _ hq)) h

theorem setAttr_within {n : Nat} {f : Fld} {w : AVal} (hw : Within n w) : ∀ {attrs : List (Fld × AVal)}, (∀ q ∈ attrs, Within n q.2) →
    ∀ q ∈ setAttr f w attrs, Within n q.2
  | [], _ => nofun
  | (g, v) :: attrs, hv => by
    rw [setAttr]
    split
    · exact cons_within hw fun q hq => hv q (List.mem_cons_of_mem _ hq)
    · exact cons_within (hv _ (List.mem_cons_self ..)) (setAttr_within hw fun q hq => hv q (List.mem_cons_of_mem _ hq))

theorem postParse_within {n : Nat} {v w : AVal} (hv : Within n v) (h : postParseSubmodel v = .ok w) : Within n w := by
  unfold postParseSubmodel at h
  cases v
  case obj c attrs =>
    have ha : ∀ q ∈ attrs, Within n q.2 := by cases hv; assumption
    dsimp only at h
    split at h
    · cases h; exact hv
    · rename_i l i c' rid e1 e2 e3
      obtain ⟨l', hl', rfl⟩ := map_ok h
      have hl : ∀ v ∈ l, Within n v := by have := lookup_within ha e1; cases this; assumption
      exact .obj c (setAttr_within (.list (setPathL_within _ _ _ l l' (fun x hx => (setPath_within _ _ (hl x hx)).1) hl')) ha)
    · cases h
  all_goals cases h

section
variable {A : Type} {W : Words} {ops : TOps A} {n : Nat} {P : A → Prop} {lim : Option Nat}

theorem post_within {v w : AVal} {r r' : Res Line} (hv : Within n v) (h : tellPostParse (schema lim) v r = .ok (w, r')) : Within n w := by
  cases v
  case obj c attrs =>
    cases c
    case submodel =>
      have e : (schema lim).postParse .submodel = some postParseSubmodel := rfl
      unfold tellPostParse at h
      dsimp only at h
      rw [e] at h
      dsimp only at h
      split at h
      · split at h
        · cases h
        · rename_i w' hw
          cases h
          exact postParse_within hv hw
      · cases h; exact hv
    all_goals cases h; exact hv
  all_goals cases h; exact hv

theorem tellF_alike (hP : Closed ops n P) (h : Converts lim n) : ∀ (k : Nat) (ty : Ty Cls EnumCls SfvCls) (a : A) (res : Res Line), P a →
    Alike (Within n) (tellF W ops (schema lim) (texts lim) k ty a res) (tellF W ops (schema none) (texts none) k ty a res)
  | 0, ty, a, res, ha => .error
  | k + 1, ty, a, res, ha => by
    have ih := tellF_alike hP h k
    cases ty with
    | list item e => exact list_alike hP (fun a res ha => ih item a res ha) ha e res
    | cls c =>
      rw [tellF, tellF]
      have e1 : (schema none).abstract c = (schema lim).abstract c := rfl
      rw [e1]
      split
      · exact abstract_alike hP ih c ha res
      · obtain ⟨h1, h2⟩ := concrete_alike (lim := lim) hP ih c ha res
        rw [← h1]
        cases hx : tellConcrete ops (schema lim) (tellF W ops (schema lim) (texts lim) k) c a res with
        | error e => exact .error
        | ok p => exact ⟨rfl, fun v r hv => post_within (h2 _ _ hx) hv⟩
    | bool =>
      rw [tellF, tellF]
      unfold tellBoolT
      cases ops.asBool a with
      | error e => cases e <;> first | exact .ok .invalid | exact .error
      | ok s => exact .ok (.bool s)
    | str =>
      rw [tellF, tellF]
      unfold tellStringT
      cases ops.asString a with
      | error e => cases e <;> first | exact .ok .invalid | exact .error
      | ok s => exact .ok (.str s)
    | any => exact .ok .foreign
    | enum e =>
      rw [tellF, tellF]
      unfold tellEnum
      cases ops.asString a with
      | error e => cases e <;> first | exact .ok .invalid | exact .error
      | ok s =>
        dsimp only
        have e1 : (schema none).enumValues e = (schema lim).enumValues e := rfl
        have e2 : (texts none).enumName e = (texts lim).enumName e := rfl
        rw [e1, e2]
        split
        · exact .ok (.enum e s)
        · exact .ok .invalid
    | sfv c => exact sfv_alike hP h c ha res
    | none => exact .error
    | number => exact .error
    | bytes => exact .error

end

/-! ## constraints -/

section
variable {n : Nat} {lim : Option Nat}

theorem attr_within {v w : AVal} {f : Fld} (hv : Within n v) (h : attr v f = .ok w) : Within n w := by
  unfold attr at h
  cases v
  case obj c attrs =>
    dsimp only at h
    split at h
    · rename_i w' e
      cases h
      exact lookup_within (by cases hv; assumption) e
    · cases h
  all_goals cases h

theorem raw_within {v : AVal} {s : Str} (hv : Within n v) (h : rawValue v = .ok s) : s.length ≤ n := by
  cases hv <;> cases h
  assumption

theorem iter_within {v : AVal} {l : List AVal} (hv : Within n v) (h : iter v = .ok l) : ∀ x ∈ l, Within n x := by
  cases hv <;> cases h
  assumption

theorem tellValue_none {s : Str} (h : Converts lim s.length) (t p : AVal) : tellValue lim s t p = tellValue none s t p := by
  unfold tellValue
  split
  · split
    · rfl
    · rw [validate_none h]
  · rfl

theorem tell128_none (h : Converts lim n) : ∀ (i : Nat) (l : List AVal), (∀ v ∈ l, Within n v) → tell128 lim i l = tell128 none i l
  | _, [], _ => rfl
  | i, [k], _ => by
    rw [tell128.eq_2 lim i k [], tell128.eq_2 none i k []]
  | i, k :: m :: ks, hl => by
    have ih := tell128_none h (i + 1) (m :: ks) fun v hv => hl v (List.mem_cons_of_mem _ hv)
    have hm := hl m (List.mem_cons_of_mem _ (List.mem_cons_self ..))
    rw [tell128.eq_2 lim i k (m :: ks), tell128.eq_2 none i k (m :: ks)]
    cases hk : keyType k with
    | error e => rfl
    | ok t =>
      dsimp only [bind, Except.bind]
      split
      · cases ha : attr m .value with
        | error e => rfl
        | ok w =>
          dsimp only
          cases hr : rawValue w with
          | error e => rfl
          | ok s =>
            dsimp only
            rw [bounded_none (converts_mono h (raw_within (attr_within hm ha) hr)), ih]
      · exact ih

theorem tellMethod_none (h : Converts lim n) (m : Method) {v : AVal} (hv : Within n v) : tellMethod lim m v = tellMethod none m v := by
  have key : ∀ {w : AVal} (t p : AVal), Within n w → (rawValue w >>= fun s => tellValue lim s t p) = (rawValue w >>= fun s => tellValue none s t p) := by
    intro w t p hw
    cases hr : rawValue w with
    | error e => rfl
    | ok s => exact tellValue_none (converts_mono h (raw_within hw hr)) t p
  have key2 : ∀ {w : AVal} (p : AVal), Within n w → (rawValue w >>= fun s => attr v .valueType >>= fun t => tellValue lim s t p) =
      (rawValue w >>= fun s => attr v .valueType >>= fun t => tellValue none s t p) := by
    intro w p hw
    cases hr : rawValue w with
    | error e => rfl
    | ok s =>
      cases attr v .valueType with
      | error e => rfl
      | ok t => exact tellValue_none (converts_mono h (raw_within hw hr)) t p
  cases m
  case reference_aasd_128 =>
    unfold tellMethod
    dsimp only
    cases attr v .type_ with
    | error e => rfl
    | ok t =>
      cases hk : attr v .keys with
      | error e => rfl
      | ok keys =>
        dsimp only [bind, Except.bind]
        split
        · rfl
        · cases hi : iter keys with
          | error e => rfl
          | ok l => exact tell128_none h 0 l (iter_within (attr_within hv hk) hi)
  case extension_value_type =>
    unfold tellMethod
    dsimp only
    cases ha : attr v .value with
    | error e => rfl
    | ok w =>
      cases attr v .valueType with
      | error e => rfl
      | ok t =>
        change (if truthy w && truthy t then _ else _) = (if truthy w && truthy t then _ else _)
        rw [key t .none (attr_within hv ha)]
  case qualifier_value_type =>
    unfold tellMethod
    dsimp only
    cases ha : attr v .value with
    | error e => rfl
    | ok w =>
      change (if truthy w then _ else _) = (if truthy w then _ else _)
      rw [key2 .none (attr_within hv ha)]
  case property_value_type =>
    unfold tellMethod
    dsimp only
    cases ha : attr v .value with
    | error e => rfl
    | ok w =>
      cases attr v .idShortPath with
      | error e => rfl
      | ok p =>
        change (if truthy w then _ else _) = (if truthy w then _ else _)
        exact congrArg (fun x => if truthy w then x else .ok ()) (key2 p (attr_within hv ha))
  case range_value_type_min =>
    unfold tellMethod
    dsimp only
    cases ha : attr v .min with
    | error e => rfl
    | ok w =>
      cases attr v .idShortPath with
      | error e => rfl
      | ok p =>
        change (if truthy w then _ else _) = (if truthy w then _ else _)
        exact congrArg (fun x => if truthy w then x else .ok ()) (key2 p (attr_within hv ha))
  case range_value_type_max =>
    unfold tellMethod
    dsimp only
    cases ha : attr v .max with
    | error e => rfl
    | ok w =>
      cases attr v .idShortPath with
      | error e => rfl
      | ok p =>
        change (if truthy w then _ else _) = (if truthy w then _ else _)
        exact congrArg (fun x => if truthy w then x else .ok ()) (key2 p (attr_within hv ha))
  all_goals rfl

theorem run_none (h : Converts lim n) {v : AVal} (hv : Within n v) (p : List PTok) : ∀ (ms : List Method) (res : Res Note),
    runChecks v p (ms.map (tellMethod lim)) res = runChecks v p (ms.map (tellMethod none)) res
  | [], _ => rfl
  | m :: ms, res => by
    rw [List.map_cons, List.map_cons, runChecks, runChecks, tellMethod_none h m hv]
    cases tellMethod none m v with
    | ok u => exact run_none h hv p ms res
    | error e =>
      cases e with
      | violated t l => exact run_none h hv p ms _
      | py e => rfl

/-- what is shown about the constraints of a value does not depend on the limit -/
def Free (lim : Option Nat) (v : AVal) : Prop :=
  ∀ p res, checkConstraints Fld.pyName (tells lim) v p res = checkConstraints Fld.pyName (tells none) v p res

theorem items_none : ∀ (l : List AVal) (p : List PTok) (i : Nat) (res : Res Note), (∀ v ∈ l, Free lim v) →
    checkItems Fld.pyName (tells lim) l p i res = checkItems Fld.pyName (tells none) l p i res
  | [], _, _, _, _ => by rw [checkItems, checkItems]
  | v :: vs, p, i, res, hv => by
    rw [checkItems, checkItems, hv v (List.mem_cons_self ..)]
    split
    · rfl
    · exact items_none vs p (i + 1) _ fun w hw => hv w (List.mem_cons_of_mem _ hw)

theorem attrs_none : ∀ (as : List (Fld × AVal)) (p : List PTok) (res : Res Note), (∀ q ∈ as, Free lim q.2 ∧ ∀ l, q.2 = .list l → ∀ v ∈ l, Free lim v) →
    checkAttrs Fld.pyName (tells lim) as p res = checkAttrs Fld.pyName (tells none) as p res
  | [], _, _, _ => by rw [checkAttrs, checkAttrs]
  | (f, v) :: as, p, res, hv => by
    have ih := fun r => attrs_none as p r fun q hq => hv q (List.mem_cons_of_mem _ hq)
    obtain ⟨h1, h2⟩ := hv _ (List.mem_cons_self ..)
    dsimp only at h1 h2
    cases v
    case list l =>
      rw [checkAttrs, checkAttrs, items_none l _ _ _ (h2 l rfl)]
      split
      · rfl
      · exact ih _
    all_goals
      rw [checkAttrs, checkAttrs, h1]
      · split
        · rfl
        · exact ih _
      all_goals nofun

theorem constraints_none (h : Converts lim n) {v : AVal} (hv : Within n v) : Free lim v ∧ ∀ l, v = .list l → ∀ x ∈ l, Free lim x := by
  induction hv with
  | list hl ih =>
    refine ⟨fun p res => by rw [checkConstraints, checkConstraints] <;> nofun, fun l e x hx => ?_⟩
    cases e
    exact (ih x hx).1
  | obj c ha ih =>
    refine ⟨fun p res => ?_, fun l e => by cases e⟩
    rw [checkConstraints, checkConstraints, tells, tells, run_none h (.obj c ha)]
    cases runChecks (.obj c _) p ((checkTable c).map (tellMethod none)) res with
    | error e => rfl
    | ok r => exact attrs_none _ p r ih
  | _ => exact ⟨fun p res => by rw [checkConstraints, checkConstraints] <;> nofun, fun l e => by cases e⟩

end
end Verif.Aas.Digits
