import Verif.Telling
import Verif.FaultLemmas

/-! # The parser with texts does what the parser without texts does, and where its lines come from -/

namespace Verif.Parse
open Verif Verif.Spec.Parse Verif.Spec

section
variable {A C E S F : Type}

/-- lines as results -/
def lines (ls : List Line) : List (Res Line) := ls.map fun l => Res.new l .error

theorem lines_append (a b : List Line) : lines (a ++ b) = lines a ++ lines b := by simp [lines]

/-- a result without the texts -/
def quiet (res : Res Line) : Res Note := res.mapMsg Line.note

theorem quiet_ok (res : Res Line) : (quiet res).ok = res.ok := by
  cases res; rfl

theorem quiet_append (res r : Res Line) : quiet (res.append r) = (quiet res).append (quiet r) := by
  cases res with
  | mk m l ss =>
    cases r with
    | mk m' l' ss' =>
      have key : ∀ ss : List (Res Line), Res.mapMsgL Line.note (ss ++ [.mk m' l' ss']) = Res.mapMsgL Line.note ss ++ [Res.mapMsg Line.note (.mk m' l' ss')] := by
        intro ss
        induction ss with
        | nil => rfl
        | cons a as ih => simp only [List.cons_append, Res.mapMsgL, ih]
      simp only [quiet, Res.append, Res.mapMsg, Res.level, Res.subs, Res.msg, key]

theorem quiet_appendAll (ls : List Line) : ∀ (res : Res Line), quiet (res.appendAll (lines ls)) = (quiet res).appendAll (errs (ls.map Line.note)) := by
  induction ls with
  | nil => intro res; rfl
  | cons l ls ih =>
    intro res
    have := ih (res.append (Res.new l .error))
    rw [quiet_append] at this
    exact this

/-- both do the same, and the lines are in `L` -/
def Tells {α : Type} (L : Line → Prop) (x : T α) (y : P α) : Prop :=
  ∀ res, (∃ e, x res = .error e ∧ y (quiet res) = .error e) ∨
    ∃ v ls, x res = .ok (v, res.appendAll (lines ls)) ∧ y (quiet res) = .ok (v, quiet (res.appendAll (lines ls))) ∧ ∀ l ∈ ls, L l

theorem Tells.mono {α : Type} {L L' : Line → Prop} {x : T α} {y : P α} (h : Tells L x y) (hl : ∀ l, L l → L' l) : Tells L' x y := by
  intro res
  obtain h | ⟨v, ls, h1, h2, h3⟩ := h res
  · exact .inl h
  · exact .inr ⟨v, ls, h1, h2, fun l hm => hl l (h3 l hm)⟩

theorem Tells.error {α : Type} {L : Line → Prop} (e : PyExc) : Tells (α := α) L (fun _ => .error e) (fun _ => .error e) :=
  fun _ => .inl ⟨e, rfl, rfl⟩

theorem Tells.ok {α : Type} {L : Line → Prop} (v : α) : Tells L (fun res => .ok (v, res)) (fun res => .ok (v, res)) :=
  fun _ => .inr ⟨v, [], rfl, rfl, by simp⟩

theorem Tells.tell {α : Type} {L : Line → Prop} {k : Kind} {t : Str} {p : List PTok} (v : α) (h : L ⟨k, t, p⟩) :
    Tells L (fun res => .ok (v, tell k t p res)) (fun res => .ok (v, report k p res)) := by
  intro res
  refine .inr ⟨v, [⟨k, t, p⟩], rfl, ?_, by simpa using h⟩
  change _ = Except.ok (v, quiet (res.append (Res.new ⟨k, t, p⟩ .error)))
  rw [quiet_append]
  rfl

/-- `z` is `x` and then `f` -/
def Then {ρ α β : Type} (x : ρ → Except PyExc (α × ρ)) (f : α → ρ → Except PyExc (β × ρ)) (z : ρ → Except PyExc (β × ρ)) : Prop :=
  ∀ res, (∀ e, x res = .error e → z res = .error e) ∧ ∀ v r, x res = .ok (v, r) → z res = f v r

theorem Tells.seq {α β : Type} {L : Line → Prop} {x : T α} {y : P α} {f : α → T β} {g : α → P β} {z : T β} {w : P β} (h : Tells L x y)
    (hf : ∀ v, Tells L (f v) (g v)) (hz : Then x f z) (hw : Then y g w) : Tells L z w := by
  intro res
  obtain ⟨e, h1, h2⟩ | ⟨v, ls, h1, h2, h3⟩ := h res
  · exact .inl ⟨e, (hz _).1 e h1, (hw _).1 e h2⟩
  · have hz' := (hz _).2 _ _ h1
    have hw' := (hw _).2 _ _ h2
    obtain ⟨e, h4, h5⟩ | ⟨w', ls', h4, h5, h6⟩ := hf v (res.appendAll (lines ls))
    · exact .inl ⟨e, hz'.trans h4, hw'.trans h5⟩
    · refine .inr ⟨w', ls ++ ls', ?_, ?_, ?_⟩
      · rw [hz', h4, lines_append, Res.appendAll_append]
      · rw [hw', h5, lines_append, Res.appendAll_append]
      · intro l hl
        rcases List.mem_append.mp hl with hl | hl
        · exact h3 l hl
        · exact h6 l hl

/-- the same without the text -/
def TErr.mute : TErr → AErr
  | .adapter k _ => .adapter k
  | .py e => .py e

/-- without the text -/
def CErr.mute : CErr → PyExc
  | .value _ => .valueError
  | .py e => e

/-- the adapters do the same -/
structure Same (tops : TOps A) (ops : Ops A) : Prop where
  object : ∀ a, (tops.asObject a).mapError TErr.mute = ops.asObject a
  list : ∀ a ae, (tops.asList a ae).mapError TErr.mute = ops.asList a ae
  string : ∀ a, (tops.asString a).mapError TErr.mute = ops.asString a
  string_py : ∀ a e, tops.asString a ≠ .error (.py e)
  bool : ∀ a, (tops.asBool a).mapError TErr.mute = ops.asBool a
  modelType : ∀ a, ((tops.modelType a).map (·.1)).mapError TErr.mute = ops.modelType a
  path : ∀ a, tops.path a = ops.path a

/-- the constructors do the same -/
def SameTexts (tx : Texts E S) (sc : Schema C E S F) : Prop :=
  ∀ c s, (tx.construct c s).mapError CErr.mute = sc.construct c s ∧ ∀ e, tx.construct c s ≠ .error (.py e)

/-- the parts of the document that are read, with the type they should have -/
inductive Visit (ops : Ops A) (sc : Schema C E S F) : Ty C E S → A → Ty C E S → A → Prop
  | here {ty a} : Visit ops sc ty a ty a
  | item {it ae a as b u x} : ops.asList a ae = .ok as → b ∈ as → Visit ops sc it b u x → Visit ops sc (.list it ae) a u x
  | value {c c' a obj f key ty req b u x} : Chosen ops sc c a c' → ops.asObject a = .ok obj → ⟨f, .attr key ty req⟩ ∈ sc.fields c' → dictGet key obj = some b →
      Visit ops sc ty b u x → Visit ops sc (.cls c) a u x

/-- the texts, in terms of the adapter -/
inductive GSays (W : Words) (tops : TOps A) (ops : Ops A) (sc : Schema C E S F) (tx : Texts E S) : Ty C E S → A → Kind → Str → Prop
  | string {ty a k t} : Textual ty → tops.asString a = .error (.adapter k t) → GSays W tops ops sc tx ty a k t
  | format {c a s t} : tops.asString a = .ok s → tx.construct c s = .error (.value t) → GSays W tops ops sc tx (.sfv c) a .format t
  | enum {e a s} : tops.asString a = .ok s → GSays W tops ops sc tx (.enum e) a .notInEnum (W.repr s ++ py!" is not a valid " ++ tx.enumName e)
  | bool {a k t} : tops.asBool a = .error (.adapter k t) → GSays W tops ops sc tx .bool a k t
  | list {it ae a k t} : tops.asList a ae = .error (.adapter k t) → GSays W tops ops sc tx (.list it ae) a k t
  | noType {c a k t} : sc.abstract c = true → tops.modelType a = .error (.adapter k t) → GSays W tops ops sc tx (.cls c) a k t
  | badType {c a d t} : tops.modelType a = .ok (d, t) → GSays W tops ops sc tx (.cls c) a .invalidModelType (py!"Invalid model type " ++ t)
  | object {c c' a k t} : Chosen ops sc c a c' → tops.asObject a = .error (.adapter k t) → GSays W tops ops sc tx (.cls c) a k t
  | missingType {c a obj k t} : ops.asObject a = .ok obj → tops.modelType a = .error (.adapter k t) →
      GSays W tops ops sc tx (.cls c) a .missingModelType py!"Model typ missing"
  | wrongType {c a obj} : ops.asObject a = .ok obj → GSays W tops ops sc tx (.cls c) a .wrongModelType py!"Wrong model type"
  | missing {c a obj key} : ops.asObject a = .ok obj → GSays W tops ops sc tx (.cls c) a (.missingAttribute key) (py!"Missing attribute " ++ key)
  | unknown {c a obj key} : ops.asObject a = .ok obj → GSays W tops ops sc tx (.cls c) a (.unknownAttribute key) (py!"Unknown additional attribute " ++ key)

/-- the lines about a part of the document -/
def From (W : Words) (tops : TOps A) (ops : Ops A) (sc : Schema C E S F) (tx : Texts E S) (ty : Ty C E S) (a : A) (l : Line) : Prop :=
  ∃ u x, Visit ops sc ty a u x ∧ l.path = ops.path x ∧ GSays W tops ops sc tx u x l.kind l.text ∧ GFault ops sc u x l.note

section
variable {W : Words} {tops : TOps A} {ops : Ops A} {sc : Schema C E S F} {tx : Texts E S}

theorem of_error {ε ε' α : Type} {f : ε → ε'} {x : Except ε α} {y : Except ε' α} (h : x.mapError f = y) {e} (hx : x = .error e) : y = .error (f e) := by
  subst hx; exact h.symm

theorem of_ok {ε ε' α : Type} {f : ε → ε'} {x : Except ε α} {y : Except ε' α} (h : x.mapError f = y) {v} (hx : x = .ok v) : y = .ok v := by
  subst hx; exact h.symm

theorem sfv_tells (hs : Same tops ops) (ht : SameTexts tx sc) (c : S) (a : A) :
    Tells (From W tops ops sc tx (.sfv c) a) (tellSfv tops tx c a) (parseSfv ops sc c a) := by
  unfold tellSfv parseSfv
  cases h : tops.asString a with
  | error e =>
    cases e with
    | adapter k t =>
      simp only [of_error (hs.string a) h, TErr.mute]
      rw [hs.path]
      exact Tells.tell _ ⟨_, _, .here, rfl, .string (.sfv c) h, .string (.sfv c) (of_error (hs.string a) h)⟩
    | py e => exact absurd h (hs.string_py a e)
  | ok s =>
    simp only [of_ok (hs.string a) h]
    cases h' : tx.construct c s with
    | ok u => simp only [of_ok (ht c s).1 h']; exact Tells.ok _
    | error e =>
      cases e with
      | value t =>
        simp only [of_error (ht c s).1 h', CErr.mute]
        rw [hs.path]
        exact Tells.tell _ ⟨_, _, .here, rfl, .format h h', .format (of_ok (hs.string a) h) (of_error (ht c s).1 h')⟩
      | py e => exact absurd h' ((ht c s).2 e)

theorem string_tells (hs : Same tops ops) (a : A) :
    Tells (α := Val C E S F) (From W tops ops sc tx .str a) (tellStringT tops a) (parseString ops a) := by
  unfold tellStringT parseString
  cases h : tops.asString a with
  | error e =>
    cases e with
    | adapter k t =>
      simp only [of_error (hs.string a) h, TErr.mute]
      rw [hs.path]
      exact Tells.tell _ ⟨_, _, .here, rfl, .string .str h, .string .str (of_error (hs.string a) h)⟩
    | py e => exact absurd h (hs.string_py a e)
  | ok s => simp only [of_ok (hs.string a) h]; exact Tells.ok _

theorem bool_tells (hs : Same tops ops) (a : A) :
    Tells (α := Val C E S F) (From W tops ops sc tx .bool a) (tellBoolT tops a) (parseBool ops a) := by
  unfold tellBoolT parseBool
  cases h : tops.asBool a with
  | error e =>
    cases e with
    | adapter k t =>
      simp only [of_error (hs.bool a) h, TErr.mute]
      rw [hs.path]
      exact Tells.tell _ ⟨_, _, .here, rfl, .bool h, .bool (of_error (hs.bool a) h)⟩
    | py e => simp only [of_error (hs.bool a) h, TErr.mute]; exact Tells.error _
  | ok s => simp only [of_ok (hs.bool a) h]; exact Tells.ok _

theorem enum_tells (hs : Same tops ops) (e : E) (a : A) :
    Tells (From W tops ops sc tx (.enum e) a) (tellEnum W tops sc tx e a) (parseEnum ops sc e a) := by
  unfold tellEnum parseEnum
  cases h : tops.asString a with
  | error e =>
    cases e with
    | adapter k t =>
      simp only [of_error (hs.string a) h, TErr.mute]
      rw [hs.path]
      exact Tells.tell _ ⟨_, _, .here, rfl, .string (.enum _) h, .string (.enum _) (of_error (hs.string a) h)⟩
    | py e => exact absurd h (hs.string_py a e)
  | ok s =>
    simp only [of_ok (hs.string a) h]
    rw [hs.path]
    by_cases hc : (sc.enumValues e).contains s = true
    · simp only [hc, if_true]; exact Tells.ok _
    · simp only [hc]; exact Tells.tell _ ⟨_, _, .here, rfl, .enum h, .enum (of_ok (hs.string a) h) (by simpa using hc)⟩

theorem items_tells {L : Line → Prop} {rec : A → T (Val C E S F)} {rec' : A → P (Val C E S F)} :
    ∀ {as : List A}, (∀ b ∈ as, Tells L (rec b) (rec' b)) → Tells L (tellItems rec as) (parseItems rec' as)
  | [], _ => Tells.ok []
  | a :: as, h => by
    refine Tells.seq (f := fun v res => (tellItems rec as res).map fun p => (v :: p.1, p.2)) (g := fun v res => (parseItems rec' as res).map fun p => (v :: p.1, p.2))
      (h a (.head _)) (fun v => Tells.seq (items_tells (as := as) fun b hb => h b (.tail _ hb)) (fun vs => Tells.ok (v :: vs)) ?_ ?_) ?_ ?_
    · exact fun res => ⟨fun e he => by simp only [he, Except.map], fun v r he => by simp only [he, Except.map]⟩
    · exact fun res => ⟨fun e he => by simp only [he, Except.map], fun v r he => by simp only [he, Except.map]⟩
    · exact fun res => ⟨fun e he => by simp only [tellItems, he], fun v r he => by simp only [tellItems, he]; cases tellItems rec as r <;> rfl⟩
    · exact fun res => ⟨fun e he => by simp only [parseItems, he], fun v r he => by simp only [parseItems, he]; cases parseItems rec' as r <;> rfl⟩

theorem list_tells (hs : Same tops ops) {it : Ty C E S} {ae : Bool} {a : A} {rec : A → T (Val C E S F)} {rec' : A → P (Val C E S F)}
    (h : ∀ b, Tells (From W tops ops sc tx it b) (rec b) (rec' b)) :
    Tells (From W tops ops sc tx (.list it ae) a) (tellListT tops rec a ae) (parseList ops rec' a ae) := by
  unfold tellListT parseList
  cases h1 : tops.asList a ae with
  | error e =>
    cases e with
    | adapter k t =>
      simp only [of_error (hs.list a ae) h1, TErr.mute]
      rw [hs.path]
      exact Tells.tell _ ⟨_, _, .here, rfl, .list h1, .list (of_error (hs.list a ae) h1)⟩
    | py e => simp only [of_error (hs.list a ae) h1, TErr.mute]; exact Tells.error _
  | ok as =>
    have h2 := of_ok (hs.list a ae) h1
    simp only [h2]
    refine Tells.seq (items_tells (as := as) fun b hb => (h b).mono ?_) (fun vs => Tells.ok (Val.list vs)) ?_ ?_
    · rintro l ⟨u, x, h3, h4, h5⟩
      exact ⟨u, x, .item h2 hb h3, h4, h5⟩
    · exact fun res => ⟨fun e he => by simp only [he], fun v r he => by simp only [he]⟩
    · exact fun res => ⟨fun e he => by simp only [he], fun v r he => by simp only [he]⟩

theorem field_tells {L : Line → Prop} {rec : Ty C E S → A → T (Val C E S F)} {rec' : Ty C E S → A → P (Val C E S F)} {obj : List (Str × A)} {p : List PTok}
    {key : Str} {ty : Ty C E S} {req : Bool} (h : ∀ b, dictGet key obj = some b → Tells L (rec ty b) (rec' ty b))
    (hm : req = true → dictGet key obj = none → L ⟨.missingAttribute key, py!"Missing attribute " ++ key, p⟩) :
    Tells L (tellField rec obj p key ty req) (parseField rec' obj p key ty req) := by
  unfold tellField parseField
  cases h1 : dictGet key obj with
  | none =>
    cases req with
    | false => exact Tells.ok _
    | true => exact Tells.tell _ (hm rfl h1)
  | some b => exact h b h1

theorem fields_tells {L : Line → Prop} {rec : Ty C E S → A → T (Val C E S F)} {rec' : Ty C E S → A → P (Val C E S F)} {obj : List (Str × A)} {p : List PTok}
    : ∀ {fs : List (Field C E S F)} (_hm : ∀ f key ty, (⟨f, .attr key ty true⟩ : Field C E S F) ∈ fs → dictGet key obj = none →
      L ⟨.missingAttribute key, py!"Missing attribute " ++ key, p⟩), (∀ f key ty req b, (⟨f, .attr key ty req⟩ : Field C E S F) ∈ fs → dictGet key obj = some b → Tells L (rec ty b) (rec' ty b)) →
      Tells L (tellFields rec obj p fs) (parseFields rec' obj p fs)
  | [], _, _ => Tells.ok []
  | ⟨name, .excluded⟩ :: fs, hm, h => by
    refine Tells.seq (fields_tells (fs := fs) (fun f key ty hf hn => hm f key ty (.tail _ hf) hn) fun f key ty req b hf hb => h f key ty req b (.tail _ hf) hb)
      (fun args => Tells.ok ((name, Val.none) :: args)) ?_ ?_
    · exact fun res => ⟨fun e he => by simp only [tellFields, he], fun v r he => by simp only [tellFields, he]⟩
    · exact fun res => ⟨fun e he => by simp only [parseFields, he], fun v r he => by simp only [parseFields, he]⟩
  | ⟨name, .attr key ty req⟩ :: fs, hm, h => by
    refine Tells.seq (f := fun v res => (tellFields rec obj p fs res).map fun q => ((name, v) :: q.1, q.2))
      (g := fun v res => (parseFields rec' obj p fs res).map fun q => ((name, v) :: q.1, q.2))
      (field_tells (req := req) (fun b hb => h name key ty req b (.head _) hb) (fun hr hn => hm name key ty (hr ▸ .head _) hn)) (fun v =>
        Tells.seq (fields_tells (fs := fs) (fun f key ty hf hn => hm f key ty (.tail _ hf) hn) fun f key ty req b hf hb => h f key ty req b (.tail _ hf) hb) (fun args => Tells.ok ((name, v) :: args)) ?_ ?_) ?_ ?_
    · exact fun res => ⟨fun e he => by simp only [he, Except.map], fun v r he => by simp only [he, Except.map]⟩
    · exact fun res => ⟨fun e he => by simp only [he, Except.map], fun v r he => by simp only [he, Except.map]⟩
    · exact fun res => ⟨fun e he => by simp only [tellFields, he], fun v r he => by simp only [tellFields, he]; cases tellFields rec obj p fs r <;> rfl⟩
    · exact fun res => ⟨fun e he => by simp only [parseFields, he], fun v r he => by simp only [parseFields, he]; cases parseFields rec' obj p fs r <;> rfl⟩

theorem unknown_tells {L : Line → Prop} {keys : List Str} {p : List PTok} {α : Type} (v : α) :
    ∀ (obj : List (Str × A)) (_ : ∀ e ∈ obj, e.1 ∉ keys → L ⟨.unknownAttribute e.1, py!"Unknown additional attribute " ++ e.1, p⟩), Tells L (fun res => .ok (v, tellUnknown keys p obj res)) (fun res => .ok (v, reportUnknown keys p obj res))
  | [], _ => Tells.ok v
  | (k, a) :: obj, hm => by
    have ih := unknown_tells v (keys := keys) obj fun e he => hm e (.tail _ he)
    unfold tellUnknown reportUnknown
    by_cases hk : keys.contains k = true
    · simp only [hk, if_true]; exact ih
    · simp only [hk]
      refine Tells.seq (Tells.tell () (hm (k, a) (.head _) (by simpa using hk))) (fun _ => ih) (fun res => ⟨fun e he => ?_, fun v r he => ?_⟩) (fun res => ⟨fun e he => ?_, fun v r he => ?_⟩)
      · cases he
      · cases he; rfl
      · cases he
      · cases he; rfl

theorem discriminator_tells (hs : Same tops ops) {L : Line → Prop} {c : C} {a : A}
    (h1 : ∀ k t, sc.needsModelType c = true → tops.modelType a = .error (.adapter k t) → ops.modelType a = .error (.adapter k) → L ⟨.missingModelType, py!"Model typ missing", ops.path a⟩)
    (h2 : ∀ d, sc.needsModelType c = true → ops.modelType a = .ok d → d ≠ some (sc.className c) → L ⟨.wrongModelType, py!"Wrong model type", ops.path a⟩) :
    Tells L (fun res => (tellDiscriminator tops sc c a res).map fun r => ((), r)) (fun res => (checkModelType ops sc c a res).map fun r => ((), r)) := by
  unfold tellDiscriminator checkModelType
  by_cases hc : sc.needsModelType c = true
  · simp only [hc, if_true]
    have hm := hs.modelType a
    cases h : tops.modelType a with
    | error e =>
      rw [h] at hm
      cases e with
      | adapter k t =>
        simp only [← hm, Except.map, Except.mapError, TErr.mute]
        rw [hs.path]
        exact Tells.tell () (h1 k t hc h hm.symm)
      | py e => simp only [← hm, Except.map, Except.mapError, TErr.mute]; exact Tells.error _
    | ok d =>
      obtain ⟨d, t⟩ := d
      rw [h] at hm
      simp only [← hm, Except.map, Except.mapError]
      rw [hs.path]
      by_cases hd : d = some (sc.className c)
      · simp only [hd, if_true]; exact Tells.ok ()
      · simp only [hd, if_false]; exact Tells.tell () (h2 d hc hm.symm hd)
  · simp only [hc]; exact Tells.ok ()

theorem concrete_tells (hs : Same tops ops) {c c' : C} {a : A} (hc : Chosen ops sc c a c') {rec : Ty C E S → A → T (Val C E S F)} {rec' : Ty C E S → A → P (Val C E S F)}
    (h : ∀ ty b, Tells (From W tops ops sc tx ty b) (rec ty b) (rec' ty b)) :
    Tells (From W tops ops sc tx (.cls c) a) (tellConcrete tops sc rec c' a) (parseConcrete ops sc rec' c' a) := by
  unfold tellConcrete parseConcrete
  cases h1 : tops.asObject a with
  | error e =>
    cases e with
    | adapter k t =>
      simp only [of_error (hs.object a) h1, TErr.mute]
      rw [hs.path]
      exact Tells.tell _ ⟨_, _, .here, rfl, .object hc h1, .cls hc (.object (of_error (hs.object a) h1))⟩
    | py e => simp only [of_error (hs.object a) h1, TErr.mute]; exact Tells.error _
  | ok obj =>
    have h2 := of_ok (hs.object a) h1
    simp only [h2]
    rw [hs.path]
    have hd := discriminator_tells (c := c') (sc := sc) (a := a) (L := From W tops ops sc tx (.cls c) a) hs
      (fun k t hn hk hk' => ⟨_, _, .here, rfl, .missingType h2 hk, .cls hc (.noType h2 hn hk')⟩)
      (fun d hn hd hd' => ⟨_, _, .here, rfl, .wrongType h2, .cls hc (.wrongType h2 hn hd hd')⟩)
    have hf : Tells (From W tops ops sc tx (.cls c) a) (tellFields rec obj (ops.path a) (sc.fields c')) (parseFields rec' obj (ops.path a) (sc.fields c')) := by
      refine fields_tells (fun f key ty hf hn => ⟨_, _, .here, rfl, .missing h2, .cls hc (.missing h2 hf hn)⟩) fun f key ty req b hf hb => (h ty b).mono ?_
      rintro l ⟨u, x, h3, h4, h5⟩
      exact ⟨u, x, .value hc h2 hf hb h3, h4, h5⟩
    refine Tells.seq (f := fun _ res => (tellFields rec obj (ops.path a) (sc.fields c') res).map fun q =>
        (Val.obj c' q.1, tellUnknown (allKeys (sc.fields c')) (ops.path a) obj q.2))
      (g := fun _ res => (parseFields rec' obj (ops.path a) (sc.fields c') res).map fun q =>
        (Val.obj c' q.1, reportUnknown (allKeys (sc.fields c')) (ops.path a) obj q.2)) hd (fun _ => Tells.seq hf (fun args =>
      unknown_tells (L := From W tops ops sc tx (.cls c) a) (keys := allKeys (sc.fields c')) (p := ops.path a)
        (Val.obj c' args) obj fun e he hk => ⟨_, _, .here, rfl, .unknown h2, .cls hc (.unknown h2 he hk)⟩) ?_ ?_) ?_ ?_
    · exact fun res => ⟨fun e he => by simp only [he, Except.map], fun v r he => by simp only [he, Except.map]⟩
    · exact fun res => ⟨fun e he => by simp only [he, Except.map], fun v r he => by simp only [he, Except.map]⟩
    · intro res
      constructor
      · intro e he
        cases hx : tellDiscriminator tops sc c' a res <;> simp only [hx, Except.map] at he <;> cases he
        simp only [hx]
      · intro v r he
        cases hx : tellDiscriminator tops sc c' a res <;> simp only [hx, Except.map] at he <;> cases he
        simp only [hx]
        cases tellFields rec obj (ops.path a) (sc.fields c') r <;> rfl
    · intro res
      constructor
      · intro e he
        cases hx : checkModelType ops sc c' a res <;> simp only [hx, Except.map] at he <;> cases he
        simp only [hx]
      · intro v r he
        cases hx : checkModelType ops sc c' a res <;> simp only [hx, Except.map] at he <;> cases he
        simp only [hx]
        cases parseFields rec' obj (ops.path a) (sc.fields c') r <;> rfl

theorem post_tells {L : Line → Prop} (v : Val C E S F) : Tells L (tellPostParse sc v) (runPostParse sc v) := by
  intro res
  cases v with
  | obj c attrs =>
    simp only [tellPostParse, runPostParse]
    cases sc.postParse c with
    | none => exact Tells.ok _ res
    | some f =>
      simp only [quiet_ok]
      by_cases hr : res.ok = true
      · simp only [hr, if_true]
        cases f (.obj c attrs) with
        | error e => exact .inl ⟨e, rfl, rfl⟩
        | ok v => exact Tells.ok v res
      · simp only [hr]
        exact Tells.ok _ res
  | _ => exact Tells.ok _ res

theorem abstract_tells (hs : Same tops ops) {c : C} {a : A} (hc : sc.abstract c = true) {rec : Ty C E S → A → T (Val C E S F)} {rec' : Ty C E S → A → P (Val C E S F)}
    (h : ∀ ty b, Tells (From W tops ops sc tx ty b) (rec ty b) (rec' ty b)) :
    Tells (From W tops ops sc tx (.cls c) a) (tellAbstract tops sc rec c a) (parseAbstract ops sc rec' c a) := by
  unfold tellAbstract parseAbstract
  have hm := hs.modelType a
  cases h1 : tops.modelType a with
  | error e =>
    rw [h1] at hm
    cases e with
    | adapter k t =>
      simp only [← hm, Except.map, Except.mapError, TErr.mute]
      rw [hs.path]
      exact Tells.tell _ ⟨_, _, .here, rfl, .noType hc h1, .noType hc hm.symm⟩
    | py e => simp only [← hm, Except.map, Except.mapError, TErr.mute]; exact Tells.error _
  | ok d =>
    obtain ⟨d, t⟩ := d
    rw [h1] at hm
    simp only [← hm, Except.map, Except.mapError]
    rw [hs.path]
    cases h2 : (sc.subclasses c).find? (fun s => decide (d = some (sc.className s))) with
    | some c' => exact concrete_tells hs (.inr ⟨hc, d, hm.symm, h2⟩) h
    | none => exact Tells.tell _ ⟨_, _, .here, rfl, .badType h1, .badType hc hm.symm h2⟩

/-- the parser with texts -/
theorem tellF_tells (hs : Same tops ops) (ht : SameTexts tx sc) : ∀ (n : Nat) (ty : Ty C E S) (a : A),
    Tells (From W tops ops sc tx ty a) (tellF W tops sc tx n ty a) (parseF ops sc n ty a)
  | 0, _, _ => Tells.error _
  | n + 1, ty, a => by
    have ih := tellF_tells hs ht n
    cases ty with
    | list it ae => exact list_tells hs (ih it)
    | cls c =>
      by_cases hc : sc.abstract c = true
      · intro res
        simp only [tellF, parseF, hc, if_true]
        exact abstract_tells hs hc ih res
      · refine Tells.seq (concrete_tells hs (.inl ⟨by simpa using hc, rfl⟩) ih) (post_tells (sc := sc)) ?_ ?_
        · exact fun res => ⟨fun e he => by simp [tellF, hc, he], fun v r he => by simp [tellF, hc, he]⟩
        · exact fun res => ⟨fun e he => by simp [parseF, hc, he], fun v r he => by simp [parseF, hc, he]⟩
    | bool => exact bool_tells hs a
    | str => exact string_tells hs a
    | any => exact Tells.ok _
    | enum e => exact enum_tells hs e a
    | sfv c => exact sfv_tells hs ht c a
    | none => exact Tells.error _
    | number => exact Tells.error _
    | bytes => exact Tells.error _

end
end
end Verif.Parse
