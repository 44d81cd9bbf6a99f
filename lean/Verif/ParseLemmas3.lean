import Verif.ParseJson

/-!
# The parser does not raise; the order of members does not matter
-/

namespace Verif.Parse
open Verif Verif.Spec.Parse Res

section
variable {A C E S F : Type}

/-! ## no exceptions -/

/-- types that `parse` knows -/
def Supported : Ty C E S → Prop
  | .none | .number | .bytes => False
  | .list it _ => Supported it
  | _ => True

/-- the parser knows all types, and formatted strings raise nothing but `ValueError` -/
structure Schema.Supported (sc : Schema C E S F) : Prop where
  types : ∀ c f key ty req, ⟨f, .attr key ty req⟩ ∈ sc.fields c → Parse.Supported ty
  strings : ∀ c s e, sc.construct c s = .error e → e = .valueError

/-- apart from `AdapterException` the adapter raises only exceptions of the kinds `K` -/
structure Ops.Kinds (ops : Ops A) (inv : A → Prop) (K : PyExc → Prop) : Prop where
  asObject : ∀ a e, inv a → ops.asObject a = .error (.py e) → K e
  asList : ∀ a ae e, inv a → ops.asList a ae = .error (.py e) → K e
  asString : ∀ a e, inv a → ops.asString a = .error (.py e) → K e
  asBool : ∀ a e, inv a → ops.asBool a = .error (.py e) → K e
  modelType : ∀ a e, inv a → ops.modelType a = .error (.py e) → K e

/-- the adapter raises nothing but `AdapterException` -/
structure Ops.Quiet (ops : Ops A) (inv : A → Prop) : Prop where
  asObject : ∀ a e, inv a → ops.asObject a ≠ .error (.py e)
  asList : ∀ a ae e, inv a → ops.asList a ae ≠ .error (.py e)
  asString : ∀ a e, inv a → ops.asString a ≠ .error (.py e)
  asBool : ∀ a e, inv a → ops.asBool a ≠ .error (.py e)
  modelType : ∀ a e, inv a → ops.modelType a ≠ .error (.py e)

theorem Ops.Quiet.kinds {ops : Ops A} {inv : A → Prop} (h : ops.Quiet inv) : ops.Kinds inv (fun _ => False) :=
  ⟨h.asObject, h.asList, h.asString, h.asBool, h.modelType⟩

/-- only exceptions of the kinds `K` -/
def Only {α : Type} (K : PyExc → Prop) (x : Except PyExc α) : Prop := ∀ e, x = .error e → K e

theorem only_ok {α : Type} {K : PyExc → Prop} (a : α) : Only K (.ok a : Except PyExc α) := fun _ h => by cases h

theorem only_error {α : Type} {K : PyExc → Prop} {e : PyExc} (h : K e) : Only K (.error e : Except PyExc α) := fun _ h' => by cases h'; exact h

variable {K : PyExc → Prop}

theorem parseItems_only (rec : A → P (Val C E S F)) : ∀ as : List A, (∀ a ∈ as, ∀ res, Only K (rec a res)) → ∀ res,
    Only K (parseItems rec as res)
  | [], _, _ => only_ok _
  | a :: as, h, res => by
    unfold parseItems
    cases h1 : rec a res with
    | error e => exact only_error (h a List.mem_cons_self res e h1)
    | ok p =>
      simp only
      cases h2 : parseItems rec as p.2 with
      | error e => exact only_error (parseItems_only rec as (fun b hb => h b (List.mem_cons_of_mem _ hb)) p.2 e h2)
      | ok q => exact only_ok _

theorem parseFields_only (rec : Ty C E S → A → P (Val C E S F)) (obj : List (Str × A)) (p : List PTok) :
    ∀ (fs : List (Field C E S F)), (∀ f key ty req, ⟨f, .attr key ty req⟩ ∈ fs → ∀ e ∈ obj, ∀ res, Only K (rec ty e.2 res)) → ∀ res,
    Only K (parseFields rec obj p fs res)
  | [], _, _ => only_ok _
  | ⟨f, .excluded⟩ :: fs, h, res => by
    have ih := parseFields_only rec obj p fs (fun f key ty req hf => h f key ty req (List.mem_cons_of_mem _ hf)) res
    unfold parseFields
    cases h2 : parseFields rec obj p fs res with
    | error e => exact only_error (ih e h2)
    | ok q => exact only_ok _
  | ⟨f, .attr key ty req⟩ :: fs, h, res => by
    have h1 : Only K (parseField rec obj p key ty req res) := by
      unfold parseField
      cases hd : dictGet key obj with
      | none => cases req <;> exact only_ok _
      | some a => exact h f key ty req List.mem_cons_self _ (dictGet_mem hd) res
    unfold parseFields
    cases h3 : parseField rec obj p key ty req res with
    | error e => exact only_error (h1 e h3)
    | ok r =>
      simp only
      cases h2 : parseFields rec obj p fs r.2 with
      | error e => exact only_error (parseFields_only rec obj p fs (fun f key ty req hf => h f key ty req (List.mem_cons_of_mem _ hf)) r.2 e h2)
      | ok q => exact only_ok _

theorem parseConcrete_only (ops : Ops A) {inv : A → Prop} (hq : ops.Kinds inv K) (sc : Schema C E S F)
    (rec : Ty C E S → A → P (Val C E S F)) (c : C) (a : A) (hi : inv a) (res : Res Note)
    (h : ∀ obj, ops.asObject a = .ok obj → ∀ f key ty req, ⟨f, .attr key ty req⟩ ∈ sc.fields c → ∀ e ∈ obj, ∀ res,
      Only K (rec ty e.2 res)) : Only K (parseConcrete ops sc rec c a res) := by
  unfold parseConcrete
  cases ho : ops.asObject a with
  | error e =>
    cases e with
    | adapter k => exact only_ok _
    | py e => exact only_error (hq.asObject a e hi ho)
  | ok obj =>
    have hm : Only K (checkModelType ops sc c a res) := by
      unfold checkModelType
      split
      · cases hm : ops.modelType a with
        | error e =>
          cases e with
          | adapter k => exact only_ok _
          | py e => exact only_error (hq.modelType a e hi hm)
        | ok d => exact only_ok _
      · exact only_ok _
    simp only
    cases hx : checkModelType ops sc c a res with
    | error e => exact only_error (hm e hx)
    | ok res1 =>
      simp only
      cases h2 : parseFields rec obj (ops.path a) (sc.fields c) res1 with
      | error e => exact only_error (parseFields_only rec obj (ops.path a) (sc.fields c) (h obj ho) res1 e h2)
      | ok q => exact only_ok _

theorem parseF_only (ops : Ops A) {inv : A → Prop} (hq : ops.Kinds inv K) (hcl : ops.Closed inv) (sc : Schema C E S F) (hs : Sane sc) (hsup : sc.Supported)
    (he : ∀ a as, ops.asList a false = .ok as → as ≠ []) (size : A → Nat) (hl : ops.Lawful size) :
    ∀ (n : Nat) (ty : Ty C E S) (a : A), size a < n → inv a → Supported ty → ∀ res, Only K (parseF ops sc n ty a res)
  | 0, _, _, h, _, _, _ => absurd h (Nat.not_lt_zero _)
  | n + 1, ty, a, hn, hi, ht, res => by
    have ih := parseF_only ops hq hcl sc hs hsup he size hl n
    have hobj : ∀ c obj, ops.asObject a = .ok obj → ∀ f key ty req, ⟨f, .attr key ty req⟩ ∈ sc.fields c → ∀ e ∈ obj, ∀ res,
        Only K (parseF ops sc n ty e.2 res) := by
      intro c obj ho f key ty req hf e he res
      exact ih ty e.2 (by have := hl.object a obj ho e he; omega) (hcl.object a obj ho hi e he) (hsup.types c f key ty req hf) res
    have hgoodc := fun c => parseConcrete_good ops sc (fun _ => True) (parseF ops sc n) c a trivial (fun obj ho e he ty res => by
      have := parseF_good ops sc size hl (fun _ => True) ⟨fun _ _ _ _ _ _ => trivial, fun _ _ _ _ _ _ _ => trivial⟩
        n ty e.2 (by have := hl.object a obj ho e he; omega) trivial res
      revert this
      cases parseF ops sc n ty e.2 res with
      | error e => exact fun h => h
      | ok p => exact fun ⟨ns, h1, _, h3⟩ => ⟨ns, h1, fun _ _ => trivial, h3⟩) res
    unfold parseF
    cases ty with
    | str =>
      simp only [parseString]
      cases ha : ops.asString a with
      | error e =>
        cases e with
        | adapter k => exact only_ok _
        | py e => exact only_error (hq.asString a e hi ha)
      | ok s => exact only_ok _
    | bool =>
      simp only [parseBool]
      cases ha : ops.asBool a with
      | error e =>
        cases e with
        | adapter k => exact only_ok _
        | py e => exact only_error (hq.asBool a e hi ha)
      | ok s => exact only_ok _
    | any => exact only_ok _
    | none => exact ht.elim
    | number => exact ht.elim
    | bytes => exact ht.elim
    | enum e =>
      simp only [parseEnum]
      cases ha : ops.asString a with
      | error e =>
        cases e with
        | adapter k => exact only_ok _
        | py e => exact only_error (hq.asString a e hi ha)
      | ok s => simp only; split <;> exact only_ok _
    | sfv c =>
      simp only [parseSfv]
      cases ha : ops.asString a with
      | error e =>
        cases e with
        | adapter k => exact only_ok _
        | py e =>
          have hk := hq.asString a e hi ha
          cases e <;> first | exact only_ok _ | exact only_error hk
      | ok s =>
        simp only
        cases hk : sc.construct c s with
        | ok u => exact only_ok _
        | error e => obtain rfl := hsup.strings c s e hk; exact only_ok _
    | list it ae =>
      simp only [parseList]
      cases ha : ops.asList a ae with
      | error e =>
        cases e with
        | adapter k => exact only_ok _
        | py e => exact only_error (hq.asList a ae e hi ha)
      | ok as =>
        simp only
        cases h1 : parseItems (parseF ops sc n it) as res with
        | error e => exact only_error (parseItems_only (parseF ops sc n it) as
            (fun b hb res => ih it b (by have := hl.list a ae as ha b hb; omega) (hcl.list a ae as ha hi b hb) ht res) res e h1)
        | ok q => exact only_ok _
    | cls c =>
      simp only
      cases hab : sc.abstract c with
      | true =>
        simp only [if_true, parseAbstract]
        cases hm : ops.modelType a with
        | error e =>
          cases e with
          | adapter k => exact only_ok _
          | py e => exact only_error (hq.modelType a e hi hm)
        | ok d =>
          simp only
          cases hf : (sc.subclasses c).find? (fun s => decide (d = some (sc.className s))) with
          | none => exact only_ok _
          | some s => exact parseConcrete_only ops hq sc (parseF ops sc n) s a hi res (hobj s)
      | false =>
        simp only [Bool.false_eq_true, if_false]
        have hg := hgoodc c
        cases h1 : parseConcrete ops sc (parseF ops sc n) c a res with
        | error e => exact only_error (parseConcrete_only ops hq sc (parseF ops sc n) c a hi res (hobj c) e h1)
        | ok q =>
          obtain ⟨v, res1⟩ := q
          rw [h1] at hg
          obtain ⟨ns, rfl, -, -, hr⟩ := hg
          simp only [runPostParse]
          split
          · rename_i c' attrs
            split
            · exact only_ok _
            · rename_i f hpp
              split
              · rename_i hok
                obtain ⟨hok, hnil⟩ := (appendAll_errs_ok _ _).mp hok
                have hro := hr hnil hok
                have hcc : c' = c := by cases hro; rfl
                subst hcc
                have hty : HasType sc (.cls c') (.obj c' attrs) := by
                  cases hro with
                  | mk _ _ _ h => exact hasType_obj.mpr ⟨.inl ⟨hab, rfl⟩, ReadF.typed hs he h⟩
                obtain ⟨w, hw, -⟩ := hs.post c' f _ hpp hty
                simp only [hw]
                exact only_ok _
              · exact only_ok _
          · exact only_ok _

def Returns {α : Type} (x : Except PyExc α) : Prop := ∃ a, x = .ok a

theorem returns_ok {α : Type} (a : α) : Returns (.ok a : Except PyExc α) := ⟨a, rfl⟩

theorem parseF_returns (ops : Ops A) {inv : A → Prop} (hq : ops.Quiet inv) (hcl : ops.Closed inv) (sc : Schema C E S F) (hs : Sane sc) (hsup : sc.Supported)
    (he : ∀ a as, ops.asList a false = .ok as → as ≠ []) (size : A → Nat) (hl : ops.Lawful size)
    (n : Nat) (ty : Ty C E S) (a : A) (hn : size a < n) (hi : inv a) (ht : Supported ty) (res : Res Note) : Returns (parseF ops sc n ty a res) := by
  have h := parseF_only ops hq.kinds hcl sc hs hsup he size hl n ty a hn hi ht res
  cases hx : parseF ops sc n ty a res with
  | error e => exact (h e hx).elim
  | ok p => exact returns_ok _

theorem json_quiet : jsonOps.Quiet (fun _ => True) where
  asObject a e _ := by obtain ⟨j, p⟩ := a; cases j <;> simp [jsonOps, JsonA.asObject]
  asList a ae e _ := by
    obtain ⟨j, p⟩ := a
    cases j <;> simp [jsonOps, JsonA.asList]
    split <;> simp
  asString a e _ := by obtain ⟨j, p⟩ := a; cases j <;> simp [jsonOps, JsonA.asString]
  asBool a e _ := by obtain ⟨j, p⟩ := a; cases j <;> simp [jsonOps, JsonA.asBool]
  modelType a e _ := by
    obtain ⟨j, p⟩ := a
    cases j <;> simp only [jsonOps, JsonA.modelType, ne_eq, reduceCtorEq, not_false_eq_true, Except.error.injEq]
    split <;> simp

/-! ## simulation -/

/-- the same messages in another order -/
def ResEq (r r' : Res Note) : Prop := r.msg = r'.msg ∧ r.level = r'.level ∧ r.subs.Perm r'.subs

theorem ResEq.refl (r : Res Note) : ResEq r r := ⟨rfl, rfl, .refl _⟩
theorem ResEq.ok {r r' : Res Note} (h : ResEq r r') : r.ok = r'.ok := by simp [Res.ok, h.2.1]
theorem ResEq.append {r r' : Res Note} (h : ResEq r r') (s : Res Note) : ResEq (r.append s) (r'.append s) :=
  ⟨h.1, by simp [h.2.1], by simpa using h.2.2.append_right [s]⟩
theorem ResEq.report {r r' : Res Note} (h : ResEq r r') (k p) : ResEq (report k p r) (report k p r') := h.append _

def RelL (R : A → A → Prop) : List A → List A → Prop
  | [], [] => True
  | a :: as, b :: bs => R a b ∧ RelL R as bs
  | _, _ => False

def RelO (R : A → A → Prop) : Option A → Option A → Prop
  | none, none => True
  | some a, some b => R a b
  | _, _ => False

def RelE {ε α : Type} (R : α → α → Prop) : Except ε α → Except ε α → Prop
  | .error e, .error e' => e = e'
  | .ok a, .ok b => R a b
  | _, _ => False

/-- related adapters behave the same, up to the order of members -/
structure Ops.Sim (ops : Ops A) (R : A → A → Prop) : Prop where
  path : ∀ a b, R a b → ops.path a = ops.path b
  asString : ∀ a b, R a b → ops.asString a = ops.asString b
  asBool : ∀ a b, R a b → ops.asBool a = ops.asBool b
  modelType : ∀ a b, R a b → ops.modelType a = ops.modelType b
  asList : ∀ a b ae, R a b → RelE (RelL R) (ops.asList a ae) (ops.asList b ae)
  asObject : ∀ a b, R a b → RelE (fun o o' => (∀ k, RelO R (dictGet k o) (dictGet k o')) ∧ (o.map (·.1)).Perm (o'.map (·.1)))
    (ops.asObject a) (ops.asObject b)

/-- the same value, the same messages up to their order -/
abbrev SameOut {α : Type} (x y : Except PyExc (α × Res Note)) : Prop := RelE (fun p q => p.1 = q.1 ∧ ResEq p.2 q.2) x y

theorem parseItems_sim (R : A → A → Prop) (rec rec' : A → P (Val C E S F))
    (h : ∀ a b, R a b → ∀ r r', ResEq r r' → SameOut (rec a r) (rec' b r')) : ∀ as bs, RelL R as bs → ∀ r r', ResEq r r' →
    SameOut (parseItems rec as r) (parseItems rec' bs r')
  | [], [], _, _, _, hr => ⟨rfl, hr⟩
  | [], _ :: _, hR, _, _, _ => hR.elim
  | _ :: _, [], hR, _, _, _ => hR.elim
  | a :: as, b :: bs, hR, r, r', hr => by
    have h1 := h a b hR.1 r r' hr
    have ih := parseItems_sim R rec rec' h as bs hR.2
    unfold parseItems
    cases hx : rec a r with
    | error e =>
      cases hy : rec' b r' with
      | error e' => rw [hx, hy] at h1; exact h1
      | ok q => rw [hx, hy] at h1; exact h1.elim
    | ok p =>
      cases hy : rec' b r' with
      | error e' => rw [hx, hy] at h1; exact h1.elim
      | ok q =>
        rw [hx, hy] at h1
        obtain ⟨v, r1⟩ := p
        obtain ⟨v', r1'⟩ := q
        obtain ⟨rfl, hr1⟩ : v = v' ∧ ResEq r1 r1' := h1
        have h2 := ih r1 r1' hr1
        simp only
        cases hx : parseItems rec as r1 with
        | error e =>
          cases hy : parseItems rec' bs r1' with
          | error e' => rw [hx, hy] at h2; exact h2
          | ok q => rw [hx, hy] at h2; exact h2.elim
        | ok p =>
          cases hy : parseItems rec' bs r1' with
          | error e' => rw [hx, hy] at h2; exact h2.elim
          | ok q =>
            rw [hx, hy] at h2
            exact ⟨by simp [h2.1], h2.2⟩

theorem parseFields_sim (R : A → A → Prop) (rec rec' : Ty C E S → A → P (Val C E S F))
    (h : ∀ ty a b, R a b → ∀ r r', ResEq r r' → SameOut (rec ty a r) (rec' ty b r')) (o o' : List (Str × A))
    (ho : ∀ k, RelO R (dictGet k o) (dictGet k o')) (p : List PTok) : ∀ (fs : List (Field C E S F)) (r r'), ResEq r r' →
    SameOut (parseFields rec o p fs r) (parseFields rec' o' p fs r')
  | [], r, r', hr => ⟨rfl, hr⟩
  | ⟨f, .excluded⟩ :: fs, r, r', hr => by
    have ih := parseFields_sim R rec rec' h o o' ho p fs r r' hr
    unfold parseFields
    cases hx : parseFields rec o p fs r with
    | error e =>
      cases hy : parseFields rec' o' p fs r' with
      | error e' => rw [hx, hy] at ih; exact ih
      | ok q => rw [hx, hy] at ih; exact ih.elim
    | ok q =>
      cases hy : parseFields rec' o' p fs r' with
      | error e' => rw [hx, hy] at ih; exact ih.elim
      | ok q => rw [hx, hy] at ih; exact ⟨by simp [ih.1], ih.2⟩
  | ⟨f, .attr key ty req⟩ :: fs, r, r', hr => by
    have ih := parseFields_sim R rec rec' h o o' ho p fs
    have h1 : SameOut (parseField rec o p key ty req r) (parseField rec' o' p key ty req r') := by
      unfold parseField
      have hk := ho key
      cases hx : dictGet key o with
      | none =>
        cases hy : dictGet key o' with
        | none => cases req <;> exact ⟨rfl, by first | exact hr | exact hr.report _ _⟩
        | some b => rw [hx, hy] at hk; exact hk.elim
      | some a =>
        cases hy : dictGet key o' with
        | none => rw [hx, hy] at hk; exact hk.elim
        | some b => rw [hx, hy] at hk; exact h ty a b hk r r' hr
    unfold parseFields
    cases hx : parseField rec o p key ty req r with
    | error e =>
      cases hy : parseField rec' o' p key ty req r' with
      | error e' => rw [hx, hy] at h1; exact h1
      | ok q => rw [hx, hy] at h1; exact h1.elim
    | ok x =>
      cases hy : parseField rec' o' p key ty req r' with
      | error e' => rw [hx, hy] at h1; exact h1.elim
      | ok y =>
        rw [hx, hy] at h1
        obtain ⟨v, r1⟩ := x
        obtain ⟨v', r1'⟩ := y
        obtain ⟨rfl, hr1⟩ : v = v' ∧ ResEq r1 r1' := h1
        have h2 := ih r1 r1' hr1
        simp only
        cases hx : parseFields rec o p fs r1 with
        | error e =>
          cases hy : parseFields rec' o' p fs r1' with
          | error e' => rw [hx, hy] at h2; exact h2
          | ok q => rw [hx, hy] at h2; exact h2.elim
        | ok q =>
          cases hy : parseFields rec' o' p fs r1' with
          | error e' => rw [hx, hy] at h2; exact h2.elim
          | ok q => rw [hx, hy] at h2; exact ⟨by simp [h2.1], h2.2⟩

theorem or_error_comm (l : Level) : (l.or .error).or .error = l.or .error := by cases l <;> rfl

theorem appendAll_errs_level (r : Res Note) (ns : List Note) :
    (r.appendAll (errs ns)).level = if ns = [] then r.level else r.level.or .error := by
  induction ns generalizing r with
  | nil => simp [errs, appendAll_nil]
  | cons n ns ih =>
    simp only [errs, List.map_cons, appendAll_cons] at ih ⊢
    rw [ih]
    cases ns with
    | nil => simp [Res.new, Res.level, Res.append]
    | cons => simpa [Res.append, Res.level, Res.new] using or_error_comm _

theorem ResEq.appendAll {r r' : Res Note} (h : ResEq r r') {ns ns' : List Note} (hp : ns.Perm ns') :
    ResEq (r.appendAll (errs ns)) (r'.appendAll (errs ns')) := by
  refine ⟨by simp [appendAll_msg, h.1], ?_, ?_⟩
  · rw [appendAll_errs_level, appendAll_errs_level, h.2.1]
    have : ns = [] ↔ ns' = [] := ⟨fun e => by subst e; exact List.nil_perm.mp hp, fun e => by subst e; exact List.perm_nil.mp hp⟩
    simp [this]
  · rw [appendAll_subs, appendAll_subs]
    exact h.2.2.append (hp.map _)

theorem reportUnknown_sim (keys : List Str) (p : List PTok) (o o' : List (Str × A)) (h : (o.map (·.1)).Perm (o'.map (·.1)))
    (r r' : Res Note) (hr : ResEq r r') : ResEq (reportUnknown keys p o r) (reportUnknown keys p o' r') := by
  rw [reportUnknown_eq, reportUnknown_eq]
  refine hr.appendAll ?_
  have e : ∀ o : List (Str × A), (o.filter (fun e => !keys.contains e.1)).map (fun e => (⟨.unknownAttribute e.1, p⟩ : Note)) =
      ((o.map (·.1)).filter (fun k => !keys.contains k)).map (fun k => ⟨.unknownAttribute k, p⟩) := by
    intro o
    rw [List.filter_map, List.map_map]
    rfl
  rw [e, e]
  exact (h.filter _).map _

theorem parseConcrete_sim (ops : Ops A) (R : A → A → Prop) (hR : ops.Sim R) (sc : Schema C E S F)
    (rec rec' : Ty C E S → A → P (Val C E S F))
    (h : ∀ ty a b, R a b → ∀ r r', ResEq r r' → SameOut (rec ty a r) (rec' ty b r')) (c : C) (a b : A) (hab : R a b) (r r')
    (hr : ResEq r r') : SameOut (parseConcrete ops sc rec c a r) (parseConcrete ops sc rec' c b r') := by
  have ho := hR.asObject a b hab
  unfold parseConcrete
  rw [hR.path a b hab]
  cases hx : ops.asObject a with
  | error e =>
    cases hy : ops.asObject b with
    | ok o => rw [hx, hy] at ho; exact ho.elim
    | error e' =>
      rw [hx, hy] at ho
      obtain rfl : e = e' := ho
      cases e with
      | adapter k => exact ⟨rfl, hr.report _ _⟩
      | py e => exact (rfl : e = e)
  | ok o =>
    cases hy : ops.asObject b with
    | error e => rw [hx, hy] at ho; exact ho.elim
    | ok o' =>
      rw [hx, hy] at ho
      obtain ⟨ho, hp⟩ := ho
      have hm : RelE ResEq (checkModelType ops sc c a r) (checkModelType ops sc c b r') := by
        unfold checkModelType
        rw [hR.modelType a b hab, hR.path a b hab]
        split
        · cases ops.modelType b with
          | error e =>
            cases e with
            | adapter k => exact hr.report _ _
            | py e => exact (rfl : e = e)
          | ok d =>
            simp only
            split
            · exact hr
            · exact hr.report _ _
        · exact hr
      simp only
      cases hx : checkModelType ops sc c a r with
      | error e =>
        cases hy : checkModelType ops sc c b r' with
        | error e' => rw [hx, hy] at hm; exact hm
        | ok q => rw [hx, hy] at hm; exact hm.elim
      | ok r1 =>
        cases hy : checkModelType ops sc c b r' with
        | error e' => rw [hx, hy] at hm; exact hm.elim
        | ok r1' =>
          rw [hx, hy] at hm
          have h2 := parseFields_sim R rec rec' h o o' ho (ops.path b) (sc.fields c) r1 r1' hm
          simp only
          cases hx : parseFields rec o (ops.path b) (sc.fields c) r1 with
          | error e =>
            cases hy : parseFields rec' o' (ops.path b) (sc.fields c) r1' with
            | error e' => rw [hx, hy] at h2; exact h2
            | ok q => rw [hx, hy] at h2; exact h2.elim
          | ok q =>
            cases hy : parseFields rec' o' (ops.path b) (sc.fields c) r1' with
            | error e' => rw [hx, hy] at h2; exact h2.elim
            | ok q' =>
              rw [hx, hy] at h2
              exact ⟨by simp [h2.1], reportUnknown_sim _ _ _ _ hp _ _ h2.2⟩

theorem parseF_sim (ops : Ops A) (R : A → A → Prop) (hR : ops.Sim R) (sc : Schema C E S F) : ∀ (n : Nat) (ty : Ty C E S) (a b : A),
    R a b → ∀ r r', ResEq r r' → SameOut (parseF ops sc n ty a r) (parseF ops sc n ty b r')
  | 0, _, _, _, _, _, _, _ => (rfl : PyExc.runtimeError = _)
  | n + 1, ty, a, b, hab, r, r', hr => by
    have ih := parseF_sim ops R hR sc n
    unfold parseF
    have hpath := hR.path a b hab
    cases ty with
    | none => exact (rfl : PyExc.notImplementedError = _)
    | number => exact (rfl : PyExc.notImplementedError = _)
    | bytes => exact (rfl : PyExc.notImplementedError = _)
    | any => exact ⟨rfl, hr⟩
    | str =>
      simp only [parseString, hR.asString a b hab, hpath]
      cases ops.asString b with
      | error e =>
        cases e with
        | adapter k => exact ⟨rfl, hr.report _ _⟩
        | py e => exact (rfl : e = e)
      | ok s => exact ⟨rfl, hr⟩
    | bool =>
      simp only [parseBool, hR.asBool a b hab, hpath]
      cases ops.asBool b with
      | error e =>
        cases e with
        | adapter k => exact ⟨rfl, hr.report _ _⟩
        | py e => exact (rfl : e = e)
      | ok s => exact ⟨rfl, hr⟩
    | enum e =>
      simp only [parseEnum, hR.asString a b hab, hpath]
      cases ops.asString b with
      | error e =>
        cases e with
        | adapter k => exact ⟨rfl, hr.report _ _⟩
        | py e => exact (rfl : e = e)
      | ok s =>
        simp only
        split
        · exact ⟨rfl, hr⟩
        · exact ⟨rfl, hr.report _ _⟩
    | sfv c =>
      simp only [parseSfv, hR.asString a b hab, hpath]
      have hpy : ∀ e : PyExc, SameOut
          (match e with
            | .valueError => .ok (.invalid, report .format (ops.path b) r)
            | e => .error e : Except PyExc (Val C E S F × Res Note))
          (match e with
            | .valueError => .ok (.invalid, report .format (ops.path b) r')
            | e => .error e : Except PyExc (Val C E S F × Res Note)) := by
        intro e
        cases e with
        | valueError => exact ⟨rfl, hr.report _ _⟩
        | _ => exact rfl
      cases ops.asString b with
      | error e =>
        cases e with
        | adapter k => exact ⟨rfl, hr.report _ _⟩
        | py e => have := hpy e; cases e <;> exact this
      | ok s =>
        simp only
        cases sc.construct c s with
        | ok u => exact ⟨rfl, hr⟩
        | error e => have := hpy e; cases e <;> exact this
    | list it ae =>
      have hl := hR.asList a b ae hab
      simp only [parseList, hpath]
      cases hx : ops.asList a ae with
      | error e =>
        cases hy : ops.asList b ae with
        | ok o => rw [hx, hy] at hl; exact hl.elim
        | error e' =>
          rw [hx, hy] at hl
          obtain rfl : e = e' := hl
          cases e with
          | adapter k => exact ⟨rfl, hr.report _ _⟩
          | py e => exact (rfl : e = e)
      | ok as =>
        cases hy : ops.asList b ae with
        | error e => rw [hx, hy] at hl; exact hl.elim
        | ok bs =>
          rw [hx, hy] at hl
          have h2 := parseItems_sim R (parseF ops sc n it) (parseF ops sc n it) (ih it) as bs hl r r' hr
          simp only
          cases hx : parseItems (parseF ops sc n it) as r with
          | error e =>
            cases hy : parseItems (parseF ops sc n it) bs r' with
            | error e' => rw [hx, hy] at h2; exact h2
            | ok q => rw [hx, hy] at h2; exact h2.elim
          | ok q =>
            cases hy : parseItems (parseF ops sc n it) bs r' with
            | error e' => rw [hx, hy] at h2; exact h2.elim
            | ok q' => rw [hx, hy] at h2; exact ⟨by simp [h2.1], h2.2⟩
    | cls c =>
      have hc := fun c => parseConcrete_sim ops R hR sc (parseF ops sc n) (parseF ops sc n) ih c a b hab r r' hr
      simp only
      split
      · simp only [parseAbstract, hR.modelType a b hab, hpath]
        cases ops.modelType b with
        | error e =>
          cases e with
          | adapter k => exact ⟨rfl, hr.report _ _⟩
          | py e => exact (rfl : e = e)
        | ok d =>
          simp only
          cases (sc.subclasses c).find? (fun s => decide (d = some (sc.className s))) with
          | none => exact ⟨rfl, hr.report _ _⟩
          | some s => exact hc s
      · have h2 := hc c
        cases hx : parseConcrete ops sc (parseF ops sc n) c a r with
        | error e =>
          cases hy : parseConcrete ops sc (parseF ops sc n) c b r' with
          | error e' => rw [hx, hy] at h2; exact h2
          | ok q => rw [hx, hy] at h2; exact h2.elim
        | ok q =>
          cases hy : parseConcrete ops sc (parseF ops sc n) c b r' with
          | error e' => rw [hx, hy] at h2; exact h2.elim
          | ok q' =>
            rw [hx, hy] at h2
            obtain ⟨v, r1⟩ := q
            obtain ⟨v', r1'⟩ := q'
            obtain ⟨rfl, hr1⟩ : v = v' ∧ ResEq r1 r1' := h2
            simp only [runPostParse]
            cases v with
            | obj c' attrs =>
              simp only
              cases sc.postParse c' with
              | none => exact ⟨rfl, hr1⟩
              | some f =>
                simp only [hr1.ok]
                split
                · cases f (.obj c' attrs) with
                  | error e => exact (rfl : e = e)
                  | ok w => exact ⟨rfl, hr1⟩
                · exact ⟨rfl, hr1⟩
            | _ => exact ⟨rfl, hr1⟩

end
end Verif.Parse
