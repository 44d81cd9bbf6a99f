import Verif.Spec.Levels
import Verif.ParseXml4

/-! # Nested calls of the parser -/

namespace Verif.Parse
open Verif Verif.Spec.Parse Verif.Spec.Levels

section
variable {A C E S F : Type}

/-! ## a limit, whatever the document -/

/-- RecursionError, or the same -/
def Lim {α : Type} (x y : Except PyExc α) : Prop := x = .error .runtimeError ∨ x = y

theorem Lim.refl {α : Type} (x : Except PyExc α) : Lim x x := .inr rfl

theorem parseItems_lim {f g : A → P (Val C E S F)} (h : ∀ a res, Lim (f a res) (g a res)) :
    ∀ as res, Lim (parseItems f as res) (parseItems g as res)
  | [], res => .refl _
  | a :: as, res => by
    unfold parseItems
    rcases h a res with e | e
    · rw [e]; exact .inl rfl
    · rw [e]
      cases g a res with
      | error e => exact .refl _
      | ok q =>
        dsimp only
        rcases parseItems_lim h as q.2 with e | e
        · rw [e]; exact .inl rfl
        · rw [e]; exact .refl _

theorem parseList_lim {ops : Ops A} {f g : A → P (Val C E S F)} (h : ∀ a res, Lim (f a res) (g a res)) (a ae res) :
    Lim (parseList ops f a ae res) (parseList ops g a ae res) := by
  unfold parseList
  cases ops.asList a ae with
  | error e => cases e <;> exact .refl _
  | ok items =>
    dsimp only
    rcases parseItems_lim h items res with e | e
    · rw [e]; exact .inl rfl
    · rw [e]; exact .refl _

theorem parseFields_lim {f g : Ty C E S → A → P (Val C E S F)} (h : ∀ ty a res, Lim (f ty a res) (g ty a res)) (obj : List (Str × A)) (p : List PTok) :
    ∀ fs res, Lim (parseFields f obj p fs res) (parseFields g obj p fs res)
  | [], res => .refl _
  | ⟨name, .excluded⟩ :: fs, res => by
    unfold parseFields
    rcases parseFields_lim h obj p fs res with e | e
    · rw [e]; exact .inl rfl
    · rw [e]; exact .refl _
  | ⟨name, .attr key ty req⟩ :: fs, res => by
    unfold parseFields
    have hf : Lim (parseField f obj p key ty req res) (parseField g obj p key ty req res) := by
      unfold parseField
      cases dictGet key obj with
      | none => exact .refl _
      | some a => exact h ty a res
    rcases hf with e | e
    · rw [e]; exact .inl rfl
    · rw [e]
      cases parseField g obj p key ty req res with
      | error e => exact .refl _
      | ok q =>
        dsimp only
        rcases parseFields_lim h obj p fs q.2 with e | e
        · rw [e]; exact .inl rfl
        · rw [e]; exact .refl _

theorem parseConcrete_lim {ops : Ops A} {sc : Schema C E S F} {f g : Ty C E S → A → P (Val C E S F)} (h : ∀ ty a res, Lim (f ty a res) (g ty a res))
    (c a res) : Lim (parseConcrete ops sc f c a res) (parseConcrete ops sc g c a res) := by
  unfold parseConcrete
  cases ops.asObject a with
  | error e => cases e <;> exact .refl _
  | ok obj =>
    dsimp only
    cases checkModelType ops sc c a res with
    | error e => exact .refl _
    | ok res =>
      dsimp only
      rcases parseFields_lim h obj (ops.path a) (sc.fields c) res with e | e
      · rw [e]; exact .inl rfl
      · rw [e]; exact .refl _

theorem parseAbstract_lim {ops : Ops A} {sc : Schema C E S F} {f g : Ty C E S → A → P (Val C E S F)} (h : ∀ ty a res, Lim (f ty a res) (g ty a res))
    (c a res) : Lim (parseAbstract ops sc f c a res) (parseAbstract ops sc g c a res) := by
  unfold parseAbstract
  cases ops.modelType a with
  | error e => cases e <;> exact .refl _
  | ok d =>
    dsimp only
    cases (sc.subclasses c).find? (fun s => decide (d = some (sc.className s))) with
    | none => exact .refl _
    | some s => exact parseConcrete_lim h s a res

theorem parseF_lim (ops : Ops A) (sc : Schema C E S F) : ∀ (n m : Nat), n ≤ m → ∀ ty a res, Lim (parseF ops sc n ty a res) (parseF ops sc m ty a res)
  | 0, _, _, _, _, _ => .inl rfl
  | n + 1, 0, h, _, _, _ => absurd h (by omega)
  | n + 1, m + 1, h, ty, a, res => by
    have ih := parseF_lim ops sc n m (by omega)
    unfold parseF
    cases ty with
    | list it ae => exact parseList_lim (ih it) a ae res
    | cls c =>
      dsimp only
      split
      · exact parseAbstract_lim ih c a res
      · rcases parseConcrete_lim (ops := ops) (sc := sc) ih c a res with e | e
        · rw [e]; exact .inl rfl
        · rw [e]; exact .refl _
    | _ => exact .refl _

/-! ## how many levels an accepted document needs -/

theorem ofVal_strip : ∀ v : Val C E S F, ofVal (strip v) = ofVal v := by
  intro v
  refine Val.rec (motive_1 := fun v => ofVal (strip v) = ofVal v) (motive_2 := fun l => ofVals (strip.stripL l) = ofVals l)
    (motive_3 := fun l => ofAttrs (strip.stripA l) = ofAttrs l) (motive_4 := fun a => ofVal (strip a.2) = ofVal a.2)
    ?_ ?_ ?_ ?_ ?_ ?_ ?_ ?_ ?_ ?_ ?_ ?_ ?_ ?_ ?_ v
  all_goals first
    | (intros; simp_all [strip, strip.stripL, strip.stripA, ofVal, ofVals, ofAttrs]; done)
    | skip

/-- the outcome with a limit, where `k` levels are needed -/
def limited {α : Type} (k n : Nat) (x : α) (res : Res Note) : Except PyExc (α × Res Note) := if k ≤ n then .ok (x, res) else .error .runtimeError

theorem limited_max {α : Type} {k l n : Nat} {x : α} {res : Res Note} : limited (max k l) n x res = if k ≤ n then limited l n x res else .error .runtimeError := by
  unfold limited
  by_cases h1 : k ≤ n <;> by_cases h2 : l ≤ n <;> simp [h1, h2, Nat.max_le]

theorem known_unreported {obj : List (Str × A)} {keys : List Str} {p : List PTok} (h : ∀ e ∈ obj, e.1 ∈ keys) : ∀ res, reportUnknown keys p obj res = res := by
  induction obj with
  | nil => intro res; rfl
  | cons e obj ih =>
    intro res
    obtain ⟨k, a⟩ := e
    have hk : keys.contains k = true := by simpa using h (k, a) List.mem_cons_self
    rw [reportUnknown, if_pos hk]
    exact ih (fun e he => h e (List.mem_cons_of_mem _ he)) res

theorem Read.limit {ops : Ops A} {sc : Schema C E S F} (hs : Sane sc) (he : ∀ a as, ops.asList a false = .ok as → as ≠ []) {ty a v} (h : Read ops sc ty a v) :
    ∀ n res, res.ok = true → parseF ops sc n ty a res = limited (ofVal v) n v res := by
  have succ : ∀ {k n : Nat} {α : Type} {x : α} {res : Res Note}, limited (k + 1) (n + 1) x res = limited k n x res := by
    intro k n α x res; simp [limited]
  have zero : ∀ {k : Nat} {α : Type} {x : α} {res : Res Note}, limited (k + 1) 0 x res = .error .runtimeError := by
    intro k α x res; simp [limited]
  refine Read.rec (ops := ops) (sc := sc) (motive_1 := fun ty a v _ => ∀ n res, res.ok = true → parseF ops sc n ty a res = limited (ofVal v) n v res)
    (motive_2 := fun it as vs _ => ∀ n res, res.ok = true → parseItems (parseF ops sc n it) as res = limited (ofVals vs) n vs res)
    (motive_3 := fun c a v _ => (∃ attrs obj, v = .obj c attrs ∧ ReadF ops sc obj (sc.fields c) attrs) ∧
      ∀ n res, res.ok = true → parseConcrete ops sc (parseF ops sc n) c a res = limited (ofVal v) (n + 1) v res)
    (motive_4 := fun obj fs attrs _ => ∀ n res p, res.ok = true → parseFields (parseF ops sc n) obj p fs res = limited (ofAttrs attrs) n attrs res)
    ?_ ?_ ?_ ?_ ?_ ?_ ?_ ?_ ?_ ?_ ?_ ?_ ?_ ?_ ?_ h
  · intro a s h n res hr
    cases n with
    | zero => rfl
    | succ n => simp [parseF, parseString, h, limited, ofVal]
  · intro a s h n res hr
    cases n with
    | zero => rfl
    | succ n => simp [parseF, parseBool, h, limited, ofVal]
  · intro a n res hr
    cases n with
    | zero => rfl
    | succ n => simp [parseF, limited, ofVal]
  · intro a e s h h' n res hr
    cases n with
    | zero => rfl
    | succ n =>
      have : (sc.enumValues e).contains s = true := by simpa using h'
      simp only [parseF, parseEnum, h, this]
      simp [limited, ofVal]
  · intro a e s h h' n res hr
    cases n with
    | zero => rfl
    | succ n => simp [parseF, parseSfv, h, h', limited, ofVal]
  · intro a as it ae vs h _ ih n res hr
    cases n with
    | zero => rfl
    | succ n =>
      simp only [parseF, parseList, h, ofVal, succ]
      rw [ih n res hr]
      unfold limited
      by_cases hk : ofVals vs ≤ n <;> simp [hk]
  · rintro a c v w hab _ hp ⟨⟨attrs, obj, rfl, hf⟩, ih⟩ n res hr
    have ht : HasType sc (.cls c) (.obj c attrs) := hasType_obj.mpr ⟨.inl ⟨hab, rfl⟩, ReadF.typed hs he hf⟩
    have hlev : ofVal w = ofVal (.obj c attrs) := by
      unfold Post at hp
      cases hpp : sc.postParse c with
      | none => simp only [hpp] at hp; rw [hp]
      | some f =>
        simp only [hpp] at hp
        obtain ⟨w', h1, -, h2⟩ := hs.post c f _ hpp ht
        rw [hp] at h1
        cases h1
        rw [← ofVal_strip, h2, ofVal_strip]
    rw [hlev]
    cases n with
    | zero => simp only [ofVal, zero]; rfl
    | succ n =>
      simp only [parseF, hab, Bool.false_eq_true, if_false]
      rw [ih n res hr]
      by_cases hk : ofVal (.obj c attrs) ≤ n + 1
      · simp only [limited, hk, if_true, runPostParse]
        unfold Post at hp
        cases hpp : sc.postParse c with
        | none => simp only [hpp] at hp ⊢; rw [hp]
        | some f => simp only [hpp] at hp ⊢; rw [if_pos hr, hp]
      · simp only [limited, hk, if_false]
  · rintro a c c' d v hab hm hf _ ⟨⟨attrs, obj, rfl, -⟩, ih⟩ n res hr
    cases n with
    | zero => simp only [ofVal, zero]; rfl
    | succ n =>
      simp only [parseF, hab, if_true, parseAbstract, hm, hf]
      exact ih n res hr
  · intro it n res hr
    simp [parseItems, limited, ofVals]
  · intro it a as v vs _ _ ih1 ih2 n res hr
    simp only [parseItems, ofVals, limited_max]
    rw [ih1 n res hr]
    by_cases hk : ofVal v ≤ n
    · simp only [limited, hk, if_true]
      rw [ih2 n res hr]
      by_cases hk' : ofVals vs ≤ n <;> simp only [limited, hk', if_true, if_false]
    · simp only [limited, hk, if_false]
  · intro c a obj attrs ho hm hk hr ih
    refine ⟨⟨attrs, obj, rfl, hr⟩, fun n res hok => ?_⟩
    have hc : checkModelType ops sc c a res = .ok res := by
      unfold checkModelType
      split
      · rename_i hn; rw [hm hn]; simp
      · rfl
    simp only [parseConcrete, ho, hc, ofVal, succ]
    rw [ih n res (ops.path a) hok]
    by_cases hl : ofAttrs attrs ≤ n
    · simp only [limited, hl, if_true]; rw [known_unreported hk]
    · simp only [limited, hl, if_false]
  · intro obj n res p hr
    simp [parseFields, limited, ofAttrs]
  · intro obj f fs attrs _ ih n res p hr
    simp only [parseFields, ofAttrs, ofVal, Nat.zero_max]
    rw [ih n res p hr]
    by_cases hl : ofAttrs attrs ≤ n <;> simp only [limited, hl, if_true, if_false]
  · intro obj f key ty fs attrs hg _ ih n res p hr
    simp only [parseFields, parseField, hg, ofAttrs, ofVal, Nat.zero_max, Bool.false_eq_true, if_false]
    rw [ih n res p hr]
    by_cases hl : ofAttrs attrs ≤ n <;> simp only [limited, hl, if_true, if_false]
  · intro obj f key ty req a v fs attrs hg _ _ ih1 ih2 n res p hr
    simp only [parseFields, parseField, hg, ofAttrs, limited_max]
    rw [ih1 n res hr]
    by_cases hk : ofVal v ≤ n
    · simp only [limited, hk, if_true]
      rw [ih2 n res p hr]
      by_cases hl : ofAttrs attrs ≤ n <;> simp only [limited, hl, if_true, if_false]
    · simp only [limited, hk, if_false]

end
end Verif.Parse
