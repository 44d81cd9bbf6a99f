import Verif.Spec.Reflect
import Verif.ParseXml2

/-! # Reflection -/

namespace Verif.Reflect
open Verif Verif.Spec.Reflect

variable {C E S : Type} {w : World C E S}

theorem unwrapForward_ok {a b : Ann C E S} : unwrapForward w a = .ok b ↔ Means w a b := by
  cases a with
  | forward n =>
    simp only [unwrapForward, Means]
    split <;> rename_i h <;> simp [h]
  | _ =>
    simp only [unwrapForward, Means]
    exact ⟨fun h => by injection h with h; exact h.symm, fun h => by rw [h]⟩

theorem unwrapForward_error {a : Ann C E S} {e} : unwrapForward w a = .error e → ¬ ∃ b, Means w a b := by
  rintro h ⟨b, hb⟩
  rw [unwrapForward_ok.mpr hb] at h
  cases h

theorem means_unique {a b b' : Ann C E S} (h : Means w a b) (h' : Means w a b') : b = b' := by
  have := unwrapForward_ok.mpr h
  rw [unwrapForward_ok.mpr h'] at this
  injection this with this
  exact this.symm

theorem unwrapOptional_eq (a : Ann C E S) : (unwrapOptional a).2 = bare a := by cases a <;> rfl

theorem unwrapOptional_required (a : Ann C E S) : (unwrapOptional a).1 = true ↔ ∀ x, a ≠ .optional x := by cases a <;> simp [unwrapOptional]

/-! ## subclasses -/

theorem collect_sound : ∀ (n : Nat) (c d : C), d ∈ collect w n c → Subclass w c d ∧ w.isAbstract d = false
  | 0, _, _, h => by simp [collect] at h
  | n + 1, c, d, h => by
    simp only [collect, List.mem_flatMap, List.mem_append] at h
    obtain ⟨i, hi, h | h⟩ := h
    · split at h
      · simp at h
      · rename_i ha
        simp only [List.mem_singleton] at h
        subst h
        exact ⟨.direct hi, by simpa using ha⟩
    · obtain ⟨h1, h2⟩ := collect_sound n i d h
      exact ⟨.deeper hi h1, h2⟩

theorem collect_complete {rank : C → Nat} (hr : ∀ c, ∀ d ∈ w.direct c, rank d < rank c) {c d : C} (h : Subclass w c d) :
    ∀ n, rank c < n → w.isAbstract d = false → d ∈ collect w n c := by
  induction h with
  | @direct c d hd =>
    intro n hn ha
    match n, hn with
    | n + 1, _ =>
      simp only [collect, List.mem_flatMap, List.mem_append]
      exact ⟨d, hd, .inl (by simp [ha])⟩
  | @deeper c d e hd _ ih =>
    intro n hn ha
    match n, hn with
    | n + 1, hn =>
      simp only [collect, List.mem_flatMap, List.mem_append]
      have := hr c d hd
      exact ⟨d, hd, .inr (ih n (by omega) ha)⟩

theorem collect_iff (hw : Grounded w) (c d : C) : d ∈ collect w w.height c ↔ Subclass w c d ∧ w.isAbstract d = false := by
  obtain ⟨rank, h1, h2⟩ := hw
  exact ⟨collect_sound _ c d, fun h => collect_complete h2 h.1 _ (h1 c) h.2⟩

/-! ## unresolved symbols -/

/-- attributes and names of excluded fields -/
def fieldsSym (w : World C E S) : List (PField C E S) → Option (List (Attribute (Ann C E S)) × List Str)
  | [] => some ([], [])
  | f :: fs =>
    if f.exclude then (fieldsSym w fs).map fun p => (p.1, f.name :: p.2)
    else match unwrapForward w (bare f.type) with
      | .error _ => none
      | .ok ty => (fieldsSym w fs).map fun p => (⟨f.name, ty, (unwrapOptional f.type).1, f.forceName⟩ :: p.1, p.2)

/-- the symbol of a type -/
def symOf (w : World C E S) : Ann C E S → Option (Sym C E S (Ann C E S))
  | .list i ae =>
    match unwrapForward w i with
    | .error _ => none
    | .ok b => some (.list b ae)
  | .none => some .none
  | .bool => some .bool
  | .str => some .str
  | .any => some .any
  | .int => some .number
  | .bytes => some .bytes
  | .enum e => some (.enum e)
  | .sfv s => some (.sfv s)
  | .cls c =>
    if w.isDataclass c then (fieldsSym w (w.fields c)).map fun p => .cls c p.1 p.2 ((collect w w.height c).map .cls)
    else none
  | _ => none

theorem fieldsSym_some : ∀ {fs : List (PField C E S)}, (∃ p, fieldsSym w fs = some p) ↔ ∀ f ∈ fs, f.exclude = false → ∃ b, Means w (bare f.type) b
  | [] => by simp [fieldsSym]
  | f :: fs => by
    have ih := fieldsSym_some (fs := fs)
    rw [fieldsSym]
    by_cases hx : f.exclude = true
    · rw [if_pos hx]
      simp only [Option.map_eq_some_iff, List.mem_cons, forall_eq_or_imp, hx, Bool.true_eq_false, false_implies, true_and]
      rw [← ih]
      constructor
      · rintro ⟨p, q, h, -⟩; exact ⟨q, h⟩
      · rintro ⟨q, h⟩; exact ⟨_, q, h, rfl⟩
    · rw [if_neg hx]
      simp only [Bool.not_eq_true] at hx
      simp only [List.mem_cons, forall_eq_or_imp, hx, forall_const]
      rw [← ih]
      split
      · rename_i e he
        have := unwrapForward_error he
        simp [this]
      · rename_i b hb
        rw [unwrapForward_ok] at hb
        simp only [Option.map_eq_some_iff]
        constructor
        · rintro ⟨p, q, h, -⟩; exact ⟨⟨b, hb⟩, q, h⟩
        · rintro ⟨-, q, h⟩; exact ⟨_, q, h, rfl⟩

theorem symOf_some {a : Ann C E S} : (∃ s, symOf w a = some s) ↔ Supported w a := by
  match a with
  | .list i ae =>
    rw [symOf, Supported]
    split
    · rename_i e he
      simp [unwrapForward_error he]
    · rename_i b hb
      exact ⟨fun _ => ⟨b, unwrapForward_ok.mp hb⟩, fun _ => ⟨_, rfl⟩⟩
  | .cls c =>
    rw [symOf, Supported, ← fieldsSym_some]
    by_cases hd : w.isDataclass c = true
    · simp only [hd, if_true, Option.map_eq_some_iff, true_and]
      exact ⟨fun ⟨_, q, h, _⟩ => ⟨q, h⟩, fun ⟨q, h⟩ => ⟨_, q, h, rfl⟩⟩
    · simp [hd]
  | .none | .bool | .str | .any | .int | .bytes | .enum _ | .sfv _ => exact ⟨fun _ => trivial, fun _ => ⟨_, rfl⟩⟩
  | .optional _ | .forward _ | .other _ => simp [symOf, Supported]

theorem attr_of_field : ∀ {fs : List (PField C E S)} {attrs : List (Attribute (Ann C E S))} {static : List Str} {f : PField C E S} {b : Ann C E S},
    fieldsSym w fs = some (attrs, static) → f ∈ fs → f.exclude = false → Means w (bare f.type) b → ∃ x ∈ attrs, w.key x.type = w.key b
  | [], _, _, _, _, _, hf, _, _ => by simp at hf
  | g :: fs, attrs, static, f, b, h, hf, hx, hm => by
    rw [fieldsSym] at h
    split at h
    · rename_i hg
      obtain ⟨p, hp, e⟩ := Option.map_eq_some_iff.mp h
      simp only [Prod.mk.injEq] at e
      obtain ⟨rfl, rfl⟩ := e
      rcases List.mem_cons.mp hf with rfl | hf
      · rw [hx] at hg; cases hg
      · exact attr_of_field hp hf hx hm
    · split at h
      · cases h
      · rename_i ty hty
        obtain ⟨p, hp, e⟩ := Option.map_eq_some_iff.mp h
        simp only [Prod.mk.injEq] at e
        obtain ⟨rfl, rfl⟩ := e
        rcases List.mem_cons.mp hf with rfl | hf
        · refine ⟨_, List.mem_cons_self, ?_⟩
          rw [means_unique (unwrapForward_ok.mp hty) hm]
        · obtain ⟨x, h1, h2⟩ := attr_of_field hp hf hx hm
          exact ⟨x, List.mem_cons_of_mem _ h1, h2⟩

/-! ## search -/

abbrev keys (t : Tbl C E S) : List Str := t.map (·.1)

/-- the types of `U` that are not yet in the table -/
def free (w : World C E S) (U : List (Ann C E S)) (t : Tbl C E S) : Nat := (U.filter fun u => decide (w.key u ∉ keys t)).length

/-- the table grew by types in `R`, each with its symbol; what they use is in the table -/
def Step (w : World C E S) (R : Ann C E S → Prop) (t t' : Tbl C E S) : Prop :=
  ∃ new, t' = t ++ new ∧ (keys t').Nodup ∧
    ∀ p ∈ new, ∃ b s, R b ∧ p = (w.key b, some s) ∧ symOf w b = some s ∧ ∀ b', Uses w b b' → w.key b' ∈ keys t'

theorem Step.refl {R : Ann C E S → Prop} {t : Tbl C E S} (h : (keys t).Nodup) : Step w R t t := ⟨[], by simp, h, by simp⟩

theorem Step.keys {R : Ann C E S → Prop} {t t' : Tbl C E S} (h : Step w R t t') {k : Str} (hk : k ∈ keys t) : k ∈ Reflect.keys t' := by
  obtain ⟨new, rfl, -⟩ := h
  simp only [Reflect.keys, List.map_append, List.mem_append]
  exact .inl hk

theorem Step.trans {R : Ann C E S → Prop} {t t' t'' : Tbl C E S} (h : Step w R t t') (h' : Step w R t' t'') : Step w R t t'' := by
  have hk := fun {k} => h'.keys (k := k)
  obtain ⟨new, rfl, hn, hp⟩ := h
  obtain ⟨new', rfl, hn', hp'⟩ := h'
  refine ⟨new ++ new', by simp, hn', fun p hpm => ?_⟩
  rcases List.mem_append.mp hpm with hm | hm
  · obtain ⟨b, s, h1, h2, h3, h4⟩ := hp p hm
    exact ⟨b, s, h1, h2, h3, fun b' hb' => hk (h4 b' hb')⟩
  · exact hp' p hm

theorem Step.mono {R R' : Ann C E S → Prop} {t t' : Tbl C E S} (h : Step w R t t') (hR : ∀ b, R b → R' b) : Step w R' t t' := by
  obtain ⟨new, h1, h2, h3⟩ := h
  refine ⟨new, h1, h2, fun p hp => ?_⟩
  obtain ⟨b, s, hb, r⟩ := h3 p hp
  exact ⟨b, s, hR b hb, r⟩

theorem Step.nodup {R : Ann C E S → Prop} {t t' : Tbl C E S} (h : Step w R t t') : (Reflect.keys t').Nodup := h.choose_spec.2.1

theorem free_le {U : List (Ann C E S)} {t t' : Tbl C E S} (h : ∀ k ∈ keys t, k ∈ keys t') : free w U t' ≤ free w U t := by
  unfold free
  induction U with
  | nil => simp
  | cons u U ih =>
    simp only [List.filter_cons, decide_eq_true_eq]
    by_cases h1 : w.key u ∈ keys t
    · simp only [h1, h _ h1, not_true_eq_false, if_false]; exact ih
    · by_cases h2 : w.key u ∈ keys t'
      · simp only [h1, h2, not_true_eq_false, if_false, not_false_eq_true, if_true, List.length_cons]; omega
      · simp only [h1, h2, not_false_eq_true, if_true, List.length_cons]; omega

theorem free_lt {U : List (Ann C E S)} {t : Tbl C E S} {a : Ann C E S} {v} (ha : a ∈ U) (h : w.key a ∉ keys t) :
    free w U (t ++ [(w.key a, v)]) < free w U t := by
  unfold free
  induction U with
  | nil => simp at ha
  | cons u U ih =>
    have hmono := free_le (w := w) (U := U) (t := t) (t' := t ++ [(w.key a, v)]) (by simp +contextual)
    unfold free at hmono
    simp only [List.filter_cons, decide_eq_true_eq]
    by_cases hu : w.key u = w.key a
    · have h1 : w.key u ∉ keys t := hu ▸ h
      have h2 : w.key u ∈ keys (t ++ [(w.key a, v)]) := by simp [keys, hu]
      simp only [h1, h2, not_true_eq_false, if_false, not_false_eq_true, if_true, List.length_cons]; omega
    · have ha' : a ∈ U := by
        rcases List.mem_cons.mp ha with rfl | h
        · exact absurd rfl hu
        · exact h
      have hiff : w.key u ∈ keys (t ++ [(w.key a, v)]) ↔ w.key u ∈ keys t := by simp [keys, hu]
      by_cases h1 : w.key u ∈ keys t
      · simp only [h1, hiff.mpr h1, not_true_eq_false, if_false]; exact ih ha'
      · have h2 : w.key u ∉ keys (t ++ [(w.key a, v)]) := fun h => h1 (hiff.mp h)
        simp only [h1, h2, not_false_eq_true, if_true, List.length_cons]
        have := ih ha'
        omega

/-- what a recursive call does -/
def Post (w : World C E S) (a : Ann C E S) (t : Tbl C E S) (x : Except PyExc (Tbl C E S)) : Prop :=
  match x with
  | .ok t' => Step w (Reachable w a) t t' ∧ w.key a ∈ keys t'
  | .error _ => ∃ b, Reachable w a b ∧ ¬ Supported w b

/-- the recursive calls are right -/
def RecOk (w : World C E S) (U : List (Ann C E S)) (n : Nat) (rec : Ann C E S → Tbl C E S → Except PyExc (Tbl C E S)) : Prop :=
  ∀ a t, (∀ b, Reachable w a b → b ∈ U) → (keys t).Nodup → free w U t < n → Post w a t (rec a t)

theorem Reachable.trans {a b c : Ann C E S} (h : Reachable w a b) (h' : Reachable w b c) : Reachable w a c := by
  induction h with
  | refl => exact h'
  | step hu _ ih => exact .step hu (ih h')

section
variable {U : List (Ann C E S)} {n : Nat} {rec : Ann C E S → Tbl C E S → Except PyExc (Tbl C E S)} (hrec : RecOk w U n rec)
include hrec

theorem fields_post {a : Ann C E S} (ha : ∀ b, Reachable w a b → b ∈ U) : ∀ (fs : List (PField C E S)) (t : Tbl C E S),
    (∀ f ∈ fs, f.exclude = false → ∀ b, Means w (bare f.type) b → Uses w a b) → (keys t).Nodup → free w U t < n →
    match reflectFields w rec fs t with
    | .ok (attrs, static, t') => fieldsSym w fs = some (attrs, static) ∧ Step w (Reachable w a) t t' ∧ ∀ x ∈ attrs, w.key x.type ∈ keys t'
    | .error _ => fieldsSym w fs = none ∨ ∃ b, Reachable w a b ∧ ¬ Supported w b
  | [], t, _, hn, _ => ⟨rfl, .refl hn, by simp⟩
  | f :: fs, t, hf, hn, hfree => by
    have ih := fun t hn hfree => fields_post ha fs t (fun f hm => hf f (by simp [hm])) hn hfree
    rw [reflectFields, fieldsSym]
    by_cases hx : f.exclude = true
    · simp only [hx, if_true, bind, Except.bind, pure, Except.pure]
      have := ih t hn hfree
      cases hr : reflectFields w rec fs t with
      | error e =>
        rw [hr] at this
        exact this.imp (fun h => by simp [h]) id
      | ok r =>
        rw [hr] at this
        exact ⟨by simp [this.1], this.2⟩
    · simp only [Bool.not_eq_true] at hx
      simp only [hx, Bool.false_eq_true, if_false, bind, Except.bind, pure, Except.pure, unwrapOptional_eq]
      cases hu : unwrapForward w (bare f.type) with
      | error e => exact .inl rfl
      | ok ty =>
        have huse := hf f (by simp) hx ty (unwrapForward_ok.mp hu)
        have hp := hrec ty t (fun b hb => ha b (.step huse hb)) hn hfree
        dsimp only
        cases hc : rec ty t with
        | error e =>
          rw [hc] at hp
          obtain ⟨b, h1, h2⟩ := hp
          exact .inr ⟨b, .step huse h1, h2⟩
        | ok t1 =>
          rw [hc] at hp
          obtain ⟨hs, hk⟩ := hp
          have := ih t1 hs.nodup (Nat.lt_of_le_of_lt (free_le fun k hk => hs.keys hk) hfree)
          dsimp only
          cases hr : reflectFields w rec fs t1 with
          | error e =>
            rw [hr] at this
            exact this.imp (fun h => by simp [h]) id
          | ok r =>
            rw [hr] at this
            obtain ⟨h1, h2, h3⟩ := this
            refine ⟨by simp [h1], (hs.mono fun b hb => .step huse hb).trans h2, ?_⟩
            intro x hx
            rcases List.mem_cons.mp hx with rfl | hx
            · exact h2.keys hk
            · exact h3 x hx

theorem subs_post {a : Ann C E S} (ha : ∀ b, Reachable w a b → b ∈ U) : ∀ (cs : List C) (t : Tbl C E S),
    (∀ c ∈ cs, Uses w a (.cls c)) → (keys t).Nodup → free w U t < n →
    match reflectSubs rec cs t with
    | .ok t' => Step w (Reachable w a) t t' ∧ ∀ c ∈ cs, w.key (.cls c) ∈ keys t'
    | .error _ => ∃ b, Reachable w a b ∧ ¬ Supported w b
  | [], t, _, hn, _ => ⟨.refl hn, by simp⟩
  | c :: cs, t, hc, hn, hfree => by
    have huse := hc c (by simp)
    have hp := hrec (.cls c) t (fun b hb => ha b (.step huse hb)) hn hfree
    rw [reflectSubs]
    simp only [bind, Except.bind]
    cases hr : rec (.cls c) t with
    | error e =>
      rw [hr] at hp
      obtain ⟨b, h1, h2⟩ := hp
      exact ⟨b, .step huse h1, h2⟩
    | ok t1 =>
      rw [hr] at hp
      obtain ⟨hs, hk⟩ := hp
      have := subs_post ha cs t1 (fun c hm => hc c (by simp [hm])) hs.nodup (Nat.lt_of_le_of_lt (free_le fun k hk => hs.keys hk) hfree)
      dsimp only
      cases hr : reflectSubs rec cs t1 with
      | error e => rw [hr] at this; exact this
      | ok t2 =>
        rw [hr] at this
        refine ⟨(hs.mono fun b hb => .step huse hb).trans this.1, fun c' hc' => ?_⟩
        rcases List.mem_cons.mp hc' with rfl | hc'
        · exact this.1.keys hk
        · exact this.2 c' hc'

theorem raw_post (hw : Grounded w) (a : Ann C E S) (ha : ∀ b, Reachable w a b → b ∈ U) (t : Tbl C E S) (hn : (keys t).Nodup)
    (hfree : free w U t < n) :
    match reflectRaw w rec a t with
    | .ok (sym, t') => symOf w a = some sym ∧ Step w (Reachable w a) t t' ∧ ∀ b, Uses w a b → w.key b ∈ keys t'
    | .error _ => ∃ b, Reachable w a b ∧ ¬ Supported w b := by
  have bad : symOf w a = none → ∃ b, Reachable w a b ∧ ¬ Supported w b := by
    intro h
    refine ⟨a, .refl, fun hs => ?_⟩
    obtain ⟨s, hs⟩ := symOf_some.mpr hs
    rw [h] at hs; cases hs
  match a with
  | .none | .bool | .str | .any | .int | .bytes | .enum _ | .sfv _ => exact ⟨rfl, .refl hn, by rintro b ⟨⟩⟩
  | .optional _ | .forward _ | .other _ => exact bad rfl
  | .list item ae =>
    rw [reflectRaw]
    simp only [bind, Except.bind, pure, Except.pure]
    cases hu : unwrapForward w item with
    | error e => exact bad (by rw [symOf, hu])
    | ok b =>
      have hm := unwrapForward_ok.mp hu
      have huse : Uses w (.list item ae) b := .item hm
      have hp := hrec b t (fun b hb => ha b (.step huse hb)) hn hfree
      dsimp only
      cases hr : rec b t with
      | error e =>
        rw [hr] at hp
        obtain ⟨x, h1, h2⟩ := hp
        exact ⟨x, .step huse h1, h2⟩
      | ok t1 =>
        rw [hr] at hp
        refine ⟨by rw [symOf, hu], hp.1.mono fun x hx => .step huse hx, ?_⟩
        rintro x ⟨h⟩
        rw [means_unique h hm]
        exact hp.2
  | .cls c =>
    rw [reflectRaw]
    by_cases hd : w.isDataclass c = true
    · simp only [hd, Bool.not_true, Bool.false_eq_true, if_false, bind, Except.bind, pure, Except.pure]
      have hf := fields_post hrec ha (w.fields c) t (fun f hf hx b hb => .attr hf hx hb) hn hfree
      cases hr : reflectFields w rec (w.fields c) t with
      | error e =>
        rw [hr] at hf
        rcases hf with hf | hf
        · exact bad (by rw [symOf, hf]; simp)
        · exact hf
      | ok r =>
        obtain ⟨attrs, static, t1⟩ := r
        rw [hr] at hf
        obtain ⟨h1, h2, h3⟩ := hf
        have hs := subs_post hrec ha (collect w w.height c) t1 (fun d hd => ((collect_iff hw c d).mp hd).elim fun a b => .sub a b) h2.nodup
          (Nat.lt_of_le_of_lt (free_le fun k hk => h2.keys hk) hfree)
        dsimp only
        cases hr : reflectSubs rec (collect w w.height c) t1 with
        | error e => rw [hr] at hs; exact hs
        | ok t2 =>
          rw [hr] at hs
          refine ⟨by rw [symOf, if_pos hd, h1]; rfl, h2.trans hs.1, ?_⟩
          intro b hb
          cases hb with
          | @attr _ f b hf hx hm =>
            obtain ⟨x, hx1, hx2⟩ := attr_of_field h1 hf hx hm
            rw [← hx2]
            exact hs.1.keys (h3 x hx1)
          | sub h1 h2 => exact hs.2 _ ((collect_iff hw c _).mpr ⟨h1, h2⟩)
    · have : w.isDataclass c = false := by simpa using hd
      simp only [this, Bool.not_false, if_true]
      exact bad (by rw [symOf, if_neg hd])
end

theorem dictSet_append {α : Type} {k : Str} {v : α} : ∀ {t : List (Str × α)}, k ∉ t.map (·.1) → Parse.XmlA.dictSet k v t = t ++ [(k, v)]
  | [], _ => rfl
  | (k', v') :: t, h => by
    simp only [List.map_cons, List.mem_cons, not_or] at h
    rw [Parse.XmlA.dictSet, if_neg (fun e => h.1 e.symm), dictSet_append h.2]
    rfl

theorem dictSet_middle {α : Type} {k : Str} {v v' : α} {new : List (Str × α)} : ∀ {t : List (Str × α)}, k ∉ t.map (·.1) →
    Parse.XmlA.dictSet k v (t ++ (k, v') :: new) = t ++ (k, v) :: new
  | [], _ => by simp [Parse.XmlA.dictSet]
  | (k', x) :: t, h => by
    simp only [List.map_cons, List.mem_cons, not_or] at h
    rw [List.cons_append, Parse.XmlA.dictSet, if_neg (fun e => h.1 e.symm), dictSet_middle h.2]
    rfl

theorem reflectF_post (hw : Grounded w) (U : List (Ann C E S)) : ∀ n, RecOk w U n (reflectF w n)
  | 0 => fun a t _ _ h => absurd h (Nat.not_lt_zero _)
  | n + 1 => by
    intro a t ha hn hfree
    rw [reflectF]
    cases hg : dictGet (w.key a) t with
    | some v => exact ⟨.refl hn, List.mem_map_of_mem (Parse.dictGet_mem hg)⟩
    | none =>
      have hk : w.key a ∉ keys t := by
        intro h
        obtain ⟨p, hp, e⟩ := List.mem_map.mp h
        rw [Parse.dictGet_eq_none] at hg
        exact hg p.2 (e ▸ hp)
      rw [dictSet_append hk]
      have hlt := free_lt (w := w) (U := U) (v := (none : Option (Sym C E S (Ann C E S)))) (ha a .refl) hk
      have hn' : (keys (t ++ [(w.key a, none)])).Nodup := by
        rw [keys, List.map_append, List.nodup_append]
        refine ⟨hn, by simp, ?_⟩
        rintro x hx y hy rfl
        simp only [List.map_cons, List.map_nil, List.mem_singleton] at hy
        exact hk (hy ▸ hx)
      have hu := raw_post (reflectF_post hw U n) hw a ha (t ++ [(w.key a, none)]) hn' (by omega)
      simp only [bind, Except.bind, pure, Except.pure]
      cases hr : reflectRaw w (reflectF w n) a (t ++ [(w.key a, none)]) with
      | error e => rw [hr] at hu; exact hu
      | ok r =>
        obtain ⟨sym, t'⟩ := r
        rw [hr] at hu
        obtain ⟨hs, ⟨new, rfl, hnd, hnew⟩, huse⟩ := hu
        dsimp only
        rw [List.append_assoc, List.singleton_append, dictSet_middle hk]
        have hkeys : keys (t ++ (w.key a, some sym) :: new) = keys (t ++ [(w.key a, none)] ++ new) := by simp [keys]
        refine ⟨⟨(w.key a, some sym) :: new, rfl, hkeys ▸ hnd, ?_⟩, by simp [keys]⟩
        rw [hkeys]
        intro p hp
        rcases List.mem_cons.mp hp with rfl | hp
        · exact ⟨a, sym, .refl, rfl, hs, huse⟩
        · exact hnew p hp

end Verif.Reflect
