import Verif.ParseXml4
import Verif.XmlAccepted
import Verif.Spec.Faults

/-! # The reports of the parser -/

namespace Verif.Parse
open Verif Verif.Spec.Parse

section
variable {A C E S F : Type}

/-- the notes that are added are exactly those in `L`, each once -/
def Adds {α : Type} (L : Note → Prop) (res : Res Note) (x : Except PyExc (α × Res Note)) : Prop :=
  ∀ v r, x = .ok (v, r) → ∃ notes, r = res.appendAll (errs notes) ∧ (∀ n, n ∈ notes ↔ L n) ∧ notes.Nodup

theorem Adds.congr {α : Type} {L L' : Note → Prop} {res : Res Note} {x : Except PyExc (α × Res Note)} (h : Adds L res x)
    (hl : ∀ n, L n ↔ L' n) : Adds L' res x := by
  rw [show L' = L from funext fun n => propext (hl n).symm]; exact h

theorem Adds.none {α : Type} {L : Note → Prop} {res : Res Note} {v : α} (h : ∀ n, ¬ L n) : Adds L res (.ok (v, res)) := by
  intro w r e
  cases e
  exact ⟨[], rfl, by simp [h], List.nodup_nil⟩

theorem Adds.one {α : Type} {L : Note → Prop} {res : Res Note} {v : α} {k : Kind} {p : List PTok} (h : ∀ n, L n ↔ n = ⟨k, p⟩) :
    Adds L res (.ok (v, report k p res)) := by
  intro w r e
  cases e
  exact ⟨[⟨k, p⟩], rfl, by simp [h], by simp⟩

theorem Adds.error {α : Type} {L : Note → Prop} {res : Res Note} {e : PyExc} : Adds (α := α) L res (.error e) := by
  intro w r h; cases h

/-- one after the other, with different notes -/
theorem Adds.seq {α β γ : Type} {L1 L2 : Note → Prop} {res : Res Note} {x : Except PyExc (α × Res Note)}
    {k : Res Note → Except PyExc (β × Res Note)} {y : Except PyExc (γ × Res Note)} (h1 : Adds L1 res x) (h2 : ∀ r, Adds L2 r (k r))
    (hd : ∀ n, L1 n → ¬ L2 n) (hy : ∀ u r, y = .ok (u, r) → ∃ v r1 w, x = .ok (v, r1) ∧ k r1 = .ok (w, r)) :
    Adds (fun n => L1 n ∨ L2 n) res y := by
  intro u r e
  obtain ⟨v, r1, w, rfl, hk⟩ := hy _ _ e
  obtain ⟨n1, rfl, h3, h4⟩ := h1 _ _ rfl
  obtain ⟨n2, rfl, h5, h6⟩ := h2 _ _ _ hk
  refine ⟨n1 ++ n2, ?_, ?_, ?_⟩
  · simp [errs, Res.appendAll, List.foldl_append]
  · intro n; rw [List.mem_append, h3, h5]
  · rw [List.nodup_append]
    refine ⟨h4, h6, fun a ha b hb e => ?_⟩
    subst e
    exact hd a ((h3 a).mp ha) ((h5 a).mp hb)

/-- the class that is read -/
def Chosen (ops : Ops A) (sc : Schema C E S F) (c : C) (a : A) (c' : C) : Prop :=
  (sc.abstract c = false ∧ c' = c) ∨ (sc.abstract c = true ∧ ∃ d, ops.modelType a = .ok d ∧
    (sc.subclasses c).find? (fun s => decide (d = some (sc.className s))) = some c')

mutual
/-- mistakes in terms of the adapter -/
inductive GFault (ops : Ops A) (sc : Schema C E S F) : Ty C E S → A → Note → Prop
  | string {ty a k} : Textual ty → ops.asString a = .error (.adapter k) → GFault ops sc ty a ⟨k, ops.path a⟩
  | sfv {c a} : ops.asString a = .error (.py .valueError) → GFault ops sc (.sfv c) a ⟨.format, ops.path a⟩
  | format {c a s} : ops.asString a = .ok s → sc.construct c s = .error .valueError → GFault ops sc (.sfv c) a ⟨.format, ops.path a⟩
  | enum {e a s} : ops.asString a = .ok s → s ∉ sc.enumValues e → GFault ops sc (.enum e) a ⟨.notInEnum, ops.path a⟩
  | bool {a k} : ops.asBool a = .error (.adapter k) → GFault ops sc .bool a ⟨k, ops.path a⟩
  | list {it ae a k} : ops.asList a ae = .error (.adapter k) → GFault ops sc (.list it ae) a ⟨k, ops.path a⟩
  | item {it ae a as b n} : ops.asList a ae = .ok as → b ∈ as → GFault ops sc it b n → GFault ops sc (.list it ae) a n
  | noType {c a k} : sc.abstract c = true → ops.modelType a = .error (.adapter k) → GFault ops sc (.cls c) a ⟨k, ops.path a⟩
  | badType {c a d} : sc.abstract c = true → ops.modelType a = .ok d → (sc.subclasses c).find? (fun s => decide (d = some (sc.className s))) = none →
      GFault ops sc (.cls c) a ⟨.invalidModelType, ops.path a⟩
  | cls {c c' a n} : Chosen ops sc c a c' → GObj ops sc c' a n → GFault ops sc (.cls c) a n
inductive GObj (ops : Ops A) (sc : Schema C E S F) : C → A → Note → Prop
  | object {c a k} : ops.asObject a = .error (.adapter k) → GObj ops sc c a ⟨k, ops.path a⟩
  | noType {c a obj k} : ops.asObject a = .ok obj → sc.needsModelType c = true → ops.modelType a = .error (.adapter k) →
      GObj ops sc c a ⟨.missingModelType, ops.path a⟩
  | wrongType {c a obj d} : ops.asObject a = .ok obj → sc.needsModelType c = true → ops.modelType a = .ok d → d ≠ some (sc.className c) →
      GObj ops sc c a ⟨.wrongModelType, ops.path a⟩
  | missing {c a obj f key ty} : ops.asObject a = .ok obj → ⟨f, .attr key ty true⟩ ∈ sc.fields c → dictGet key obj = none →
      GObj ops sc c a ⟨.missingAttribute key, ops.path a⟩
  | value {c a obj f key ty req b n} : ops.asObject a = .ok obj → ⟨f, .attr key ty req⟩ ∈ sc.fields c → dictGet key obj = some b →
      GFault ops sc ty b n → GObj ops sc c a n
  | unknown {c a obj e} : ops.asObject a = .ok obj → e ∈ obj → e.1 ∉ allKeys (sc.fields c) → GObj ops sc c a ⟨.unknownAttribute e.1, ops.path a⟩
end

/-- parts have paths of their own -/
structure Ops.Places (ops : Ops A) (inv : A → Prop) : Prop where
  object : ∀ a obj, inv a → ops.asObject a = .ok obj → (obj.map (·.1)).Nodup ∧ ∀ e ∈ obj, ops.path e.2 = ops.path a ++ [.key e.1] ∧ inv e.2
  list : ∀ a ae as, inv a → ops.asList a ae = .ok as → ∀ i b, as[i]? = some b → ops.path b = ops.path a ++ [.idx i] ∧ inv b

theorem GFault.path {ops : Ops A} {inv : A → Prop} {sc : Schema C E S F} (hp : ops.Places inv) {ty a n} (h : GFault ops sc ty a n) :
    inv a → ops.path a <+: n.path := by
  refine GFault.rec (ops := ops) (sc := sc) (motive_1 := fun _ a n _ => inv a → ops.path a <+: n.path)
    (motive_2 := fun _ a n _ => inv a → ops.path a <+: n.path) ?_ ?_ ?_ ?_ ?_ ?_ ?_ ?_ ?_ ?_ ?_ ?_ ?_ ?_ ?_ ?_ h
  any_goals (intros; exact List.prefix_refl _)
  · intro it ae a as b n h1 h2 _ ih hi
    obtain ⟨i, hi'⟩ := List.getElem?_of_mem h2
    obtain ⟨h3, h4⟩ := hp.list _ _ _ hi h1 i b hi'
    have := ih h4
    rw [h3] at this
    exact (List.prefix_append _ _).trans this
  · intro c c' a n _ _ ih; exact ih
  · intro c a obj f key ty req b n h1 _ h2 _ ih hi
    obtain ⟨h3, h4⟩ := (hp.object _ _ hi h1).2 _ (dictGet_mem h2)
    have := ih h4
    rw [h3] at this
    exact (List.prefix_append _ _).trans this

theorem prefix_key {p q : List PTok} {t t' : PTok} (h : p ++ [t] <+: q) (h' : p ++ [t'] <+: q) : t = t' := by
  obtain ⟨s, rfl⟩ := h
  obtain ⟨s', e⟩ := h'
  simp only [List.append_assoc, List.append_cancel_left_eq, List.cons_append, List.cons.injEq] at e
  exact e.1.symm

theorem prefix_self {p : List PTok} {t : PTok} (h : p ++ [t] <+: p) : False := by
  have := h.length_le
  simp only [List.length_append, List.length_singleton] at this
  omega

theorem Adds.res {L L' : Note → Prop} {res : Res Note} {x : Except PyExc (Res Note)} {α : Type} {k : Res Note → Except PyExc (α × Res Note)}
    (h1 : ∀ r, x = .ok r → ∃ notes, r = res.appendAll (errs notes) ∧ (∀ n, n ∈ notes ↔ L n) ∧ notes.Nodup) (h2 : ∀ r, Adds L' r (k r))
    (hd : ∀ n, L n → ¬ L' n) {y : Except PyExc (α × Res Note)} (hy : ∀ u r, y = .ok (u, r) → ∃ r1, x = .ok r1 ∧ k r1 = .ok (u, r)) :
    Adds (fun n => L n ∨ L' n) res y := by
  refine Adds.seq (x := x.map fun r => ((), r)) (k := k) ?_ h2 hd ?_
  · intro v r e
    cases x with
    | error e' => cases e
    | ok r1 => cases e; exact h1 _ rfl
  · intro u r e
    obtain ⟨r1, rfl, h⟩ := hy _ _ e
    exact ⟨(), r1, u, rfl, h⟩

theorem unknown_notes (keys : List Str) (p : List PTok) : ∀ (obj : List (Str × A)) (res : Res Note), (obj.map (·.1)).Nodup →
    ∃ notes, reportUnknown keys p obj res = res.appendAll (errs notes) ∧
      (∀ n, n ∈ notes ↔ ∃ e ∈ obj, e.1 ∉ keys ∧ n = ⟨.unknownAttribute e.1, p⟩) ∧ notes.Nodup
  | [], res, _ => ⟨[], rfl, by simp, List.nodup_nil⟩
  | (k, a) :: obj, res, h => by
    simp only [List.map_cons, List.nodup_cons] at h
    rw [reportUnknown]
    by_cases hk : k ∈ keys
    · rw [if_pos (by simpa using hk)]
      obtain ⟨notes, h1, h2, h3⟩ := unknown_notes keys p obj res h.2
      exact ⟨notes, h1, fun n => by simp [h2, hk], h3⟩
    · rw [if_neg (by simpa using hk)]
      obtain ⟨notes, h1, h2, h3⟩ := unknown_notes keys p obj (report (.unknownAttribute k) p res) h.2
      refine ⟨⟨.unknownAttribute k, p⟩ :: notes, h1, fun n => by simp [h2, hk], ?_⟩
      rw [List.nodup_cons]
      refine ⟨fun hm => ?_, h3⟩
      obtain ⟨e, he, -, e'⟩ := (h2 _).mp hm
      simp only [Note.mk.injEq, Kind.unknownAttribute.injEq, and_true] at e'
      exact h.1 (List.mem_map.mpr ⟨e, he, e'.symm⟩)

/-- the mistakes of the attributes -/
def FieldsFault (ops : Ops A) (sc : Schema C E S F) (obj : List (Str × A)) (p : List PTok) (fs : List (Field C E S F)) (n : Note) : Prop :=
  (∃ f key ty, Field.mk f (.attr key ty true) ∈ fs ∧ dictGet key obj = none ∧ n = ⟨.missingAttribute key, p⟩) ∨
  (∃ f key ty req b, Field.mk f (.attr key ty req) ∈ fs ∧ dictGet key obj = some b ∧ GFault ops sc ty b n)

theorem parseFields_notes {ops : Ops A} {sc : Schema C E S F} {inv : A → Prop} (hp : ops.Places inv) {rec : Ty C E S → A → P (Val C E S F)}
    {obj : List (Str × A)} {p : List PTok} (hobj : ∀ e ∈ obj, ops.path e.2 = p ++ [.key e.1] ∧ inv e.2)
    (hrec : ∀ ty a res, inv a → Adds (GFault ops sc ty a) res (rec ty a res)) :
    ∀ (fs : List (Field C E S F)) (res : Res Note), (allKeys fs).Nodup → Adds (FieldsFault ops sc obj p fs) res (parseFields rec obj p fs res)
  | [], res, _ => .none (by simp [FieldsFault])
  | ⟨f, .excluded⟩ :: fs, res, h => by
    rw [parseFields]
    have ih := parseFields_notes hp hobj hrec fs res h
    intro v r e
    cases hx : parseFields rec obj p fs res with
    | error e' => rw [hx] at e; cases e
    | ok q =>
      rw [hx] at e
      cases e
      obtain ⟨notes, h1, h2, h3⟩ := ih _ _ hx
      exact ⟨notes, h1, fun n => by rw [h2]; simp [FieldsFault], h3⟩
  | ⟨f, .attr key ty req⟩ :: fs, res, h => by
    have hk : key ∉ allKeys fs ∧ (allKeys fs).Nodup := by simpa [allKeys] using h
    rw [parseFields]
    have h1 : Adds (FieldsFault ops sc obj p [⟨f, .attr key ty req⟩]) res (parseField rec obj p key ty req res) := by
      rw [parseField]
      cases hd : dictGet key obj with
      | none =>
        cases req with
        | true =>
          refine .one fun n => ⟨?_, ?_⟩
          · rintro (⟨f', key', ty', hm, -, rfl⟩ | ⟨f', key', ty', req', b, hm, hg, -⟩)
            · simp only [List.mem_singleton, Field.mk.injEq, Slot.attr.injEq] at hm
              rw [hm.2.1]
            · simp only [List.mem_singleton, Field.mk.injEq, Slot.attr.injEq] at hm
              rw [hm.2.1, hd] at hg; cases hg
          · rintro rfl; exact .inl ⟨f, key, ty, by simp, hd, rfl⟩
        | false =>
          refine .none fun n => ?_
          rintro (⟨f', key', ty', hm, -, rfl⟩ | ⟨f', key', ty', req', b, hm, hg, -⟩)
          · simp at hm
          · simp only [List.mem_singleton, Field.mk.injEq, Slot.attr.injEq] at hm
            rw [hm.2.1, hd] at hg; cases hg
      | some b =>
        refine (hrec ty b res (hobj _ (dictGet_mem hd)).2).congr fun n => ⟨fun h => .inr ⟨f, key, ty, req, b, by simp, hd, h⟩, ?_⟩
        rintro (⟨f', key', ty', hm, hn, rfl⟩ | ⟨f', key', ty', req', b', hm, hg, hf⟩)
        · simp only [List.mem_singleton, Field.mk.injEq, Slot.attr.injEq] at hm
          rw [hm.2.1, hd] at hn; cases hn
        · simp only [List.mem_singleton, Field.mk.injEq, Slot.attr.injEq] at hm
          obtain ⟨-, rfl, rfl, -⟩ := hm
          rw [hd] at hg
          cases hg
          exact hf
    have hin : ∀ f' key' ty' req', Field.mk f' (.attr key' ty' req') ∈ fs → key' ≠ key := by
      rintro f' key' ty' req' hm rfl
      exact hk.1 (List.mem_filterMap.mpr ⟨_, hm, rfl⟩)
    refine (h1.seq (fun r => parseFields_notes hp hobj hrec fs r hk.2) ?_ ?_).congr ?_
    · rintro n (⟨f1, key1, ty1, hm1, hn1, rfl⟩ | ⟨f1, key1, ty1, req1, b1, hm1, hg1, hf1⟩) (⟨f2, key2, ty2, hm2, hn2, e⟩ | ⟨f2, key2, ty2, req2, b2, hm2, hg2, hf2⟩)
      · simp only [List.mem_singleton, Field.mk.injEq, Slot.attr.injEq] at hm1
        simp only [Note.mk.injEq, Kind.missingAttribute.injEq, and_true] at e
        exact hin _ _ _ _ hm2 (by rw [← e, hm1.2.1])
      · have h3 := hobj _ (dictGet_mem hg2)
        have := hf2.path hp h3.2
        rw [h3.1] at this
        exact prefix_self this
      · have h3 := hobj _ (dictGet_mem hg1)
        have := hf1.path hp h3.2
        rw [h3.1, e] at this
        exact prefix_self this
      · simp only [List.mem_singleton, Field.mk.injEq, Slot.attr.injEq] at hm1
        have h3 := hobj _ (dictGet_mem hg1)
        have h4 := hobj _ (dictGet_mem hg2)
        have h5 := hf1.path hp h3.2
        have h6 := hf2.path hp h4.2
        rw [h3.1] at h5
        rw [h4.1] at h6
        have := prefix_key h5 h6
        simp only [PTok.key.injEq] at this
        exact hin _ _ _ _ hm2 (by rw [← this, hm1.2.1])
    · intro u r e
      split at e
      · cases e
      · split at e
        · cases e
        · cases e; exact ⟨_, _, _, ‹_›, ‹_›⟩
    · intro n
      simp only [FieldsFault, List.mem_cons, List.not_mem_nil, or_false]
      constructor
      · rintro ((⟨a, b, c, h, r⟩ | ⟨a, b, c, d, g, h, r⟩) | (⟨a, b, c, h, r⟩ | ⟨a, b, c, d, g, h, r⟩))
        · exact .inl ⟨a, b, c, .inl h, r⟩
        · exact .inr ⟨a, b, c, d, g, .inl h, r⟩
        · exact .inl ⟨a, b, c, .inr h, r⟩
        · exact .inr ⟨a, b, c, d, g, .inr h, r⟩
      · rintro (⟨a, b, c, h | h, r⟩ | ⟨a, b, c, d, g, h | h, r⟩)
        · exact .inl (.inl ⟨a, b, c, h, r⟩)
        · exact .inr (.inl ⟨a, b, c, h, r⟩)
        · exact .inl (.inr ⟨a, b, c, d, g, h, r⟩)
        · exact .inr (.inr ⟨a, b, c, d, g, h, r⟩)

theorem parseConcrete_notes {ops : Ops A} {sc : Schema C E S F} {inv : A → Prop} (hp : ops.Places inv) (hk : DistinctKeys sc)
    {rec : Ty C E S → A → P (Val C E S F)} (hrec : ∀ ty a res, inv a → Adds (GFault ops sc ty a) res (rec ty a res)) (c : C) (a : A)
    (ha : inv a) (res : Res Note) : Adds (GObj ops sc c a) res (parseConcrete ops sc rec c a res) := by
  rw [parseConcrete]
  cases ho : ops.asObject a with
  | error e =>
    cases e with
    | py e => exact .error
    | adapter k =>
      refine .one fun n => ⟨fun h => ?_, fun h => h ▸ .object ho⟩
      cases h with
      | object h => rw [ho] at h; cases h; rfl
      | noType h | wrongType h | missing h | value h | unknown h => rw [ho] at h; cases h
  | ok obj =>
    dsimp only
    obtain ⟨hnd, hobj⟩ := hp.object a obj ha ho
    have hM : ∀ r, checkModelType ops sc c a res = .ok r → ∃ notes, r = res.appendAll (errs notes) ∧ (∀ n, n ∈ notes ↔
        ((∃ k, sc.needsModelType c = true ∧ ops.modelType a = .error (.adapter k) ∧ n = ⟨.missingModelType, ops.path a⟩) ∨
         (∃ d, sc.needsModelType c = true ∧ ops.modelType a = .ok d ∧ d ≠ some (sc.className c) ∧ n = ⟨.wrongModelType, ops.path a⟩))) ∧
        notes.Nodup := by
      intro r hr
      rw [checkModelType] at hr
      by_cases hn : sc.needsModelType c = true
      · rw [if_pos hn] at hr
        cases hm : ops.modelType a with
        | error e =>
          rw [hm] at hr
          cases e with
          | py e => cases hr
          | adapter k => cases hr; exact ⟨[_], rfl, by simp [hn], by simp⟩
        | ok d =>
          rw [hm] at hr
          cases hr
          by_cases hd : d = some (sc.className c)
          · exact ⟨[], by rw [if_pos hd]; rfl, by simp [hd], by simp⟩
          · exact ⟨[⟨.wrongModelType, ops.path a⟩], by rw [if_neg hd]; rfl, by simp [hn, hd], by simp⟩
      · rw [if_neg hn] at hr
        cases hr
        exact ⟨[], rfl, by simp [hn], by simp⟩
    have hrest : ∀ res, Adds (α := Val C E S F) (fun n => FieldsFault ops sc obj (ops.path a) (sc.fields c) n ∨
        ∃ e ∈ obj, e.1 ∉ allKeys (sc.fields c) ∧ n = ⟨.unknownAttribute e.1, ops.path a⟩) res
        (match parseFields rec obj (ops.path a) (sc.fields c) res with
        | .error e => .error e
        | .ok (args, res) => .ok (.obj c args, reportUnknown (allKeys (sc.fields c)) (ops.path a) obj res)) := by
      intro res v r e
      cases hx : parseFields rec obj (ops.path a) (sc.fields c) res with
      | error e' => rw [hx] at e; cases e
      | ok q =>
        obtain ⟨args, r1⟩ := q
        rw [hx] at e
        cases e
        obtain ⟨n1, rfl, h1, h2⟩ := parseFields_notes hp hobj hrec (sc.fields c) res (hk c) _ _ hx
        obtain ⟨n2, h3, h4, h5⟩ := unknown_notes (allKeys (sc.fields c)) (ops.path a) obj (res.appendAll (errs n1)) hnd
        refine ⟨n1 ++ n2, by rw [h3, errs_append, Res.appendAll_append], fun n => by rw [List.mem_append, h1, h4], ?_⟩
        rw [List.nodup_append]
        refine ⟨h2, h5, fun x hx y hy e => ?_⟩
        subst e
        obtain ⟨e, -, -, rfl⟩ := (h4 x).mp hy
        rcases (h1 _).mp hx with ⟨f, key, ty, -, -, e⟩ | ⟨f, key, ty, req, b, -, hg, hf⟩
        · cases e
        · have h3 := hobj _ (dictGet_mem hg)
          have := hf.path hp h3.2
          rw [h3.1] at this
          exact prefix_self this
    refine (Adds.res hM hrest ?_ ?_).congr fun n => ⟨?_, ?_⟩
    · intro n hn
      have hkind : n.path = ops.path a ∧ (n.kind = .missingModelType ∨ n.kind = .wrongModelType) := by
        rcases hn with ⟨k, -, -, rfl⟩ | ⟨d, -, -, -, rfl⟩ <;> simp
      rintro ((⟨f, key, ty, -, -, rfl⟩ | ⟨f, key, ty, req, b, -, hg, hf⟩) | ⟨e, -, -, rfl⟩)
      · simp at hkind
      · have h3 := hobj _ (dictGet_mem hg)
        have := hf.path hp h3.2
        rw [h3.1, hkind.1] at this
        exact prefix_self this
      · simp at hkind
    · intro u r e
      split at e
      · cases e
      · exact ⟨_, ‹_›, e⟩
    · rintro ((⟨k, h1, h2, rfl⟩ | ⟨d, h1, h2, h3, rfl⟩) | ((⟨f, key, ty, h1, h2, rfl⟩ | ⟨f, key, ty, req, b, h1, hg, hf⟩) | ⟨e, h1, h2, rfl⟩))
      · exact .noType ho h1 h2
      · exact .wrongType ho h1 h2 h3
      · exact .missing ho h1 h2
      · exact .value ho h1 hg hf
      · exact .unknown ho h1 h2
    · intro h
      cases h with
      | object h => rw [ho] at h; cases h
      | noType h h1 h2 => exact .inl (.inl ⟨_, h1, h2, rfl⟩)
      | wrongType h h1 h2 h3 => exact .inl (.inr ⟨_, h1, h2, h3, rfl⟩)
      | missing h h1 h2 => rw [ho] at h; cases h; exact .inr (.inl (.inl ⟨_, _, _, h1, h2, rfl⟩))
      | value h h1 h2 h3 => rw [ho] at h; cases h; exact .inr (.inl (.inr ⟨_, _, _, _, _, h1, h2, h3⟩))
      | unknown h h1 h2 => rw [ho] at h; cases h; exact .inr (.inr ⟨_, h1, h2, rfl⟩)

theorem parseItems_notes {ops : Ops A} {sc : Schema C E S F} {inv : A → Prop} (hp : ops.Places inv) {it : Ty C E S} {p : List PTok}
    {rec : A → P (Val C E S F)} (hrec : ∀ a res, inv a → Adds (GFault ops sc it a) res (rec a res)) :
    ∀ (as : List A) (k : Nat) (res : Res Note), (∀ i b, as[i]? = some b → ops.path b = p ++ [.idx (k + i)] ∧ inv b) →
    Adds (fun n => ∃ b ∈ as, GFault ops sc it b n) res (parseItems rec as res)
  | [], _, res, _ => .none (by simp)
  | a :: as, k, res, h => by
    rw [parseItems]
    have h0 := h 0 a rfl
    have hs : ∀ i b, as[i]? = some b → ops.path b = p ++ [.idx (k + 1 + i)] ∧ inv b := fun i b hb => by
      have := h (i + 1) b hb
      rwa [show k + (i + 1) = k + 1 + i by omega] at this
    refine ((hrec a res h0.2).seq (fun r => parseItems_notes hp hrec as (k + 1) r hs) ?_ ?_).congr (by simp)
    rotate_left
    · intro u r e
      split at e
      · cases e
      · split at e
        · cases e
        · cases e; exact ⟨_, _, _, ‹_›, ‹_›⟩
    rintro n hn ⟨b, hb, hf⟩
    obtain ⟨i, hi⟩ := List.getElem?_of_mem hb
    have h1 := hn.path hp h0.2
    have h2 := hf.path hp (hs i b hi).2
    rw [h0.1] at h1
    rw [(hs i b hi).1] at h2
    have := prefix_key h1 h2
    simp only [PTok.idx.injEq] at this
    omega

theorem post_notes {L : Note → Prop} {sc : Schema C E S F} {res : Res Note} {x : Except PyExc (Val C E S F × Res Note)} (h : Adds L res x) :
    Adds L res (match (generalizing := false) x with | .error e => .error e | .ok (v, res) => runPostParse sc v res) := by
  intro v r e
  cases x with
  | error e' => cases e
  | ok q =>
    obtain ⟨w, r1⟩ := q
    have hr : r = r1 := by
      dsimp only at e
      rw [runPostParse.eq_def] at e
      split at e
      · split at e
        · cases e; rfl
        · split at e
          · split at e
            · cases e
            · cases e; rfl
          · cases e; rfl
      · cases e; rfl
    subst hr
    exact h _ _ rfl

/-- the report of the parser -/
theorem parseF_notes {ops : Ops A} {sc : Schema C E S F} {inv : A → Prop} (hp : ops.Places inv) (hk : DistinctKeys sc) :
    ∀ (n : Nat) (ty : Ty C E S) (a : A) (res : Res Note), inv a → Adds (GFault ops sc ty a) res (parseF ops sc n ty a res)
  | 0, _, _, _, _ => .error
  | n + 1, ty, a, res, ha => by
    have ih := fun ty a res => parseF_notes (sc := sc) hp hk n ty a res
    rw [parseF.eq_def]
    match ty with
    | .list item ae =>
      dsimp only
      rw [parseList]
      cases hl : ops.asList a ae with
      | error e =>
        cases e with
        | py e => exact .error
        | adapter k =>
          refine .one fun n => ⟨fun h => ?_, fun h => h ▸ .list hl⟩
          cases h with
          | string h => cases h
          | list h => rw [hl] at h; cases h; rfl
          | item h => rw [hl] at h; cases h
      | ok as =>
        have := parseItems_notes (p := ops.path a) hp (ih item) as 0 res (fun i b hb => by
          have := hp.list a ae as ha hl i b hb
          rwa [Nat.zero_add])
        intro v r e
        dsimp only at e
        cases hx : parseItems (parseF ops sc n item) as res with
        | error e' => rw [hx] at e; cases e
        | ok q =>
          rw [hx] at e
          cases e
          obtain ⟨notes, h1, h2, h3⟩ := this _ _ hx
          refine ⟨notes, h1, fun n => ?_, h3⟩
          rw [h2]
          refine ⟨fun ⟨b, hb, hf⟩ => .item hl hb hf, fun h => ?_⟩
          cases h with
          | string h => cases h
          | list h => rw [hl] at h; cases h
          | item h hb hf => rw [hl] at h; cases h; exact ⟨_, hb, hf⟩
    | .cls c =>
      dsimp only
      by_cases hab : sc.abstract c = true
      · rw [if_pos hab, parseAbstract]
        cases hm : ops.modelType a with
        | error e =>
          cases e with
          | py e => exact .error
          | adapter k =>
            refine .one fun n => ⟨fun h => ?_, fun h => h ▸ .noType hab hm⟩
            cases h with
            | string h => cases h
            | noType _ h => rw [hm] at h; cases h; rfl
            | badType _ h => rw [hm] at h; cases h
            | cls h =>
              rcases h with ⟨h, -⟩ | ⟨-, d, h, -⟩
              · rw [hab] at h; cases h
              · rw [hm] at h; cases h
        | ok d =>
          dsimp only
          cases hf : (sc.subclasses c).find? (fun s => decide (d = some (sc.className s))) with
          | none =>
            refine .one fun n => ⟨fun h => ?_, fun h => h ▸ .badType hab hm hf⟩
            cases h with
            | string h => cases h
            | noType _ h => rw [hm] at h; cases h
            | badType _ h => rfl
            | cls h =>
              rcases h with ⟨h, -⟩ | ⟨-, d, h, h'⟩
              · rw [hab] at h; cases h
              · rw [hm] at h; cases h; rw [hf] at h'; cases h'
          | some s =>
            refine (parseConcrete_notes hp hk ih s a ha res).congr fun n => ⟨fun h => .cls (.inr ⟨hab, d, hm, hf⟩) h, fun h => ?_⟩
            cases h with
            | string h => cases h
            | noType _ h => rw [hm] at h; cases h
            | badType _ h h' => rw [hm] at h; cases h; rw [hf] at h'; cases h'
            | cls h h'' =>
              rcases h with ⟨h, -⟩ | ⟨-, d, h, h'⟩
              · rw [hab] at h; cases h
              · rw [hm] at h; cases h; rw [hf] at h'; cases h'; exact h''
      · rw [if_neg hab]
        rw [Bool.not_eq_true] at hab
        refine (post_notes (parseConcrete_notes hp hk ih c a ha res)).congr fun n => ⟨fun h => .cls (.inl ⟨hab, rfl⟩) h, fun h => ?_⟩
        cases h with
        | string h => cases h
        | noType h | badType h => rw [hab] at h; cases h
        | cls h h'' =>
          rcases h with ⟨-, rfl⟩ | ⟨h, -⟩
          · exact h''
          · rw [hab] at h; cases h
    | .bool =>
      dsimp only
      rw [parseBool]
      cases hm : ops.asBool a with
      | error e =>
        cases e with
        | py e => exact .error
        | adapter k =>
          refine .one fun n => ⟨fun h => ?_, fun h => h ▸ .bool hm⟩
          cases h with
          | string h => cases h
          | bool h => rw [hm] at h; cases h; rfl
      | ok b =>
        refine .none fun n h => ?_
        cases h with
        | string h => cases h
        | bool h => rw [hm] at h; cases h
    | .str =>
      dsimp only
      rw [parseString]
      cases hm : ops.asString a with
      | error e =>
        cases e with
        | py e => exact .error
        | adapter k =>
          refine .one fun n => ⟨fun h => ?_, fun h => h ▸ .string .str hm⟩
          cases h with
          | string _ h => rw [hm] at h; cases h; rfl
      | ok b =>
        refine .none fun n h => ?_
        cases h with
        | string _ h => rw [hm] at h; cases h
    | .any =>
      refine .none fun n h => ?_
      cases h with
      | string h => cases h
    | .enum e =>
      dsimp only
      rw [parseEnum]
      cases hm : ops.asString a with
      | error e =>
        cases e with
        | py e => exact .error
        | adapter k =>
          refine .one fun n => ⟨fun h => ?_, fun h => h ▸ .string (.enum _) hm⟩
          cases h with
          | string _ h => rw [hm] at h; cases h; rfl
          | enum h => rw [hm] at h; cases h
      | ok s =>
        dsimp only
        by_cases hs : s ∈ sc.enumValues e
        · rw [if_pos (by simpa using hs)]
          refine .none fun n h => ?_
          cases h with
          | string _ h => rw [hm] at h; cases h
          | enum h h' => rw [hm] at h; cases h; exact h' hs
        · rw [if_neg (by simpa using hs)]
          refine .one fun n => ⟨fun h => ?_, fun h => h ▸ .enum hm hs⟩
          cases h with
          | string _ h => rw [hm] at h; cases h
          | enum h h' => rfl
    | .sfv c =>
      dsimp only
      rw [parseSfv]
      cases hm : ops.asString a with
      | error e =>
        have hno : ∀ {n}, GFault ops sc (.sfv c) a n → (∃ k, e = .adapter k ∧ n = ⟨k, ops.path a⟩) ∨ (e = .py .valueError ∧ n = ⟨.format, ops.path a⟩) := by
          intro n h
          cases h with
          | string _ h => rw [hm] at h; cases h; exact .inl ⟨_, rfl, rfl⟩
          | sfv h => rw [hm] at h; cases h; exact .inr ⟨rfl, rfl⟩
          | format h => rw [hm] at h; cases h
        cases e with
        | adapter k =>
          refine .one fun n => ⟨fun h => ?_, fun h => h ▸ .string (.sfv _) hm⟩
          rcases hno h with ⟨k, e, rfl⟩ | ⟨e, -⟩
          · cases e; rfl
          · cases e
        | py e =>
          by_cases he : e = .valueError
          · subst he
            refine .one fun n => ⟨fun h => ?_, fun h => h ▸ .sfv hm⟩
            rcases hno h with ⟨k, e, -⟩ | ⟨-, rfl⟩
            · cases e
            · rfl
          · cases e <;> first | exact .error | exact absurd rfl he
      | ok s =>
        dsimp only
        cases hs : sc.construct c s with
        | ok u =>
          refine .none fun n h => ?_
          cases h with
          | string _ h => rw [hm] at h; cases h
          | sfv h => rw [hm] at h; cases h
          | format h h' => rw [hm] at h; cases h; rw [hs] at h'; cases h'
        | error e =>
          by_cases he : e = .valueError
          · subst he
            refine .one fun n => ⟨fun h => ?_, fun h => h ▸ .format hm hs⟩
            cases h with
            | string _ h => rw [hm] at h; cases h
            | sfv h => rw [hm] at h
            | format h h' => rfl
          · cases e <;> first | exact .error | exact absurd rfl he
    | .none => exact .error
    | .number => exact .error
    | .bytes => exact .error

end

end Verif.Parse
