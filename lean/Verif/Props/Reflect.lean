import Verif.AasSymbols
import Verif.ReflectFunction

/-!
# C60: reflection

The symbol table is a dictionary whose keys are the texts of the types. Types with the same text (for example enums of the same name in
different modules) share an entry, see `C60_same_text_violated`; for all other class graphs the property holds.
-/

namespace Verif.Props
open Verif Reflect Spec.Reflect

variable {C E S : Type} (w : World C E S)

/-- Reflection ends for every finite class graph, cyclic or not: with a recursion deeper than the number of reachable types it succeeds iff
all of them are supported, and a larger bound does not change the result. -/
theorem C60_terminates (hw : Grounded w) (a : Ann C E S) (U : List (Ann C E S)) (hU : ∀ b, Reachable w a b → b ∈ U)
    (hk : ∀ b b', Reachable w a b → Reachable w a b' → w.key b = w.key b' → b = b') (n : Nat) (hn : U.length < n) :
    ((∃ t, reflect w n a = .ok t) ↔ ∀ b, Reachable w a b → Supported w b) ∧
    ∀ m, U.length < m → ∀ t, reflect w n a = .ok t ↔ reflect w m a = .ok t := by
  have key : ∀ n, U.length < n → ∀ m, U.length < m → ∀ t, reflect w n a = .ok t → reflect w m a = .ok t := by
    intro n hn m hm t h
    rw [reflect] at h ⊢
    simp only [bind, Except.bind] at h ⊢
    have hcm := reflectF_complete hw hU hm
    have hcn := reflectF_complete hw hU hn
    cases h1 : reflectF w n a [] with
    | error e => rw [h1] at h; cases h
    | ok t1 =>
      rw [h1] at h hcn
      cases h2 : reflectF w m a [] with
      | ok t2 =>
        have : t1 = t2 := by
          rcases Nat.le_total n m with hl | hl
          · have := reflectF_mono_le hl h1
            rw [h2] at this
            injection this with this
            exact this.symm
          · have := reflectF_mono_le hl h2
            rw [h1] at this
            injection this with this
        rw [← this]
        exact h
      | error e =>
        rw [h2] at hcm
        obtain ⟨b, hb, hs⟩ := hcm
        obtain ⟨p, hp, e⟩ := List.mem_map.mp (hcn.reaches hk hb)
        obtain ⟨b', s, h3, rfl, h4, -⟩ := hcn.2.2 p hp
        rw [hk b' b h3 hb e] at h4
        exact absurd (symOf_some.mp ⟨s, h4⟩) hs
  refine ⟨?_, fun m hm t => ⟨key n hn m hm t, key m hm n hn t⟩⟩
  have h := reflectF_complete hw hU hn
  rw [reflect]
  cases hr : reflectF w n a [] with
  | error e =>
    rw [hr] at h
    obtain ⟨b, h1, h2⟩ := h
    exact ⟨fun ⟨t, ht⟩ => (by cases ht), fun hall => absurd (hall b h1) h2⟩
  | ok t =>
    rw [hr] at h
    obtain ⟨t', ht', -⟩ := resolve_complete hw h
    simp only [bind, Except.bind, ht']
    refine ⟨fun _ b hb => ?_, fun _ => ⟨t', rfl⟩⟩
    obtain ⟨p, hp, e⟩ := List.mem_map.mp (h.reaches hk hb)
    obtain ⟨b', s, h3, rfl, h4, -⟩ := h.2.2 p hp
    rw [hk b' b h3 hb e] at h4
    exact symOf_some.mp ⟨s, h4⟩

/-- A returned table has exactly the reachable types, each once; every entry describes its type, refers only to entries of the table, and
no placeholder remains. (Missing for the full claim: types sharing a text.) -/
theorem C60_table_partial (hw : Grounded w) (a : Ann C E S) (U : List (Ann C E S)) (hU : ∀ b, Reachable w a b → b ∈ U)
    (hk : ∀ b b', Reachable w a b → Reachable w a b' → w.key b = w.key b' → b = b') (n : Nat) (hn : U.length < n)
    (t : List (Str × Option (Sym C E S Str))) (h : reflect w n a = .ok t) :
    (t.map Prod.fst).Nodup ∧
    (∀ k o, (k, o) ∈ t → ∃ b s, Reachable w a b ∧ k = w.key b ∧ o = some s ∧ Describes w b s ∧ ∀ b', Uses w b b' → w.key b' ∈ t.map Prod.fst) ∧
    ∀ b, Reachable w a b → ∃ s, (w.key b, some s) ∈ t ∧ Describes w b s := by
  have hc := reflectF_complete hw hU hn
  rw [reflect] at h
  cases hr : reflectF w n a [] with
  | error e => rw [hr] at h; cases h
  | ok t0 =>
    rw [hr] at h hc
    obtain ⟨t', ht', h1, h2⟩ := resolve_complete hw hc
    simp only [bind, Except.bind, ht'] at h
    injection h with h
    subst h
    refine ⟨by rw [h1]; exact hc.1, fun k o hko => ?_, fun b hb => ?_⟩
    · obtain ⟨b, s, g1, g2, -, g3, g4⟩ := h2 _ hko
      injection g2 with g2 g2'
      exact ⟨b, s, g1, g2, g2', g3, fun b' hb' => by rw [h1]; exact g4 b' hb'⟩
    · have := hc.reaches hk hb
      rw [← h1] at this
      obtain ⟨p, hp, e⟩ := List.mem_map.mp this
      obtain ⟨b', s, g1, rfl, -, g3, -⟩ := h2 _ hp
      have := hk b' b g1 hb e
      subst this
      exact ⟨s, hp, g3⟩

/-- Reflection of a function (the operations of the API tests) succeeds iff all types of its signature are supported; then the arguments are
the annotated parameters in their order, each with its type, required iff its annotation is not `Optional`. (Missing for the full claim:
types sharing a text.) -/
theorem C60_function_partial (hw : Grounded w) (annotations : List (Str × Ann C E S)) (hd : (annotations.map Prod.fst).Nodup)
    (U : List (Ann C E S)) (hU : ∀ b, InSignature w annotations b → b ∈ U)
    (hk : ∀ b b', InSignature w annotations b → InSignature w annotations b' → w.key b = w.key b' → b = b') (n : Nat) (hn : U.length < n) :
    ((∃ f, reflectFunction w n annotations = .ok f) ↔ ∀ b, InSignature w annotations b → Supported w b) ∧
    ∀ f, reflectFunction w n annotations = .ok f →
      (∀ a, IsResult annotations a → ∃ s, f.result = some s ∧ Describes w a (byText w s)) ∧
      f.args.length = (parameters annotations).length ∧
      ∀ q ∈ (parameters annotations).zip f.args, q.2.name = q.1.1 ∧ (q.2.required = true ↔ ∀ x, q.1.2 ≠ .optional x) ∧
        ∃ s, q.2.type = some s ∧ Describes w (bare q.1.2) (byText w s) := by
  have hR : ∀ b b', InSignature w annotations b → Reachable w b b' → InSignature w annotations b' := by
    rintro b b' (⟨a, h1, h2⟩ | ⟨p, h1, h2⟩) h
    · exact .inl ⟨a, h1, Reachable.trans h2 h⟩
    · exact .inr ⟨p, h1, Reachable.trans h2 h⟩
  have hres := isResult annotations hd
  have hr0 : InSignature w annotations ((dictGet py!"return" annotations).getD .none) := .inl ⟨_, (hres _).mpr rfl, .refl⟩
  have h1 := reflectF_good hw hU hR hn hr0 (t := []) ⟨by simp [keys], by simp⟩
  rw [reflectFunction]
  simp only [bind, Except.bind, pure, Except.pure]
  cases hr : reflectF w n ((dictGet py!"return" annotations).getD .none) [] with
  | error e =>
    rw [hr] at h1
    obtain ⟨b, h2, h3⟩ := h1
    exact ⟨⟨fun ⟨f, hf⟩ => (by cases hf), fun h => absurd (h b (hR _ _ hr0 h2)) h3⟩, fun f hf => (by cases hf)⟩
  | ok t =>
    rw [hr] at h1
    obtain ⟨hg, hm⟩ := h1
    have h2 := reflectArgs_good hw hU hk hR hn annotations (fun p hp => .inr ⟨p, hp, .refl⟩) hg
    dsimp only
    cases hr2 : reflectArgs w n annotations t with
    | error e =>
      rw [hr2] at h2
      obtain ⟨p, hp, b, h3, h4⟩ := h2
      exact ⟨⟨fun ⟨f, hf⟩ => (by cases hf), fun h => absurd (h b (.inr ⟨p, hp, h3⟩)) h4⟩, fun f hf => (by cases hf)⟩
    | ok args =>
      rw [hr2] at h2
      obtain ⟨h3, h4, h5⟩ := h2
      refine ⟨⟨fun _ b hb => ?_, fun _ => ⟨_, rfl⟩⟩, fun f hf => ?_⟩
      · rcases hb with ⟨a, ha, hb⟩ | ⟨p, hp, hb⟩
        · rw [(hres a).mp ha] at hb
          exact hg.supported hk hR hb hr0 hm
        · exact h3 p hp b hb
      · injection hf with hf
        subst hf
        refine ⟨fun a ha => ?_, h4, h5⟩
        rw [(hres a).mp ha]
        exact hg.entry hw hk hr0 hm

/-- Two functions count as equal iff they have the same parameters in the same order, with the same ones required. Types are not compared. -/
theorem C60_functions (f g : FunctionType C E S) :
    f.same g = true ↔ f.args.map (fun a => (a.name, a.required)) = g.args.map (fun a => (a.name, a.required)) := sameArgs_iff _ _

/-- Parameters with different types count as equal: the check that both calls of a suite have the same parameters does not see it. -/
theorem C60_functions_violated : ∃ (f g : FunctionType C E S), f.same g = true ∧ f ≠ g :=
  ⟨⟨some .none, [⟨py!"limit", some .number, false⟩]⟩, ⟨some .none, [⟨py!"limit", some .str, false⟩]⟩, rfl, by simp⟩

/-- The symbol table of the meta-model exists and has exactly the 85 types reachable from `Environment`. -/
theorem C60_model (n : Nat) (hn : 85 < n) : ∃ t, reflect Aas.world n (.cls .environment) = .ok t ∧ (t.map Prod.fst).Nodup ∧
    (∀ k o, (k, o) ∈ t → ∃ b s, Reachable Aas.world (.cls .environment) b ∧ k = Aas.keyOf b ∧ o = some s ∧ Describes Aas.world b s ∧
      ∀ b', Uses Aas.world b b' → Aas.keyOf b' ∈ t.map Prod.fst) ∧
    (∀ b, Reachable Aas.world (.cls .environment) b → ∃ s, (Aas.keyOf b, some s) ∈ t ∧ Describes Aas.world b s) ∧
    ∀ b, Reachable Aas.world (.cls .environment) b ↔ b ∈ Aas.symbolTypes := by
  have hU : ∀ b, Reachable Aas.world (.cls .environment) b → b ∈ Aas.symbolTypes := fun b hb => Aas.mem_symbolTypes.mpr hb
  have hlen : Aas.symbolTypes.length < n := Nat.lt_of_le_of_lt (show Aas.symbolTypes.length ≤ 85 by decide) hn
  obtain ⟨t, ht⟩ := (C60_terminates Aas.world Aas.grounded _ _ hU (fun _ _ => Aas.keyOf_inj) n hlen).1.mpr fun b hb =>
    Aas.supported_iff.mpr (List.all_eq_true.mp Aas.symbols_supported b (hU b hb))
  obtain ⟨h1, h2, h3⟩ := C60_table_partial Aas.world Aas.grounded _ _ hU (fun _ _ => Aas.keyOf_inj) n hlen t ht
  exact ⟨t, ht, h1, h2, h3, fun b => Aas.mem_symbolTypes.symm⟩

namespace ReflectSamples

/-- a module with two classes referring to each other, one with two subclasses of which one is abstract, and two enums with the same name
from different modules -/
def sample : World (Fin 4) (Fin 2) Unit where
  key
    | .cls c => pc! 'C' :: [c.val]
    | .enum _ => py!"<enum 'Color'>"
    | .list (.cls c) _ => py!"List" ++ [c.val]
    | .forward n => n
    | .optional _ => py!"Optional"
    | .none => py!"None"
    | .bool => py!"bool"
    | .str => py!"str"
    | .any => py!"any"
    | .int => py!"int"
    | .bytes => py!"bytes"
    | .sfv _ => py!"sfv"
    | .list _ _ => py!"List"
    | .other t => t
  fields c :=
    if c = 0 then [⟨py!"next", .optional (.forward py!"B"), false, none⟩, ⟨py!"path", .other py!"?", true, none⟩]
    else if c = 1 then [⟨py!"back", .list (.cls 0) true, false, none⟩, ⟨py!"name", .str, false, some py!"Name"⟩]
    else if c = 2 then [⟨py!"x", .enum 0, false, none⟩]
    else [⟨py!"x", .enum 0, false, none⟩, ⟨py!"y", .enum 1, false, none⟩]
  direct c := if c = 1 then [2] else []
  isAbstract _ := false
  isDataclass _ := true
  names n := if n = py!"B" then some (.cls 1) else none
  height := 2

def types : List (Ann (Fin 4) (Fin 2) Unit) := [.cls 0, .cls 1, .list (.cls 0) true, .str, .cls 2, .enum 0]

theorem sample_grounded : Grounded sample := ⟨fun c => if c = 1 then 1 else 0, by decide, by decide⟩

def entries (n : Nat) (a : Ann (Fin 4) (Fin 2) Unit) : List (Str × Option (Sym (Fin 4) (Fin 2) Unit Str)) :=
  (reflect sample n a).toOption.getD []

/-- the cyclic classes of the sample -/
example : entries 7 (.cls 0) =
    [(py!"C" ++ [0], some (.cls 0 [⟨py!"next", py!"C" ++ [1], false, none⟩] [py!"path"] [])),
     (py!"C" ++ [1], some (.cls 1 [⟨py!"back", py!"List" ++ [0], true, none⟩, ⟨py!"name", py!"str", true, some py!"Name"⟩] [] [py!"C" ++ [2]])),
     (py!"List" ++ [0], some (.list (py!"C" ++ [0]) true)),
     (py!"str", some .str),
     (py!"C" ++ [2], some (.cls 2 [⟨py!"x", py!"<enum 'Color'>", true, none⟩] [] [])),
     (py!"<enum 'Color'>", some (.enum 0))] := by decide +kernel

/-- the hypotheses of the theorems hold for it -/
example : Grounded sample ∧ ∀ b, Reachable sample (.cls 0) b → b ∈ types := by
  refine ⟨sample_grounded, fun b hb => ?_⟩
  have main : ∀ a b, Reachable sample a b → a ∈ types → b ∈ types := by
    intro a b hab
    induction hab with
    | refl => exact id
    | @step a b c hu _ ih =>
      refine fun ha => ih ?_
      cases hu with
      | item h =>
        simp only [types, List.mem_cons, List.not_mem_nil, reduceCtorEq, false_or, or_false, Ann.list.injEq] at ha
        obtain ⟨rfl, rfl⟩ := ha
        simp only [Means] at h
        subst h
        decide
      | @attr c f b hf hx h =>
        match c, ha with
        | 0, _ =>
          rcases List.mem_cons.mp hf with rfl | hf
          · have : b = .cls 1 := by
              simp only [bare, Means, sample, if_true, Option.some.injEq] at h
              exact h.symm
            subst this
            decide
          · rw [List.mem_singleton.mp hf] at hx
            cases hx
        | 1, _ =>
          rcases List.mem_cons.mp hf with rfl | hf
          · cases h; decide
          · rw [List.mem_singleton.mp hf] at h
            cases h; decide
        | 2, _ =>
          rw [List.mem_singleton.mp hf] at h
          cases h; decide
        | 3, ha => exact absurd ha (by decide)
      | @sub c d h _ =>
        have aux : ∀ {c d : Fin 4}, Subclass sample c d → d = 2 := by
          intro c d h
          induction h with
          | @direct c d h => revert h; revert d; revert c; decide
          | deeper _ _ ih => exact ih
        rw [aux h]
        decide
  exact main _ b hb (by decide)

/-- a function with an optional and a required parameter, and one whose parameter has a forward reference as type, which is not resolved -/
example : reflectFunction sample 7 [(py!"limit", .optional .int), (py!"x", .list (.cls 0) true), (py!"return", .bool)] =
      .ok ⟨some .bool, [⟨py!"limit", some .number, false⟩, ⟨py!"x", some (.list (.cls 0) true), true⟩]⟩ ∧
    reflectFunction sample 7 [(py!"x", .optional (.forward py!"B"))] = .error .typeError := by decide +kernel

/-- the hypotheses of the theorem hold for a signature without classes -/
example : ∀ b, InSignature sample [(py!"limit", .optional .int)] b ↔ b = .none ∨ b = .int := by
  have leaf : ∀ a b : Ann (Fin 4) (Fin 2) Unit, (a = .none ∨ a = .int) → (Reachable sample a b ↔ b = a) := by
    intro a b ha
    constructor
    · intro h
      cases h with
      | refl => rfl
      | step hu _ => rcases ha with rfl | rfl <;> cases hu
    · rintro rfl
      exact .refl
  intro b
  simp only [InSignature, IsResult, parameters]
  constructor
  · rintro (⟨a, ha | ⟨rfl, -⟩, h⟩ | ⟨p, hp, h⟩)
    · simp at ha
    · exact .inl ((leaf _ _ (.inl rfl)).mp h)
    · have : p = (py!"limit", .optional .int) := by simpa using (List.mem_filter.mp hp).1
      subst this
      exact .inr ((leaf _ _ (.inr rfl)).mp h)
  · rintro (rfl | rfl)
    · exact .inl ⟨_, .inr ⟨rfl, by simp⟩, .refl⟩
    · exact .inr ⟨(py!"limit", .optional .int), by decide, .refl⟩

end ReflectSamples

/-- Two reachable types may share an entry: of two enums with the same name only the first is in the table, and the attribute of the second
type refers to it. -/
theorem C60_same_text_violated : ∃ b, Reachable ReflectSamples.sample (.cls 3) b ∧ Supported ReflectSamples.sample b ∧
    ∃ t, reflect ReflectSamples.sample 9 (.cls 3) = .ok t ∧ ∀ k s, (k, some s) ∈ t → ¬ Describes ReflectSamples.sample b s := by
  refine ⟨.enum 1, .step (.attr (f := ⟨py!"y", .enum 1, false, none⟩) (by simp [ReflectSamples.sample]) rfl rfl) .refl, trivial, ReflectSamples.entries 9 (.cls 3), ?_, ?_⟩
  · decide +kernel
  · intro k s h
    have : ∀ p ∈ ReflectSamples.entries 9 (.cls 3), p.2 ≠ some (.enum 1) := by decide +kernel
    intro hd
    exact this _ h (by rw [show s = .enum 1 from hd])

/-- C60, names of types: in any table a name selects the only entry whose text ends with it; none or several raise `ValueError`. -/
theorem C60_lookup {α : Type} (T : Str) (symbols : List (Str × α)) :
    (∀ a, lookup T symbols = .ok a ↔ ∃ front key back, symbols = front ++ (key, a) :: back ∧ (pc! '.' :: T ++ py!"'>") <:+ key ∧
      ∀ p ∈ front ++ back, ¬ (pc! '.' :: T ++ py!"'>") <:+ p.1) ∧
    ∀ e, lookup T symbols = .error e ↔ e = .valueError ∧ ∀ a, lookup T symbols ≠ .ok a := by
  have key : ∀ a, lookup T symbols = .ok a ↔ ∃ p, symbols.filter (fun p => Py.endsWith p.1 (pc! '.' :: T ++ py!"'>")) = [p] ∧ p.2 = a := by
    intro a
    rw [lookup]
    split
    · next p hp => rw [hp]; simp
    · next h =>
      exact ⟨fun e => (by cases e), fun ⟨p, hp, _⟩ => (h p hp).elim⟩
  refine ⟨fun a => ?_, fun e => ?_⟩
  · rw [key]
    constructor
    · rintro ⟨⟨k, a'⟩, hp, rfl⟩
      obtain ⟨front, rest, e, h1, h2⟩ := List.filter_eq_cons_iff.mp hp
      rw [e]
      refine ⟨front, k, rest, rfl, List.isSuffixOf_iff_suffix.mp h2.1, fun p hp => ?_⟩
      rcases List.mem_append.mp hp with h | h
      · exact fun hs => h1 p h (List.isSuffixOf_iff_suffix.mpr hs)
      · exact fun hs => (List.filter_eq_nil_iff.mp h2.2) p h (List.isSuffixOf_iff_suffix.mpr hs)
    · rintro ⟨front, k, back, rfl, hs, hn⟩
      refine ⟨(k, a), ?_, rfl⟩
      rw [List.filter_append, List.filter_cons_of_pos (p := fun p : Str × α => Py.endsWith p.1 (pc! '.' :: T ++ py!"'>")) (List.isSuffixOf_iff_suffix.mpr hs)]
      have none_of : ∀ l : List (Str × α), (∀ p ∈ l, p ∈ front ++ back) → l.filter (fun p => Py.endsWith p.1 (pc! '.' :: T ++ py!"'>")) = [] :=
        fun l hl => List.filter_eq_nil_iff.mpr fun p hp h => hn p (hl p hp) (List.isSuffixOf_iff_suffix.mp h)
      rw [none_of front fun p hp => List.mem_append_left _ hp, none_of back fun p hp => List.mem_append_right _ hp]
      rfl
  · rw [lookup]
    split
    · next p hp => exact ⟨fun e => (by cases e), fun ⟨_, h⟩ => (h _ rfl).elim⟩
    · exact ⟨fun e => (by cases e; exact ⟨rfl, fun a e => (by cases e)⟩), fun ⟨e, _⟩ => by rw [e]⟩

example : lookup py!"A" [(py!"<class 'm.A'>", 1), (py!"<class 'm.AA'>", 2)] = .ok 1 ∧
    lookup py!"A" [(py!"<class 'm.A'>", 1), (py!"<class 'n.A'>", 2)] = .error .valueError := by decide

end Verif.Props
