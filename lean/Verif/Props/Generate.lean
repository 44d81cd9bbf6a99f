import Verif.GenerateLemmas
import Verif.DataTypes

/-! # C53: generated negative inputs are really invalid -/

namespace Verif.Props
open Verif Verif.Parse Verif.Generate Verif.Http Verif.Spec Verif.Spec.Generate

section
variable {C E S : Type} (k : Classes C E S)

/-- Each generated value is sent as a text that is not in the domain of the argument, whatever the classes and enumerations are. -/
theorem C53_invalid (arg : Argument C E S) (vs : List ArgVal) (h : generateInvalidValues k arg = .ok vs) (v : ArgVal) (hv : v ∈ vs) :
    ∃ text, wire v = .ok text ∧ ¬ Valid k arg.ty text := by
  unfold generateInvalidValues at h
  cases hty : arg.ty with
  | str => rw [hty] at h; cases h; cases hv
  | bool =>
    rw [hty] at h; cases h
    simp at hv; subst hv
    refine ⟨_, rfl, ?_⟩
    show ¬ Truth _
    unfold Truth
    decide
  | any => rw [hty] at h; cases h
  | none => rw [hty] at h; cases h
  | bytes => rw [hty] at h; cases h
  | list i ae => rw [hty] at h; cases h
  | number =>
    rw [hty] at h
    dsimp only at h
    split at h
    · cases h
      simp at hv; subst hv
      refine ⟨_, rfl, ?_⟩
      rintro ⟨n, hn⟩
      exact natStr_neg n _ hn.symm
    · cases h
  | enum e =>
    rw [hty] at h
    dsimp only at h
    split at h
    · cases h
    · rename_i n hn
      cases h
      simp at hv; subst hv
      refine ⟨_, rfl, ?_⟩
      intro hm
      have := maxLen_spec hn _ hm
      simp at this
      omega
  | sfv s =>
    rw [hty] at h
    dsimp only at h
    split at h
    · rename_i hb
      cases h
      simp at hv; subst hv
      exact ⟨_, rfl, fun hd => invalid_not_decodable (hd hb)⟩
    · cases h; cases hv
  | cls c =>
    rw [hty] at h
    dsimp only at h
    split at h
    · rename_i hb
      cases h
      simp at hv; subst hv
      exact ⟨_, rfl, fun hd => invalid_not_decodable (hd hb)⟩
    · cases h; cases hv

/-- Exactly the arguments that have invalid texts get a negative test, and only one; the others are skipped. Numbers that are not
called `limit` and types without texts are not supported, an enumeration without members makes `max` fail. -/
theorem C53_covers (arg : Argument C E S) :
    ((∃ e, generateInvalidValues k arg = .error e) ↔
      (arg.ty = .number ∧ arg.name ≠ py!"limit") ∨ (∃ e, arg.ty = .enum e ∧ k.enumValues e = []) ∨
      arg.ty = .none ∨ arg.ty = .any ∨ arg.ty = .bytes ∨ ∃ i ae, arg.ty = .list i ae) ∧
    ∀ vs, generateInvalidValues k arg = .ok vs →
      ((∃ text, ¬ Valid k arg.ty text) → vs.length = 1) ∧ ((∀ text, Valid k arg.ty text) → vs = []) := by
  constructor
  · unfold generateInvalidValues
    cases hty : arg.ty with
    | number => simp; split <;> simp [*]
    | enum e =>
      cases hm : k.enumValues e with
      | nil => simp [maxLen, hm]
      | cons s ss => simp [maxLen, hm]
    | sfv s => simp; split <;> simp
    | cls s => simp; split <;> simp
    | _ => simp
  · intro vs h
    refine ⟨?_, ?_⟩
    · rintro ⟨text, ht⟩
      unfold generateInvalidValues at h
      cases hty : arg.ty with
      | number => rw [hty] at h; dsimp only at h; split at h <;> cases h; rfl
      | enum e => rw [hty] at h; dsimp only at h; split at h <;> cases h; rfl
      | bool => rw [hty] at h; cases h; rfl
      | sfv s =>
        rw [hty] at h ht; dsimp only at h; split at h <;> cases h
        · rfl
        · rename_i hb; exact absurd (fun h => absurd h hb) ht
      | cls c =>
        rw [hty] at h ht; dsimp only at h; split at h <;> cases h
        · rfl
        · rename_i hb; exact absurd (fun h => absurd h hb) ht
      | _ => rw [hty] at h ht; first | cases h; done | exact absurd trivial ht
    · intro hall
      cases vs with
      | nil => rfl
      | cons v vs =>
        obtain ⟨text, -, hn⟩ := C53_invalid k arg _ h v (by simp)
        exact absurd (hall text) hn

/-- The assertion of the module (generate.py 29-33): Python cannot decode the invalid text, i.e. `urlsafe_b64decode` raises. -/
theorem C53_python : DataTypes.a2b 0 0
    (invalidBase64url.map fun c => if c = pc! '-' then pc! '+' else if c = pc! '_' then pc! '/' else c) = false := by decide

/-- an operation that just tells with which arguments it is called -/
def recorder : Kwargs → Prog Kwargs Unit Unit := fun kw => .query kw fun _ => .pure ()

theorem wire_of_generated {arg : Argument C E S} {vs : List ArgVal} (h : generateInvalidValues k arg = .ok vs) {v : ArgVal} (hv : v ∈ vs) :
    ∃ text, v.pyStr = .ok text ∧ wire v = .ok text := by
  unfold generateInvalidValues at h
  split at h <;> (try split at h) <;> cases h <;> simp at hv <;> subst hv <;> exact ⟨_, rfl, rfl⟩

theorem callAll_meaning (scope : Str) (valid : Kwargs) (name : Str) (rest : Prog Kwargs Unit Unit) (vs : List ArgVal)
    (h : ∀ v ∈ vs, ∃ text, v.pyStr = .ok text) : ∀ hist,
    (meaning (fun _ _ => ()) (callAll scope recorder valid name rest vs) true hist).hist =
      (meaning (fun _ _ => ()) rest true (hist ++ vs.map fun v => Kwargs.set name v valid)).hist ∧
    (meaning (fun _ _ => ()) (callAll scope recorder valid name rest vs) true hist).out =
      (meaning (fun _ _ => ()) rest true (hist ++ vs.map fun v => Kwargs.set name v valid)).out := by
  induction vs with
  | nil => intro hist; simp [callAll]
  | cons v vs ih =>
    intro hist
    obtain ⟨text, ht⟩ := h v (by simp)
    have := ih (fun w hw => h w (List.mem_cons_of_mem _ hw)) (hist ++ [Kwargs.set name v valid])
    simp only [callAll, callWith, ht, recorder, mapExc, meaning, Meaning.after, List.map_cons]
    rw [show hist ++ Kwargs.set name v valid :: List.map (fun v => Kwargs.set name v valid) vs =
      hist ++ [Kwargs.set name v valid] ++ List.map (fun v => Kwargs.set name v valid) vs by simp]
    exact this

/-- The calls: for each argument and each of its invalid values one call, in order, and nothing else. -/
theorem C53_calls (scope : Str) (valid : Kwargs) (args : List (Argument C E S)) (invalid : List (List ArgVal))
    (h : Generated k args invalid) (hist : List Kwargs) :
    let m := meaning (fun _ _ => ()) (generateCalls k scope recorder valid args) true hist
    m.out = .val () ∧ m.hist = hist ++ (expectedCalls valid ((args.map (·.name)).zip invalid)).map (·.2.2) := by
  induction h generalizing hist with
  | nil => simp [generateCalls, meaning, expectedCalls]
  | cons h hr ih =>
    rename_i a as vs rest
    have hc := callAll_meaning scope valid a.name (generateCalls k scope recorder valid as) vs
      (fun v hv => ⟨_, (wire_of_generated k h hv).choose_spec.1⟩) hist
    have := ih (hist ++ vs.map fun v => Kwargs.set a.name v valid)
    simp only [generateCalls, h]
    refine ⟨?_, ?_⟩
    · rw [hc.2]; exact this.1
    · rw [hc.1, this.2]
      simp only [List.map_cons, List.zip_cons_cons, expectedCalls, List.map_append, List.append_assoc, List.map_map]
      rfl

/-- Each call differs from the call with the valid arguments in exactly one argument, whose value is invalid. -/
theorem C53_one_argument (valid : Kwargs) (hv : (valid.map (·.1)).Nodup) (args : List (Argument C E S)) (invalid : List (List ArgVal))
    (h : Generated k args invalid) :
    ∀ c ∈ expectedCalls valid ((args.map (·.name)).zip invalid),
      OnlyChanged valid c.2.2 c.1 c.2.1 ∧ ∃ a ∈ args, a.name = c.1 ∧ ∃ text, wire c.2.1 = .ok text ∧ ¬ Valid k a.ty text := by
  induction h with
  | nil => simp [expectedCalls]
  | cons h hr ih =>
    rename_i a as vs rest
    intro c hc
    simp only [List.map_cons, List.zip_cons_cons, expectedCalls, List.mem_append, List.mem_map] at hc
    rcases hc with ⟨v, hm, rfl⟩ | hc
    · exact ⟨set_only _ _ _ hv, a, by simp, rfl, C53_invalid k a vs h v hm⟩
    · obtain ⟨h1, b, hb, h2⟩ := ih c hc
      exact ⟨h1, b, List.mem_cons_of_mem _ hb, h2⟩

end

/-! ## example: an operation with five arguments -/

namespace GenerateSamples

inductive C | assetId | other
inductive E | level
inductive S | base64 | plain

def classes : Classes C E S where
  enumValues _ := [py!"core", py!"deep"]
  base64 | .base64 => true | .plain => false
  isAssetId | .assetId => true | .other => false

def args : List (Argument C E S) :=
  [⟨py!"id", .sfv .base64, true⟩, ⟨py!"level", .enum .level, false⟩, ⟨py!"limit", .number, false⟩, ⟨py!"cursor", .str, false⟩,
   ⟨py!"flag", .bool, false⟩, ⟨py!"asset_id", .cls .assetId, false⟩]

def invalid : List (List ArgVal) :=
  [[.str invalidBase64url], [.dummy py!"#####"], [.int (-1)], [], [.str py!"invalid-bool"], [.str invalidBase64url]]

theorem generated : Generated classes args invalid := by
  unfold args invalid
  repeat' constructor

def valid : Kwargs := [(py!"id", .sfv true py!"urn:a")]

example : (valid.map (·.1)).Nodup := by decide

-- the identifier is kept in all calls but the first
example : (meaning (fun _ _ => ()) (generateCalls classes py!"Op" recorder valid args) true []).hist =
    [[(py!"id", .str invalidBase64url)],
     [(py!"id", .sfv true py!"urn:a"), (py!"level", .dummy py!"#####")],
     [(py!"id", .sfv true py!"urn:a"), (py!"limit", .int (-1))],
     [(py!"id", .sfv true py!"urn:a"), (py!"flag", .str py!"invalid-bool")],
     [(py!"id", .sfv true py!"urn:a"), (py!"asset_id", .str invalidBase64url)]] := by
  rw [(C53_calls classes _ _ _ _ generated _).2]
  decide

example : Valid classes (.enum .level) py!"deep" := by unfold Valid; decide
example : Decodable py!"dXJuOmE" :=
  ⟨py!"dXJuOmE", 0, [117, 114, 110, 58, 97], by decide, by decide, by decide +kernel, 2, by decide, by decide +kernel⟩
end GenerateSamples

end Verif.Props
