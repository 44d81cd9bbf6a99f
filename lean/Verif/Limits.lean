import Verif.LevelLemmas
import Verif.ConstraintLemmas
import Verif.Engine

/-!
# The constraint stage under a limit on nested calls

`check_constraints` (parse.py 190-205) calls itself for the values of all fields and for all items of lists. Here it is with a limit on these
nested calls, as `parseF` has one.
-/

namespace Verif.Parse
open Verif Verif.Spec.Parse Verif.Spec.Levels

section
variable {A C E S F : Type}

/-- parse.py 190-205 `check_constraints` with at most `n` nested calls -/
def checkConstraintsN (name : F → Str) (checks : C → List (Val C E S F → Chk Unit)) : Nat → Val C E S F → List PTok → Res Note → Except PyExc (Res Note)
  | 0, _, _, _ => .error .runtimeError
  | n + 1, .obj c attrs, p, res =>
    match runChecks (.obj c attrs) p (checks c) res with
    | .error e => .error e
    | .ok res => attrsN (checkConstraintsN name checks n) attrs p res
  | _ + 1, _, _, res => .ok res
where
  /-- parse.py 202-203 -/
  itemsN (call : Val C E S F → List PTok → Res Note → Except PyExc (Res Note)) :
      List (Val C E S F) → List PTok → Nat → Res Note → Except PyExc (Res Note)
    | [], _, _, res => .ok res
    | v :: vs, p, i, res =>
      match call v (p ++ [.idx i]) res with
      | .error e => .error e
      | .ok res => itemsN call vs p (i + 1) res
  /-- parse.py 199-205 the loop over the fields -/
  attrsN (call : Val C E S F → List PTok → Res Note → Except PyExc (Res Note)) :
      List (F × Val C E S F) → List PTok → Res Note → Except PyExc (Res Note)
    | [], _, res => .ok res
    | (f, .list l) :: rest, p, res =>
      match itemsN call l (p ++ [.key (name f)]) 0 res with
      | .error e => .error e
      | .ok res => attrsN call rest p res
    | (f, v) :: rest, p, res =>
      match call v (p ++ [.key (name f)]) res with
      | .error e => .error e
      | .ok res => attrsN call rest p res

/-- parse.py 208-219 `_parse_and_check` with at most `n` nested calls of `parse` and at most `m` of `check_constraints` -/
def parseAndCheckN (ops : Ops A) (sc : Schema C E S F) (name : F → Str) (checks : C → List (Val C E S F → Chk Unit)) (n m : Nat)
    (ty : Ty C E S) (a : A) : Except PyExc (Res Note × Val C E S F) :=
  match parseF ops sc n ty a (Res.new ⟨.title py!"Check meta model", []⟩) with
  | .error e => .error e
  | .ok (env, resultMetaModel) =>
    let resultRoot := (Res.new ⟨.title py!"Check", []⟩).append resultMetaModel
    if resultRoot.ok then
      match checkConstraintsN name checks m env [] (Res.new ⟨.title py!"Check constraints", []⟩) with
      | .error e => .error e
      | .ok resultConstraints => .ok (resultRoot.append resultConstraints, env)
    else .ok (resultRoot.append (Res.new ⟨.skipped, []⟩ .warning), env)

/-! ## levels of objects -/

mutual
/-- levels of objects within each other, and one for what is in their fields -/
def objLevels : Val C E S F → Nat
  | .obj _ attrs => objLevelsA attrs + 1
  | _ => 1
def objLevelsA : List (F × Val C E S F) → Nat
  | [] => 0
  | (_, .list l) :: rest => max (objLevelsL l) (objLevelsA rest)
  | (_, v) :: rest => max (objLevels v) (objLevelsA rest)
def objLevelsL : List (Val C E S F) → Nat
  | [] => 0
  | v :: vs => max (objLevels v) (objLevelsL vs)
end

theorem objLevels_pos (v : Val C E S F) : 0 < objLevels v := by cases v <;> simp [objLevels]

mutual
theorem objLevels_le : ∀ v : Val C E S F, objLevels v ≤ ofVal v + 1
  | .obj c attrs => by have := objLevelsA_le attrs; simp only [objLevels, ofVal]; omega
  | .none | .invalid | .path _ _ _ => by simp [objLevels, ofVal]
  | .foreign | .str _ | .bool _ | .enum _ _ | .sfv _ _ | .list _ => by simp [objLevels, ofVal]
theorem objLevelsA_le : ∀ l : List (F × Val C E S F), objLevelsA l ≤ ofAttrs l + 1
  | [] => by simp [objLevelsA]
  | (_, .list l) :: rest => by
    have h1 := objLevelsL_le l
    have h2 := objLevelsA_le rest
    simp only [objLevelsA, ofAttrs, ofVal]
    omega
  | (_, .obj c attrs) :: rest => by
    have h1 := objLevels_le (.obj c attrs)
    have h2 := objLevelsA_le rest
    simp only [objLevelsA, ofAttrs]
    omega
  | (_, .none) :: rest | (_, .invalid) :: rest | (_, .path _ _ _) :: rest | (_, .foreign) :: rest | (_, .str _) :: rest | (_, .bool _) :: rest
  | (_, .enum _ _) :: rest | (_, .sfv _ _) :: rest => by
    have h2 := objLevelsA_le rest
    simp only [objLevelsA, objLevels, ofAttrs]
    omega
theorem objLevelsL_le : ∀ l : List (Val C E S F), objLevelsL l ≤ ofVals l + 1
  | [] => by simp [objLevelsL]
  | v :: vs => by
    have h1 := objLevels_le v
    have h2 := objLevelsL_le vs
    simp only [objLevelsL, ofVals]
    omega
end

/-! ## the limit is reached by deeper objects -/

/-- the same if the limit suffices; otherwise a RecursionError, or an exception that is raised before -/
def Within (enough : Prop) (x y : Except PyExc (Res Note)) : Prop :=
  (enough → x = y) ∧ (¬ enough → x = .error .runtimeError ∨ ∃ e, x = .error e ∧ y = .error e)

theorem Within.same {q : Prop} (hq : q) (x : Except PyExc (Res Note)) : Within q x x := ⟨fun _ => rfl, fun h => absurd hq h⟩

theorem Within.never {q : Prop} (hq : ¬ q) (y : Except PyExc (Res Note)) : Within q (.error .runtimeError) y :=
  ⟨fun h => absurd h hq, fun _ => .inl rfl⟩

theorem Within.congr {q q' : Prop} (h : q' ↔ q) {x y : Except PyExc (Res Note)} (hx : Within q x y) : Within q' x y :=
  ⟨fun h' => hx.1 (h.mp h'), fun h' => hx.2 (fun h'' => h' (h.mpr h''))⟩

theorem Within.seq {q q' : Prop} {x y : Except PyExc (Res Note)} {k k' : Res Note → Except PyExc (Res Note)} (h1 : Within q x y)
    (h2 : ∀ r, Within q' (k r) (k' r)) :
    Within (q ∧ q') (match (generalizing := false) x with | .error e => .error e | .ok r => k r)
      (match (generalizing := false) y with | .error e => .error e | .ok r => k' r) := by
  by_cases hq : q
  · obtain rfl := h1.1 hq
    cases x with
    | error e => exact ⟨fun _ => rfl, fun _ => .inr ⟨e, rfl, rfl⟩⟩
    | ok r =>
      simp only [hq, true_and]
      exact h2 r
  · refine ⟨fun h => absurd h.1 hq, fun _ => ?_⟩
    rcases h1.2 hq with rfl | ⟨e, rfl, rfl⟩
    · exact .inl rfl
    · exact .inr ⟨e, rfl, rfl⟩

variable (name : F → Str) (checks : C → List (Val C E S F → Chk Unit))

theorem scalarN {v : Val C E S F} (hv : ∀ c a, v ≠ .obj c a) (n : Nat) (p : List PTok) (res : Res Note) :
    Within (objLevels v ≤ n) (checkConstraintsN name checks n v p res) (checkConstraints name checks v p res) := by
  have hl : objLevels v = 1 := by cases v <;> simp_all [objLevels]
  cases n with
  | zero =>
    rw [checkConstraintsN]
    exact .never (by omega) _
  | succ n =>
    have h1 : checkConstraintsN name checks (n + 1) v p res = .ok res := by cases v <;> simp_all [checkConstraintsN]
    have h2 : checkConstraints name checks v p res = .ok res := by cases v <;> simp_all [checkConstraints]
    rw [h1, h2]
    exact .same (by omega) _

mutual
theorem checkConstraintsN_spec : ∀ (v : Val C E S F) (n : Nat) (p : List PTok) (res : Res Note),
    Within (objLevels v ≤ n) (checkConstraintsN name checks n v p res) (checkConstraints name checks v p res)
  | .obj c attrs, 0, p, res => by
    rw [checkConstraintsN]
    exact .never (by have := objLevels_pos (.obj c attrs); omega) _
  | .obj c attrs, n + 1, p, res => by
    simp only [checkConstraintsN, checkConstraints, objLevels]
    exact (Within.seq (.same trivial _) (fun r => attrsN_spec attrs n p r)).congr (by simp)
  | .none, n, p, res | .invalid, n, p, res | .foreign, n, p, res | .str _, n, p, res | .bool _, n, p, res | .enum _ _, n, p, res
  | .sfv _ _, n, p, res | .list _, n, p, res | .path _ _ _, n, p, res => scalarN name checks (by simp) n p res
theorem attrsN_spec : ∀ (l : List (F × Val C E S F)) (n : Nat) (p : List PTok) (res : Res Note),
    Within (objLevelsA l ≤ n) (checkConstraintsN.attrsN name (checkConstraintsN name checks n) l p res) (checkAttrs name checks l p res)
  | [], n, p, res => by
    simp only [checkConstraintsN.attrsN, checkAttrs]
    exact .same (by simp [objLevelsA]) _
  | (f, .list l) :: rest, n, p, res => by
    simp only [checkConstraintsN.attrsN, checkAttrs, objLevelsA]
    exact (Within.seq (itemsN_spec l n _ 0 res) (fun r => attrsN_spec rest n p r)).congr (by omega)
  | (f, .obj c attrs) :: rest, n, p, res => by
    simp only [checkConstraintsN.attrsN, checkAttrs, objLevelsA]
    exact (Within.seq (checkConstraintsN_spec (.obj c attrs) n _ res) (fun r => attrsN_spec rest n p r)).congr (by omega)
  | (f, .none) :: rest, n, p, res | (f, .invalid) :: rest, n, p, res | (f, .path _ _ _) :: rest, n, p, res | (f, .foreign) :: rest, n, p, res
  | (f, .str _) :: rest, n, p, res | (f, .bool _) :: rest, n, p, res | (f, .enum _ _) :: rest, n, p, res | (f, .sfv _ _) :: rest, n, p, res => by
    simp only [checkConstraintsN.attrsN, checkAttrs, objLevelsA]
    exact (Within.seq (scalarN name checks (by simp) n _ res) (fun r => attrsN_spec rest n p r)).congr (by omega)
theorem itemsN_spec : ∀ (l : List (Val C E S F)) (n : Nat) (p : List PTok) (i : Nat) (res : Res Note),
    Within (objLevelsL l ≤ n) (checkConstraintsN.itemsN (checkConstraintsN name checks n) l p i res) (checkItems name checks l p i res)
  | [], n, p, i, res => by
    simp only [checkConstraintsN.itemsN, checkItems]
    exact .same (by simp [objLevelsL]) _
  | v :: vs, n, p, i, res => by
    simp only [checkConstraintsN.itemsN, checkItems, objLevelsL]
    exact (Within.seq (checkConstraintsN_spec v n _ res) (fun r => itemsN_spec vs n p (i + 1) r)).congr (by omega)
end

/-- a value that is read without a complaint under a limit has no more levels -/
theorem Read.within {ops : Ops A} {sc : Schema C E S F} (hs : Sane sc) (he : ∀ a as, ops.asList a false = .ok as → as ≠ []) {ty a v w} (h : Read ops sc ty a w)
    {n : Nat} {res r : Res Note} (hr : res.ok = true) (hp : parseF ops sc n ty a res = .ok (v, r)) : ofVal v ≤ n ∧ v = w := by
  rw [Read.limit hs he h n res hr, limited] at hp
  split at hp
  · cases hp
    exact ⟨by assumption, rfl⟩
  · cases hp

end
end Verif.Parse

namespace Verif.Engine
open Verif Verif.Parse Verif.Aas

/-- `__init__.py` 9-14 and 17-22 with at most `n` nested calls of `parse` and at most `m` of `check_constraints` -/
def toObjN {A : Type} (ops : Ops A) (lim : Option Nat) (n m : Nat) (value : A) (modelType : Str) : Except PyExc (Res Note × AVal) := do
  let reflection ← symbol modelType
  let (result, env) ← parseAndCheckN ops (schema lim) Fld.pyName (checks lim) n m (ofAnn reflection) value
  if result.ok then
    let result ← Templates.parseSubmodelTemplates result env
    return (result, env)
  else return (result, env)

end Verif.Engine
