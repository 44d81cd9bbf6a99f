import Verif.Opc
import Verif.ResultLemmas2
import Verif.ConfigLemmas

/-!
# Helper lemmas: lines of a tree, `dump`
-/

namespace Verif.Opc
open Verif Spec Res

variable {μ : Type} (f : Nat → μ → Str)

mutual
/-- the lines of a tree -/
def render (d : Nat) : Res μ → List Str
  | .mk m _ ss => f d m :: renderL (d + 1) ss
def renderL (d : Nat) : List (Res μ) → List Str
  | [] => []
  | r :: rs => render d r ++ renderL d rs
end

def renderAt (d : Nat) (r : Res μ) (a : List Nat) : Str :=
  match nodeAt r a with
  | some s => f (d + a.length) s.msg
  | none => []

mutual
theorem render_eq : ∀ (r : Res μ) (d : Nat), render f d r = (addrs r).map (renderAt f d r)
  | .mk m l ss, d => by
    rw [render, addrs, List.map_cons]
    congr 1
    rw [renderL_eq ss (d + 1) 0]
    apply List.map_congr_left
    intro a ha
    obtain ⟨i, is, rfl, _⟩ := addrsL_head_ge ha
    simp only [renderAt, nodeAt, Nat.sub_zero, List.length_cons]
    cases ss[i]? with
    | none => rfl
    | some s =>
      simp only
      cases nodeAt s is with
      | none => rfl
      | some t => simp only; congr 1; omega
theorem renderL_eq : ∀ (rs : List (Res μ)) (d k : Nat), renderL f d rs =
    (addrsL k rs).map (fun a => match a with
      | [] => []
      | i :: is => match rs[i - k]? with
        | some s => renderAt f d s is
        | none => [])
  | [], d, k => rfl
  | r :: rs, d, k => by
    rw [renderL, addrsL, List.map_append, render_eq r d, renderL_eq rs d (k + 1), List.map_map]
    congr 1
    · apply List.map_congr_left
      intro a _
      simp
    · apply List.map_congr_left
      intro a ha
      obtain ⟨i, is, rfl, hi⟩ := addrsL_head_ge ha
      simp only
      have : i - k = (i - (k + 1)) + 1 := by omega
      rw [this]; simp
end

mutual
/-- the tree of types and targets -/
def toTree : Relationship → Res (Str × Str)
  | .mk type target subs => .mk (type, target) .info (toTreeL subs)
def toTreeL : List Relationship → List (Res (Str × Str))
  | [] => []
  | r :: rs => toTree r :: toTreeL rs
end

theorem toTreeL_eq : ∀ (rs : List Relationship), toTreeL rs = rs.map toTree
  | [] => rfl
  | r :: rs => by rw [toTreeL, toTreeL_eq rs]; rfl

def dumpLine (d : Nat) (p : Str × Str) : Str :=
  (List.replicate d py!"  ").flatten ++ (p.2 ++ (py!" [" ++ (((Py.splitOn (pc! '/') p.1).getLast?.getD []) ++ py!"]")))

mutual
theorem dump_eq : ∀ (r : Relationship) (d : Nat), r.dump d = render dumpLine d (toTree r)
  | .mk type target subs, d => by rw [Relationship.dump, toTree, render, dumpL_eq subs (d + 1)]; rfl
theorem dumpL_eq : ∀ (rs : List Relationship) (d : Nat), Relationship.dumpL d rs = renderL dumpLine d (toTreeL rs)
  | [], d => rfl
  | r :: rs, d => by rw [Relationship.dumpL, toTreeL, renderL, dump_eq r d, dumpL_eq rs d]
end

/-- the last part of a text -/
theorem splitOn_last (sep : Nat) (s : Str) : sep ∉ ((Py.splitOn sep s).getLast?.getD []) ∧
    (s = ((Py.splitOn sep s).getLast?.getD []) ∨ ∃ p, s = p ++ sep :: ((Py.splitOn sep s).getLast?.getD [])) := by
  obtain ⟨h1, h2, h3⟩ := Config.splitOn_parts sep s
  generalize Py.splitOn sep s = ts at *
  have key : ∀ ts : List Str, ts ≠ [] → Py.join [sep] ts = ts.getLast?.getD [] ∨ ∃ p, Py.join [sep] ts = p ++ sep :: (ts.getLast?.getD []) := by
    intro ts
    induction ts with
    | nil => exact fun h => absurd rfl h
    | cons t ts ih =>
      intro _
      cases ts with
      | nil => exact .inl rfl
      | cons u us =>
        right
        rw [Py.join, List.getLast?_cons_cons]
        · rcases ih (by simp) with h | ⟨p, h⟩
          · exact ⟨t, by rw [h]; simp⟩
          · exact ⟨t ++ [sep] ++ p, by rw [h]; simp⟩
        · simp
  refine ⟨?_, by rw [h3]; exact key ts h1⟩
  cases hl : ts.getLast? with
  | none => simp
  | some t => exact h2 t (List.mem_of_getLast? hl)

theorem blanks2 (d : Nat) : (List.replicate d py!"  ").flatten = blanks (2 * d) := by
  induction d with
  | zero => rfl
  | succ d ih =>
    rw [List.replicate_succ, List.flatten_cons, ih, blanks, blanks, show 2 * (d + 1) = 2 + 2 * d by omega, ← List.replicate_append_replicate]
    rfl

end Verif.Opc
