import Verif.Spec.Dump
import Verif.OpcDump

/-!
# C100: the listing of relationships is complete
-/

namespace Verif.Props
open Verif Spec Opc Res

theorem nodeAt_toTree : ∀ (a : List Nat) (r : Relationship), nodeAt (toTree r) a = (relAt r a).map toTree
  | [], r => by simp [nodeAt, relAt]
  | i :: is, .mk type target subs => by
    rw [toTree, nodeAt, relAt, toTreeL_eq, List.getElem?_map]
    cases subs[i]? with
    | none => rfl
    | some s => exact nodeAt_toTree is s

/-- The listing has one line for each relationship below the given one and for this one itself. The lines are in the order of the addresses
(parents first, siblings in order). Each line has two blanks for each step, the target, and the last part of the type. -/
theorem C100_lines (r : Relationship) : ∃ as : List (List Nat), (∀ a, a ∈ as ↔ (relAt r a).isSome = true) ∧ as.Pairwise (· < ·) ∧
    (r.dump 0).length = as.length ∧ ∀ (i : Nat) a s, as[i]? = some a → relAt r a = some s → ∃ short, ShortType s.type short ∧
      (r.dump 0)[i]? = some (List.replicate (2 * a.length) 32 ++ s.target ++ py!" [" ++ short ++ py!"]") := by
  refine ⟨addrs (toTree r), fun a => ?_, addrs_sorted _, ?_, fun i a s hi hs => ?_⟩
  · rw [mem_addrs, nodeAt_toTree]
    cases relAt r a <;> simp
  · rw [dump_eq, render_eq, List.length_map]
  · obtain ⟨type, target, subs⟩ := s
    refine ⟨_, splitOn_last (pc! '/') type, ?_⟩
    rw [dump_eq, render_eq, List.getElem?_map, hi, Option.map_some, renderAt, nodeAt_toTree, hs]
    simp only [Option.map_some, toTree, Res.msg, dumpLine, blanks2, blanks, Nat.zero_add, List.append_assoc]
    rfl

/-- a package with an origin, two files and a supplement -/
example : Relationship.dump 0 (.mk py!"" py!"/" [.mk py!"http://x/aasx-origin" py!"/aasx/origin" [.mk py!"http://x/aas-spec" py!"/a.xml"
      [.mk py!"http://x/aas-suppl" py!"/doc.pdf" []], .mk py!"aas-spec" py!"/b.json" []]]) =
    [py!"/ []", py!"  /aasx/origin [aasx-origin]", py!"    /a.xml [aas-spec]", py!"      /doc.pdf [aas-suppl]", py!"    /b.json [aas-spec]"] := by
  decide +kernel

end Verif.Props
