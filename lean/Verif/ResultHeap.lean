import Verif.HtmlLemmas

/-!
# Model of `aas_test_engines/result.py`, part 2: results as mutable objects

`AasTestResult` objects are mutable: `append` stores a reference and updates the level of the
receiver only. Objects live on a heap and are named by their index.
-/

namespace Verif.ResultHeap
open Verif Spec

/-- result.py:31-37, an `AasTestResult` object. `created` is the level that was passed to the
constructor (a ghost value; the Python object only has `level`). -/
structure Cell where
  msg : Str
  created : Level
  level : Level
  subs : List Nat

abbrev Heap := List Cell

/-- API calls -/
inductive Op
  /-- `AasTestResult(m, l)`; the new object gets the next free index -/
  | new (m : Str) (l : Level)
  /-- `p.append(c)` -/
  | append (p c : Nat)

/-- result.py:33-37 `__init__` and result.py:39-41 `append`. An `append` with an index that does not
exist has no Python counterpart and does nothing. -/
def step (h : Heap) : Op → Heap
  | .new m l => h ++ [⟨m, l, l, []⟩]
  | .append p c =>
    match h[p]?, h[c]? with
    | some P, some C => h.set p { P with subs := P.subs ++ [c], level := P.level.or C.level }
    | _, _ => h

def run (ops : List Op) : Heap := ops.foldl step []

/-- Calls on existing objects only, and no result is modified after it was appended to another one;
`n` is the number of objects and `F` the objects that were already appended. -/
def Disciplined : Nat → List Nat → List Op → Prop
  | _, _, [] => True
  | n, F, .new _ _ :: ops => Disciplined (n + 1) F ops
  | n, F, .append p c :: ops => p < n ∧ c < n ∧ p ∉ F ∧ p ≠ c ∧ Disciplined n (c :: F) ops

/-- `T` reads the heap as build histories: object `i` was created with its message and level and
then the histories of its sub-results were appended. -/
def Reads (h : Heap) (T : Nat → Build Str) : Prop :=
  ∀ (i : Nat) (c : Cell), h[i]? = some c → T i = .node c.msg c.created (c.subs.map T)

/-- the invariant of disciplined runs -/
structure Inv (h : Heap) (F : List Nat) (T : Nat → Build Str) : Prop where
  reads : Reads h T
  level : ∀ (i : Nat) (c : Cell), h[i]? = some c → c.level = (T i).run.level
  frozen : ∀ (i : Nat) (c : Cell), h[i]? = some c → ∀ j ∈ c.subs, j ∈ F ∧ j < h.length

theorem build_append (m : Str) (l : Level) (bs : List (Build Str)) (b : Build Str) :
    (Build.node m l (bs ++ [b])).run = (Build.node m l bs).run.append b.run := by
  rw [Build.run_eq, Build.run_eq, List.map_append, Res.appendAll, Res.appendAll, List.foldl_append]
  rfl

theorem inv_run (ops : List Op) : ∀ (h : Heap) (F : List Nat) (T : Nat → Build Str),
    Inv h F T → Disciplined h.length F ops → ∃ T' F', Inv (ops.foldl step h) F' T' := by
  induction ops with
  | nil => intro h F T hi _; exact ⟨T, F, hi⟩
  | cons op ops ih =>
    intro h F T hi hd
    cases op with
    | new m l =>
      have hlt : ∀ (i : Nat) (c : Cell), h[i]? = some c → i < h.length := by
        intro i c hc
        exact (List.getElem?_eq_some_iff.mp hc).1
      refine ih (h ++ [⟨m, l, l, []⟩]) F (fun i => if i = h.length then .node m l [] else T i) ?_ (by
        simpa [Disciplined] using hd)
      have hcase : ∀ (i : Nat) (c : Cell), (h ++ [(⟨m, l, l, []⟩ : Cell)])[i]? = some c →
          (i = h.length ∧ c = ⟨m, l, l, []⟩) ∨ (i < h.length ∧ h[i]? = some c) := by
        intro i c hc
        by_cases hlt' : i < h.length
        · rw [List.getElem?_append_left hlt'] at hc; exact Or.inr ⟨hlt', hc⟩
        · rw [List.getElem?_append_right (by omega)] at hc
          have : i - h.length = 0 := by
            have := (List.getElem?_eq_some_iff.mp hc).1
            simp at this; omega
          rw [this] at hc
          simp at hc
          exact Or.inl ⟨by omega, hc.symm⟩
      constructor
      · intro i c hc
        rcases hcase i c hc with ⟨rfl, rfl⟩ | ⟨hlt', hc⟩
        · simp
        · have hne : i ≠ h.length := by omega
          simp only [hne, if_false]
          rw [hi.reads i c hc]
          congr 1
          apply List.map_congr_left
          intro j hj
          have := (hi.frozen i c hc j hj).2
          have hne : j ≠ h.length := by omega
          simp [hne]
      · intro i c hc
        rcases hcase i c hc with ⟨rfl, rfl⟩ | ⟨hlt', hc⟩
        · simp [Build.run, Build.runL, Res.new, Res.level]
        · have hne : i ≠ h.length := by omega
          simp only [hne, if_false]
          exact hi.level i c hc
      · intro i c hc j hj
        rcases hcase i c hc with ⟨rfl, rfl⟩ | ⟨_, hc⟩
        · cases hj
        · have := hi.frozen i c hc j hj
          exact ⟨this.1, by simp; omega⟩
    | append p c =>
      obtain ⟨hp, hc, hF, hpc, hd⟩ := hd
      have eP : h[p]? = some h[p] := List.getElem?_eq_getElem hp
      have eC : h[c]? = some h[c] := List.getElem?_eq_getElem hc
      have hstep : step h (.append p c) =
          h.set p { h[p] with subs := h[p].subs ++ [c], level := h[p].level.or h[c].level } := by
        simp [step, eP, eC]
      rw [List.foldl_cons, hstep]
      refine ih _ (c :: F) (fun i => if i = p then .node h[p].msg h[p].created ((h[p].subs ++ [c]).map T) else T i)
        ?_ (by simpa using hd)
      have hcase : ∀ (i : Nat) (x : Cell), (h.set p { h[p] with subs := h[p].subs ++ [c], level := h[p].level.or h[c].level })[i]? = some x →
          (i = p ∧ x = { h[p] with subs := h[p].subs ++ [c], level := h[p].level.or h[c].level }) ∨
          (i ≠ p ∧ h[i]? = some x) := by
        intro i x hx
        rw [List.getElem?_set] at hx
        by_cases e : p = i
        · subst e
          simp [hp] at hx
          exact Or.inl ⟨rfl, hx.symm⟩
        · simp [e] at hx
          exact Or.inr ⟨fun e' => e e'.symm, hx⟩
      have hsub : ∀ (i : Nat) (x : Cell), h[i]? = some x → ∀ j ∈ x.subs, j ≠ p := by
        intro i x hx j hj e
        exact hF (e ▸ (hi.frozen i x hx j hj).1)
      constructor
      · intro i x hx
        rcases hcase i x hx with ⟨rfl, rfl⟩ | ⟨hne, hx⟩
        · simp only [if_true]
          congr 1
          apply List.map_congr_left
          intro j hj
          have hj' : j ≠ i := by
            rw [List.mem_append, List.mem_singleton] at hj
            rcases hj with hj | rfl
            · exact hsub i _ eP j hj
            · exact fun e => hpc e.symm
          simp [hj']
        · simp only [hne, if_false]
          rw [hi.reads i x hx]
          congr 1
          apply List.map_congr_left
          intro j hj
          simp [hsub i x hx j hj]
      · intro i x hx
        rcases hcase i x hx with ⟨rfl, rfl⟩ | ⟨hne, hx⟩
        · simp only [if_true]
          rw [List.map_append, List.map_singleton, build_append, ← hi.reads i _ eP]
          simp only [Res.append, Res.level]
          have h1 := hi.level i _ eP
          have h2 := hi.level c _ eC
          simp only [Res.level] at h1 h2
          rw [h1, h2]
        · simp only [hne, if_false]
          exact hi.level i x hx
      · intro i x hx j hj
        rcases hcase i x hx with ⟨rfl, rfl⟩ | ⟨hne, hx⟩
        · rw [List.mem_append, List.mem_singleton] at hj
          rcases hj with hj | rfl
          · have := hi.frozen i _ eP j hj
            exact ⟨List.mem_cons_of_mem _ this.1, by simpa using this.2⟩
          · exact ⟨List.mem_cons_self, by simpa using hc⟩
        · have := hi.frozen i x hx j hj
          exact ⟨List.mem_cons_of_mem _ this.1, by simpa using this.2⟩

end Verif.ResultHeap
