import Verif.Spec.Context

/-! # Helper lemmas about result contexts -/

namespace Verif
open Spec

/-- the innermost block gets more entries, all others are untouched -/
def extend (managers : List Frame) (rs : List (Res Str)) : List Frame :=
  match managers with
  | [] => []
  | f :: fs => { f with result := f.result.appendAll rs } :: fs

theorem extend_nil (ms : List Frame) : extend ms [] = ms := by cases ms <;> rfl

theorem extend_cons (f : Frame) (fs : List Frame) (rs : List (Res Str)) :
    extend (f :: fs) rs = { f with result := f.result.appendAll rs } :: fs := rfl

theorem extend_attach (ms : List Frame) (r : Res Str) (rs : List (Res Str)) :
    extend (attach ms r) rs = extend ms (r :: rs) := by cases ms <;> rfl

theorem toResL_append (a b : List Ent) : Ent.toResL (a ++ b) = Ent.toResL a ++ Ent.toResL b := by
  induction a with
  | nil => rfl
  | cons e es ih => simp [Ent.toResL, ih]

theorem flatL_append (a b : List Ent) : Ent.flatL (a ++ b) = Ent.flatL a ++ Ent.flatL b := by
  induction a with
  | nil => rfl
  | cons e es ih => simp [Ent.flatL, ih]

theorem attach_isEmpty (ms : List Frame) (r : Res Str) : (attach ms r).isEmpty = ms.isEmpty := by
  cases ms <;> rfl

theorem toRes_blk_snoc (r : Res Str) (es : List Ent) (x : Res Str) :
    (Ent.blk r (es ++ [.leaf x])).toRes = (r.appendAll (Ent.toResL es)).append x := by
  simp [Ent.toRes, toResL_append, Ent.toResL, Res.appendAll_append, Res.appendAll_cons, Res.appendAll_nil]

/-- Running a program on the stack does what its meaning says. -/
theorem exec_eq {Q A : Type} (env : List Q → Q → A) {α : Type} (p : Prog Q A α) : ∀ st : St Q,
    ∃ n, exec env p st =
      (⟨extend st.managers (Ent.toResL (meaning env p (!st.managers.isEmpty) st.hist).ents), n,
        (meaning env p (!st.managers.isEmpty) st.hist).hist⟩,
       (meaning env p (!st.managers.isEmpty) st.hist).out) := by
  induction p with
  | pure a => intro st; exact ⟨st.next, by simp [exec, meaning, Ent.toResL, extend_nil]⟩
  | abort r => intro st; exact ⟨st.next, by simp [exec, meaning, Ent.toResL, extend_nil]⟩
  | raise e => intro st; exact ⟨st.next, by simp [exec, meaning, Ent.toResL, extend_nil]⟩
  | write r k ih =>
    intro st
    cases hm : st.managers with
    | nil =>
      refine ⟨st.next, ?_⟩
      cases st
      simp only at hm
      subst hm
      simp [exec, meaning, noOpenContext, extend]
    | cons f fs =>
      obtain ⟨n, hn⟩ := ih { st with managers := { f with result := f.result.append r } :: fs }
      refine ⟨n, ?_⟩
      simp only [exec, hm]
      rw [hn]
      simp [meaning, Meaning.after, extend, Ent.toResL, Ent.toRes, Res.appendAll_cons]
  | query q k ih =>
    intro st
    obtain ⟨n, hn⟩ := ih (env st.hist q) { st with hist := st.hist ++ [q] }
    refine ⟨n, ?_⟩
    simp only [exec]
    rw [hn]
    simp [meaning]
  | block r c body k ihb ihk =>
    intro st
    obtain ⟨n1, hn1⟩ := ihb { st with managers := ⟨st.next, r, c⟩ :: st.managers, next := st.next + 1 }
    simp only [exec]
    rw [hn1]
    simp only [List.isEmpty_cons, Bool.not_false, extend_cons, meaning]
    cases ho : (meaning env body true st.hist).out with
    | val v =>
      obtain ⟨n2, hn2⟩ := ihk (Ent.blk r (meaning env body true st.hist).ents).toRes (some v)
        ⟨attach st.managers (Ent.blk r (meaning env body true st.hist).ents).toRes, n1,
          (meaning env body true st.hist).hist⟩
      refine ⟨n2, ?_⟩
      simp only [ne_eq, not_true_eq_false, if_false]
      simp only [attach_isEmpty, extend_attach] at hn2
      simp only [Meaning.after, List.singleton_append, Ent.toResL]
      exact hn2
    | aborted x =>
      obtain ⟨n2, hn2⟩ := ihk (Ent.blk r ((meaning env body true st.hist).ents ++ [.leaf x])).toRes none
        ⟨attach st.managers (Ent.blk r ((meaning env body true st.hist).ents ++ [.leaf x])).toRes, n1,
          (meaning env body true st.hist).hist⟩
      refine ⟨n2, ?_⟩
      simp only [ne_eq, not_true_eq_false, if_false]
      simp only [attach_isEmpty, extend_attach] at hn2
      simp only [Meaning.after, List.singleton_append, Ent.toResL]
      rw [← toRes_blk_snoc]
      exact hn2
    | raised x =>
      cases c with
      | true =>
        obtain ⟨n2, hn2⟩ := ihk (Ent.blk r ((meaning env body true st.hist).ents ++ [.leaf (internalError x)])).toRes none
          ⟨attach st.managers (Ent.blk r ((meaning env body true st.hist).ents ++ [.leaf (internalError x)])).toRes, n1,
            (meaning env body true st.hist).hist⟩
        refine ⟨n2, ?_⟩
        simp only [ne_eq, not_true_eq_false, if_false, if_true]
        simp only [attach_isEmpty, extend_attach] at hn2
        simp only [Meaning.after, List.singleton_append, Ent.toResL]
        rw [← toRes_blk_snoc]
        exact hn2
      | false =>
        refine ⟨n1, ?_⟩
        simp [Ent.toResL, extend_nil]

/-- ends without a foreign exception -/
def Out.normal {α : Type} : Out α → Prop
  | .raised _ => False
  | _ => True

theorem toRes_blk_fails {r : Res Str} {es : List Ent} (h : ∃ e ∈ es, e.toRes.ok = false) :
    (Ent.blk r es).toRes.ok = false := by
  obtain ⟨e, he, hf⟩ := h
  cases hh : (Ent.blk r es).toRes.ok with
  | false => rfl
  | true =>
    rw [Ent.toRes, Res.appendAll_ok] at hh
    have : e.toRes ∈ Ent.toResL es := by
      clear hh hf
      induction es with
      | nil => cases he
      | cons x xs ih =>
        rw [Ent.toResL]
        rcases List.mem_cons.mp he with rfl | he
        · exact List.mem_cons_self
        · exact List.mem_cons_of_mem _ (ih he)
    rw [hh.2 _ this] at hf
    cases hf

theorem mem_toResL {e : Ent} {es : List Ent} (he : e ∈ es) : e.toRes ∈ Ent.toResL es := by
  induction es with
  | nil => cases he
  | cons x xs ih =>
    rw [Ent.toResL]
    rcases List.mem_cons.mp he with rfl | he
    · exact List.mem_cons_self
    · exact List.mem_cons_of_mem _ (ih he)

theorem toRes_blk_critical {r : Res Str} {es : List Ent} (h : ∃ e ∈ es, e.toRes.level = .critical) :
    (Ent.blk r es).toRes.level = .critical := by
  obtain ⟨e, he, hf⟩ := h
  have := Res.sub_le_appendAll_level r (Ent.toResL es) _ (mem_toResL he)
  rw [hf] at this
  rw [Ent.toRes]
  revert this
  cases (r.appendAll (Ent.toResL es)).level <;> simp [Level.value]

end Verif
