import Verif.ContextLemmas

/-! # C06-C09: result contexts -/

namespace Verif.Props
open Verif Spec

variable {Q A : Type} (env : List Q → Q → A)

/-! ## C06 -/

/-- C06: whatever a program does, afterwards the open contexts are the same as before; at most the
innermost one has got more entries. -/
theorem C06_contexts_restored {α : Type} (p : Prog Q A α) (st : St Q) :
    ∃ rs : List (Res Str),
      match st.managers with
      | [] => (exec env p st).1.managers = []
      | f :: fs => (exec env p st).1.managers = ⟨f.id, f.result.appendAll rs, f.catchAll⟩ :: fs := by
  obtain ⟨n, hn⟩ := exec_eq env p st
  refine ⟨Ent.toResL (meaning env p (!st.managers.isEmpty) st.hist).ents, ?_⟩
  rw [hn]
  cases st.managers <;> rfl

/-- C06: running on the stack agrees with the stack-free meaning. In particular closing a block never
finds another context (`assert m is self`) or no context on top of the stack. -/
theorem C06_refines_meaning {α : Type} (p : Prog Q A α) (st : St Q) :
    let m := meaning env p (!st.managers.isEmpty) st.hist
    (exec env p st).2 = m.out ∧ (exec env p st).1.hist = m.hist ∧
    match st.managers with
    | [] => (exec env p st).1.managers = []
    | f :: fs => (exec env p st).1.managers = ⟨f.id, f.result.appendAll (Ent.toResL m.ents), f.catchAll⟩ :: fs := by
  obtain ⟨n, hn⟩ := exec_eq env p st
  simp only
  rw [hn]
  refine ⟨rfl, rfl, ?_⟩
  cases st.managers <;> rfl

/-- exceptions in the program text itself -/
inductive Raises (env : List Q → Q → A) : {α : Type} → Prog Q A α → Exc → Prop
  | raise {α : Type} {e : Exc} : Raises env (.raise e : Prog Q A α) e
  | closed {α : Type} {r : Res Str} {k : Prog Q A α} : Raises env (.write r k) noOpenContext
  | write {α : Type} {e : Exc} {r : Res Str} {k : Prog Q A α} : Raises env k e → Raises env (.write r k) e
  | query {α : Type} {e : Exc} {q : Q} {k : A → Prog Q A α} {a : A} : Raises env (k a) e → Raises env (.query q k) e
  | body {α β : Type} {e : Exc} {r : Res Str} {c : Bool} {b : Prog Q A β} {k : Res Str → Option β → Prog Q A α} :
      Raises env b e → Raises env (.block r c b k) e
  | cont {α β : Type} {e : Exc} {r x : Res Str} {v : Option β} {c : Bool} {b : Prog Q A β}
      {k : Res Str → Option β → Prog Q A α} :
      Raises env (k x v) e → Raises env (.block r c b k) e

theorem out_raises {α : Type} (p : Prog Q A α) : ∀ (o : Bool) (h : List Q) (e : Exc),
    (meaning env p o h).out = .raised e → Raises env p e := by
  induction p with
  | pure a => intro o h e he; simp [meaning] at he
  | abort r => intro o h e he; simp [meaning] at he
  | raise x => intro o h e he; simp [meaning] at he; subst he; exact .raise
  | write r k ih =>
    intro o h e he
    cases o with
    | true => exact .write (ih true h e (by simpa [meaning, Meaning.after] using he))
    | false =>
      simp [meaning] at he
      subst he
      exact .closed
  | query q k ih =>
    intro o h e he
    exact .query (ih _ _ _ _ (by simpa [meaning] using he))
  | block r c body k ihb ihk =>
    intro o h e he
    simp only [meaning] at he
    cases ho : (meaning env body true h).out with
    | val v => rw [ho] at he; exact .cont (ihk _ _ _ _ _ (by simpa [Meaning.after] using he))
    | aborted x => rw [ho] at he; exact .cont (ihk _ _ _ _ _ (by simpa [Meaning.after] using he))
    | raised x =>
      rw [ho] at he
      cases c with
      | true => exact .cont (ihk _ _ _ _ _ (by simpa [Meaning.after] using he))
      | false =>
        simp at he
        subst he
        exact .body (ihb _ _ _ ho)

/-- C06: the context machinery itself never raises: every exception that leaves a program was raised
by a statement of the program (or by a `write` outside of any context). In particular
`managers.pop()` never fails and `assert m is self` always holds. -/
theorem C06_no_internal_failure {α : Type} (p : Prog Q A α) (st : St Q) (e : Exc)
    (h : (exec env p st).2 = .raised e) : Raises env p e := by
  have := (C06_refines_meaning env p st).1
  rw [h] at this
  exact out_raises env p _ _ e this.symm

/-! ## C07 -/

/-- C07: an abort in a block with the entries `es` so far: the block gets the abort message as last
entry, is attached to the enclosing block, and execution goes on after the block. -/
theorem C07_abort {α β : Type} (r x : Res Str) (c : Bool) (body : Prog Q A β)
    (k : Res Str → Option β → Prog Q A α) (st : St Q) (f : Frame) (fs : List Frame)
    (hst : st.managers = f :: fs) (hx : (meaning env body true st.hist).out = .aborted x) :
    let b := meaning env body true st.hist
    let res := (r.appendAll (Ent.toResL b.ents)).append x
    ∃ n, exec env (.block r c body k) st =
      exec env (k res none) ⟨{ f with result := f.result.append res } :: fs, n, b.hist⟩ := by
  obtain ⟨n1, hn1⟩ := exec_eq env body
    { st with managers := ⟨st.next, r, c⟩ :: st.managers, next := st.next + 1 }
  refine ⟨n1, ?_⟩
  simp only [exec]
  rw [hn1]
  simp only [List.isEmpty_cons, Bool.not_false, extend_cons, hx]
  simp [hst, attach]

/-- the events that are visible in the report -/
def visible : List Ev → List Ev
  | [] => []
  | .exc _ :: l => visible l
  | e :: l => e :: visible l

theorem visible_append (a b : List Ev) : visible (a ++ b) = visible a ++ visible b := by
  induction a with
  | nil => rfl
  | cons e l ih => cases e <;> simp [visible, ih]

/-- what is still to be recorded by the enclosing block -/
def pending {α : Type} : Out α → List Ev
  | .aborted x => [.note x]
  | _ => []

/-- C07: unless a foreign exception leaves a block that does not catch it, the report shows all
blocks and all entries (written, aborted or from caught exceptions) in program order. -/
theorem C07_program_order {α : Type} (p : Prog Q A α) : ∀ (o : Bool) (h : List Q),
    Ev.unwound ∉ (meaning env p o h).log →
    visible (meaning env p o h).log = Ent.flatL (meaning env p o h).ents ++ pending (meaning env p o h).out := by
  induction p with
  | pure a => intro o h _; simp [meaning, visible, Ent.flatL, pending]
  | abort r => intro o h _; simp [meaning, visible, Ent.flatL, pending]
  | raise x => intro o h _; simp [meaning, visible, Ent.flatL, pending]
  | write r k ih =>
    intro o h hu
    cases o with
    | true =>
      have := ih true h (by simpa [meaning, Meaning.after] using hu)
      simp [meaning, Meaning.after, visible, Ent.flatL, Ent.flat, this]
    | false => simp [meaning, visible, Ent.flatL, pending]
  | query q k ih =>
    intro o h hu
    simp only [meaning] at hu ⊢
    exact ih _ _ _ hu
  | block r c body k ihb ihk =>
    intro o h hu
    simp only [meaning] at hu ⊢
    cases ho : (meaning env body true h).out with
    | val v =>
      rw [ho] at hu
      simp only [Meaning.after, List.mem_append, List.mem_cons, not_or] at hu
      have h1 := ihb true h hu.1.2
      have h2 := ihk _ _ _ _ hu.2
      rw [ho] at h1
      simp only [Meaning.after, visible_append, visible, h1, h2]
      simp [Ent.flatL, Ent.flat, pending]
    | aborted x =>
      rw [ho] at hu
      simp only [Meaning.after, List.mem_append, List.mem_cons, not_or] at hu
      have h1 := ihb true h hu.1.2
      have h2 := ihk _ _ _ _ hu.2
      rw [ho] at h1
      simp only [Meaning.after, visible_append, visible, h1, h2]
      simp [Ent.flatL, Ent.flat, flatL_append, pending]
    | raised x =>
      rw [ho] at hu
      cases c with
      | true =>
        simp only [if_true, Meaning.after, List.mem_append, List.mem_cons, not_or] at hu
        simp only [if_true]
        generalize Res.new (py!"Internal error: " ++ x.text) .critical = crit at hu ⊢
        have h1 := ihb true h hu.1.1.2
        have h2 := ihk _ _ _ _ hu.2
        rw [ho] at h1
        simp only [Meaning.after, visible_append, visible, List.cons_append, h1, h2]
        simp [Ent.flatL, Ent.flat, flatL_append, pending]
      | false => simp at hu

/-- C07: if something that is not ok was noted (a default abort, a failing result) and no foreign
exception interfered, then an entry is not ok, at every level of nesting: the enclosing blocks are
not ok. -/
theorem C07_fails_all_enclosing {α : Type} (p : Prog Q A α) : ∀ (o : Bool) (h : List Q) (x : Res Str),
    Ev.unwound ∉ (meaning env p o h).log → Ev.note x ∈ (meaning env p o h).log → x.ok = false →
    (∃ e ∈ (meaning env p o h).ents, e.toRes.ok = false) ∨ (meaning env p o h).out = .aborted x := by
  induction p with
  | pure a => intro o h x _ hx; simp [meaning] at hx
  | abort r => intro o h x _ hx _; simp [meaning] at hx ⊢; exact hx.symm
  | raise e => intro o h x _ hx; simp [meaning] at hx
  | write r k ih =>
    intro o h x hu hx hf
    cases o with
    | true =>
      simp only [meaning, Meaning.after, List.singleton_append, List.mem_cons, not_or] at hu hx ⊢
      rcases hx with hx | hx
      · injection hx with hx
        subst hx
        exact Or.inl ⟨_, Or.inl rfl, hf⟩
      · rcases ih true h x hu.2 hx hf with ⟨e, he, hh⟩ | hh
        · exact Or.inl ⟨e, Or.inr he, hh⟩
        · exact Or.inr hh
    | false => simp [meaning] at hx
  | query q k ih =>
    intro o h x hu hx hf
    simp only [meaning] at hu hx ⊢
    exact ih _ _ _ _ hu hx hf
  | block r c body k ihb ihk =>
    intro o h x hu hx hf
    simp only [meaning] at hu hx ⊢
    cases ho : (meaning env body true h).out with
    | val v =>
      rw [ho] at hu hx
      simp only [Meaning.after, List.mem_append, List.mem_cons, not_or, reduceCtorEq, false_or] at hu hx ⊢
      rcases hx with hx | hx
      · rcases ihb true h x hu.1 hx hf with hh | hh
        · exact Or.inl ⟨_, Or.inl (Or.inl rfl), toRes_blk_fails hh⟩
        · rw [ho] at hh; cases hh
      · rcases ihk _ _ _ _ x hu.2 hx hf with ⟨e, he, hh⟩ | hh
        · exact Or.inl ⟨e, Or.inr he, hh⟩
        · exact Or.inr hh
    | aborted y =>
      rw [ho] at hu hx
      simp only [Meaning.after, List.mem_append, List.mem_cons, not_or, reduceCtorEq, false_or] at hu hx ⊢
      rcases hx with hx | hx
      · refine Or.inl ⟨_, Or.inl (Or.inl rfl), toRes_blk_fails ?_⟩
        rcases ihb true h x hu.1 hx hf with ⟨e, he, hh⟩ | hh
        · exact ⟨e, List.mem_append_left _ he, hh⟩
        · rw [ho] at hh
          injection hh with hh
          subst hh
          exact ⟨.leaf y, List.mem_append_right _ List.mem_cons_self, hf⟩
      · rcases ihk _ _ _ _ x hu.2 hx hf with ⟨e, he, hh⟩ | hh
        · exact Or.inl ⟨e, Or.inr he, hh⟩
        · exact Or.inr hh
    | raised y =>
      rw [ho] at hu hx
      cases c with
      | true =>
        simp only [if_true, Meaning.after, List.mem_append, List.mem_cons, not_or, reduceCtorEq, false_or,
          List.not_mem_nil, or_false] at hu hx ⊢
        rcases hx with hx | hx
        · refine Or.inl ⟨_, Or.inl rfl, toRes_blk_fails ?_⟩
          exact ⟨.leaf (internalError y), List.mem_append_right _ List.mem_cons_self, rfl⟩
        · rcases ihk _ _ _ _ x hu.2 hx hf with ⟨e, he, hh⟩ | hh
          · exact Or.inl ⟨e, Or.inr he, hh⟩
          · exact Or.inr hh
      | false => simp at hu

/-- the default level of an abort is ERROR, i.e. not ok -/
theorem C07_default_abort (m : Str) {α : Type} (o : Bool) (h : List Q) :
    ∃ x, (meaning env (Prog.abortMsg m : Prog Q A α) o h).out = .aborted x ∧ x.ok = false ∧ x.msg = m :=
  ⟨_, rfl, rfl, rfl⟩

/-- C07: the code before the abort runs, the code after it in the same block does not, whatever it is. -/
theorem C07_rest_skipped {α β : Type} (x : Res Str) (p : Prog Q A α) (k k' : α → Prog Q A β) (o : Bool) (h : List Q)
    (hx : (meaning env p o h).out = .aborted x) : meaning env (p.bind k) o h = meaning env (p.bind k') o h := by
  have key : ∀ {α : Type} (p : Prog Q A α) (k k' : α → Prog Q A β) (o : Bool) (h : List Q),
      (meaning env p o h).out = .aborted x → meaning env (p.bind k) o h = meaning env (p.bind k') o h := by
    intro α p
    induction p with
    | pure a => intro k k' o h hx; simp [meaning] at hx
    | abort r => intro k k' o h hx; rfl
    | raise e => intro k k' o h hx; rfl
    | write r q ih =>
      intro k k' o h hx
      cases o with
      | true =>
        simp only [Prog.bind, meaning]
        rw [ih k k' true h (by simpa [meaning, Meaning.after] using hx)]
      | false => rfl
    | query q f ih =>
      intro k k' o h hx
      simp only [Prog.bind, meaning]
      exact ih _ _ _ _ _ (by simpa [meaning] using hx)
    | block r c body f _ ihk =>
      intro k k' o h hx
      simp only [Prog.bind, meaning] at hx ⊢
      cases ho : (meaning env body true h).out with
      | val v =>
        rw [ho] at hx
        simp only
        rw [ihk _ _ k k' _ _ (by simpa [Meaning.after] using hx)]
      | aborted y =>
        rw [ho] at hx
        simp only
        rw [ihk _ _ k k' _ _ (by simpa [Meaning.after] using hx)]
      | raised y =>
        rw [ho] at hx
        cases c with
        | true =>
          simp only [if_true] at hx ⊢
          rw [ihk _ _ k k' _ _ (by simpa [Meaning.after] using hx)]
        | false => rfl
  exact key p k k' o h hx

/-! ## C08 -/

/-- C08: an exception leaves a block that does not catch everything. -/
theorem C08_propagates {α β : Type} (r : Res Str) (e : Exc) (body : Prog Q A β)
    (k : Res Str → Option β → Prog Q A α) (st : St Q)
    (he : (meaning env body true st.hist).out = .raised e) :
    (exec env (.block r false body k) st).2 = .raised e ∧
    (exec env (.block r false body k) st).1.managers = st.managers := by
  obtain ⟨n, hn⟩ := exec_eq env (.block r false body k) st
  rw [hn]
  simp [meaning, he, Ent.toResL, extend_nil]

/-- C08: a catch-all block records the exception as its last entry, with level CRITICAL. -/
theorem C08_recorded {α β : Type} (r : Res Str) (e : Exc) (body : Prog Q A β)
    (k : Res Str → Option β → Prog Q A α) (st : St Q) (f : Frame) (fs : List Frame)
    (hst : st.managers = f :: fs) (he : (meaning env body true st.hist).out = .raised e) :
    let b := meaning env body true st.hist
    let res := (r.appendAll (Ent.toResL b.ents)).append (Res.new (py!"Internal error: " ++ e.text) .critical)
    res.level = .critical ∧
    ∃ n, exec env (.block r true body k) st =
      exec env (k res none) ⟨{ f with result := f.result.append res } :: fs, n, b.hist⟩ := by
  refine ⟨?_, ?_⟩
  · have hcrit : ∀ l : Level, l.or .critical = .critical := by intro l; cases l <;> rfl
    exact hcrit _
  · obtain ⟨n1, hn1⟩ := exec_eq env body
      { st with managers := ⟨st.next, r, true⟩ :: st.managers, next := st.next + 1 }
    refine ⟨n1, ?_⟩
    simp only [exec]
    rw [hn1]
    simp only [List.isEmpty_cons, Bool.not_false, extend_cons, he]
    simp [hst, attach, internalError]

/-- C08: if a program does not end with an exception although one was raised somewhere, then some
entry is CRITICAL, and so is the enclosing block. -/
theorem C08_never_silent {α : Type} (p : Prog Q A α) : ∀ (o : Bool) (h : List Q) (e : Exc),
    Ev.exc e ∈ (meaning env p o h).log → (meaning env p o h).out.normal →
    ∃ t ∈ (meaning env p o h).ents, t.toRes.level = .critical := by
  induction p with
  | pure a => intro o h x hx; simp [meaning] at hx
  | abort r => intro o h x hx _; simp [meaning] at hx
  | raise e => intro o h x _ hx; simp [meaning, Out.normal] at hx
  | write r k ih =>
    intro o h x hx hn
    cases o with
    | true =>
      simp only [meaning, Meaning.after, List.singleton_append, List.mem_cons, reduceCtorEq, false_or] at hx hn ⊢
      obtain ⟨e, he, hh⟩ := ih true h x hx hn
      exact ⟨e, Or.inr he, hh⟩
    | false => simp [meaning, Out.normal] at hn
  | query q k ih =>
    intro o h x hx hn
    simp only [meaning] at hx hn ⊢
    exact ih _ _ _ _ hx hn
  | block r c body k ihb ihk =>
    intro o h x hx hn
    simp only [meaning] at hx hn ⊢
    cases ho : (meaning env body true h).out with
    | val v =>
      rw [ho] at hn hx
      simp only [Meaning.after, List.mem_append, List.mem_cons, reduceCtorEq, false_or] at hn hx ⊢
      rcases hx with hx | hx
      · exact ⟨_, Or.inl (Or.inl rfl), toRes_blk_critical (ihb true h x hx (by rw [ho]; trivial))⟩
      · obtain ⟨e, he, hh⟩ := ihk _ _ _ _ x hx hn
        exact ⟨e, Or.inr he, hh⟩
    | aborted y =>
      rw [ho] at hn hx
      simp only [Meaning.after, List.mem_append, List.mem_cons, reduceCtorEq, false_or] at hn hx ⊢
      rcases hx with hx | hx
      · refine ⟨_, Or.inl (Or.inl rfl), toRes_blk_critical ?_⟩
        obtain ⟨e, he, hh⟩ := ihb true h x hx (by rw [ho]; trivial)
        exact ⟨e, List.mem_append_left _ he, hh⟩
      · obtain ⟨e, he, hh⟩ := ihk _ _ _ _ x hx hn
        exact ⟨e, Or.inr he, hh⟩
    | raised y =>
      rw [ho] at hn hx
      cases c with
      | true =>
        simp only [if_true, Meaning.after, List.mem_append, List.mem_cons, reduceCtorEq, false_or,
          List.not_mem_nil, or_false] at hn hx ⊢
        rcases hx with hx | hx
        · refine ⟨_, Or.inl rfl, toRes_blk_critical ?_⟩
          exact ⟨.leaf (internalError y), List.mem_append_right _ List.mem_cons_self, rfl⟩
        · obtain ⟨e, he, hh⟩ := ihk _ _ _ _ x hx hn
          exact ⟨e, Or.inr he, hh⟩
      | false => simp [Out.normal] at hn

/-- Limits of C08 (found while proving): when a foreign exception leaves a block, everything written
in this block is lost, also the record of an exception that was caught before. -/
theorem C08_unwound_entries_lost : ∃ p : Prog Unit Unit Unit,
    let m := meaning (fun _ _ => ()) p false []
    Ev.note (Res.new py!"important" .error) ∈ m.log ∧
    (∃ t ∈ m.ents, t.toRes.level = .critical) ∧
    Ev.note (Res.new py!"important" .error) ∉ Ent.flatL m.ents := by
  refine ⟨.block (Res.new py!"outer") true
    (.block (β := Unit) (Res.new py!"inner") false
      (.write (Res.new py!"important" .error) (.raise ⟨.keyError, py!"x"⟩))
      (fun _ _ => .pure ())) (fun _ _ => .pure ()), ?_, ?_, ?_⟩
  · simp [meaning, Meaning.after]
  · simp [meaning, Meaning.after, Ent.toRes, Ent.toResL, Res.appendAll, Res.append, Res.new,
      Res.level, Level.or, Level.value, Level.ofValue]
  · simp [meaning, Meaning.after, Ent.flatL, Ent.flat, Res.new]

/-! ## C09 -/

/-- C09: `write` without open context raises and changes nothing. -/
theorem C09_write_closed {α : Type} (r : Res Str) (k : Prog Q A α) (st : St Q) (h : st.managers = []) :
    exec env (.write r k) st = (st, .raised ⟨.runtimeError, py!"No open context"⟩) := by
  simp [exec, h, noOpenContext]

/-- C09: `write` appends exactly one entry to the innermost block and touches nothing else. -/
theorem C09_write_open {α : Type} (r : Res Str) (k : Prog Q A α) (st : St Q) (f : Frame) (fs : List Frame)
    (h : st.managers = f :: fs) :
    exec env (.write r k) st =
      exec env k ⟨⟨f.id, .mk f.result.msg (f.result.level.or r.level) (f.result.subs ++ [r]), f.catchAll⟩ :: fs,
        st.next, st.hist⟩ := by
  simp [exec, h, Res.append]

/-! ## non-vacuity: a program with nested blocks, an abort and a caught exception -/

/-- with start("a"): write("1"); (with start("b"): write("2"); abort("3")); write("4");
(with start("c", True): raise KeyError); write("5") -/
def sample : Prog Unit Unit Nat :=
  .block (Res.new py!"a") false
    (.writeMsg py!"1" (.block (Res.new py!"b") false
      (.writeMsg py!"2" (.abortMsg py!"3") : Prog Unit Unit Nat)
      (fun _ _ => .writeMsg py!"4" (.block (Res.new py!"c") true
        (.raise ⟨.keyError, py!"k"⟩ : Prog Unit Unit Nat)
        (fun _ _ => .writeMsg py!"5" (.pure 7))))))
    (fun r v => .pure (if r.ok then 0 else v.getD 0))

example : (exec (fun _ _ => ()) sample ⟨[], 0, []⟩).2 = .val 7 := by
  simp [sample, exec, Prog.writeMsg, Prog.abortMsg, attach, internalError, Res.append, Res.new, Res.ok, Res.level,
    Level.or, Level.value, Level.ofValue]
example : Ev.unwound ∉ (meaning (fun _ _ => ()) sample false []).log ∧
    Ev.exc ⟨.keyError, py!"k"⟩ ∈ (meaning (fun _ _ => ()) sample false []).log := by
  simp [sample, meaning, Meaning.after, Prog.writeMsg, Prog.abortMsg]
example : (meaning (fun _ _ => ()) (.abortMsg py!"3" : Prog Unit Unit Nat) true []).out = .aborted (Res.new py!"3" .error) :=
  rfl
example : (meaning (fun _ _ => ()) (.raise ⟨.keyError, py!"3"⟩ : Prog Unit Unit Nat) true []).out =
    .raised ⟨.keyError, py!"3"⟩ := rfl

end Verif.Props
