import Verif.ResultHeap
import Verif.ResultRead

/-! # C01-C05: result trees -/

namespace Verif.Props
open Verif Spec

/-! ## C01 -/

/-- C01: the level of a result is the worst of the levels given to all nodes below it. -/
theorem C01_level_is_worst {μ : Type} (b : Build μ) : IsWorst b.levels b.run.level := b.isWorst

/-- C01: `ok()` iff no node was created with level ERROR or CRITICAL. -/
theorem C01_ok_iff {μ : Type} (b : Build μ) : b.run.ok = true ↔ ∀ l ∈ b.levels, ¬ Fails l := by
  have h := b.isWorst
  rw [Res.ok_iff_value]
  constructor
  · intro hle l hl
    rw [Res.fails_iff]
    have := h.2 l hl
    omega
  · intro hall
    have := hall _ h.1
    rw [Res.fails_iff] at this
    omega

/-- C01 for the mutable objects of the Python code: after any sequence of constructor and append
calls in which no result is modified after it was appended, the heap can be read as a forest of
build histories, and each object has the worst level of its history. -/
theorem C01_heap (ops : List ResultHeap.Op) (hd : ResultHeap.Disciplined 0 [] ops) :
    ∃ T : Nat → Build Str, ResultHeap.Reads (ResultHeap.run ops) T ∧
      ∀ (i : Nat) (c : ResultHeap.Cell), (ResultHeap.run ops)[i]? = some c →
        IsWorst (T i).levels c.level ∧ c.level = (T i).run.level := by
  obtain ⟨T, F, hT⟩ := ResultHeap.inv_run ops [] [] (fun _ => .node [] .info [])
    ⟨by intro i c h; simp at h, by intro i c h; simp at h, by intro i c h; simp at h⟩ hd
  refine ⟨T, hT.reads, ?_⟩
  intro i c hc
  have := hT.level i c hc
  exact ⟨this ▸ (T i).isWorst, this⟩

/-- The discipline is needed: if a result is changed after it was appended, the parent keeps its
level, and a result can be ok although a node below it has level ERROR. -/
theorem C01_undisciplined_violated : ∃ ops : List ResultHeap.Op,
    ∃ T : Nat → Build Str, ResultHeap.Reads (ResultHeap.run ops) T ∧
      ∃ c, (ResultHeap.run ops)[0]? = some c ∧ c.level = .info ∧ .error ∈ (T 0).levels := by
  refine ⟨[.new py!"a" .info, .new py!"b" .info, .append 0 1, .new py!"c" .error, .append 1 2],
    fun i => if i = 0 then .node py!"a" .info [.node py!"b" .info [.node py!"c" .error []]]
             else if i = 1 then .node py!"b" .info [.node py!"c" .error []]
             else .node py!"c" .error [], ?_, ?_⟩
  · intro i c hc
    match i with
    | 0 => cases hc; rfl
    | 1 => cases hc; rfl
    | 2 => cases hc; rfl
    | n + 3 => cases hc
  · exact ⟨_, rfl, rfl, by decide⟩

example : (Build.node py!"a" .info [.node py!"b" .warning [], .node py!"c" .info [.node py!"d" .error []]]).run.ok
    = false := rfl
example : ResultHeap.Disciplined 0 []
    [.new py!"a" .info, .new py!"b" .info, .new py!"c" .error, .append 1 2, .append 0 1, .append 0 2] := by
  simp [ResultHeap.Disciplined]

/-! ## C02 -/

/-- C02: an append keeps all sub-results in order, adds the new one last, keeps the message; the new
level is the worse of both. -/
theorem C02_append {μ : Type} (r s : Res μ) :
    (r.append s).subs = r.subs ++ [s] ∧ (r.append s).msg = r.msg ∧
    IsWorst [r.level, s.level] (r.append s).level := by
  refine ⟨rfl, rfl, ?_, ?_⟩
  · rcases Level.or_mem r.level s.level with h | h <;> simp [h]
  · intro x hx
    rw [Res.append_level, Level.or_value]
    simp only [List.mem_cons, List.not_mem_nil, or_false] at hx
    rcases hx with rfl | rfl <;> omega

/-- C02: a result that is not ok stays not ok, whatever is appended. -/
theorem C02_never_hidden {μ : Type} (r : Res μ) (ss : List (Res μ)) (h : r.ok = false) :
    (r.appendAll ss).ok = false := by
  cases hh : (r.appendAll ss).ok with
  | false => rfl
  | true => rw [((Res.appendAll_ok r ss).mp hh).1] at h; cases h

/-- C02: a failing sub-result makes the result fail. -/
theorem C02_sub_fails {μ : Type} (r : Res μ) (ss : List (Res μ)) (s : Res μ) (hs : s ∈ ss)
    (h : s.ok = false) : (r.appendAll ss).ok = false := by
  cases hh : (r.appendAll ss).ok with
  | false => rfl
  | true => rw [((Res.appendAll_ok r ss).mp hh).2 s hs] at h; cases h

/-- C02: the level does not depend on the order of the appends. -/
theorem C02_order_irrelevant {μ : Type} (r : Res μ) (ss ts : List (Res μ)) (h : ss.Perm ts) :
    (r.appendAll ss).level = (r.appendAll ts).level := by
  apply Level.value_inj
  apply Nat.le_antisymm
  · rw [Res.appendAll_level_le_iff]
    exact ⟨Res.le_appendAll_level r ts, fun s hs => Res.sub_le_appendAll_level r ts s (h.mem_iff.mp hs)⟩
  · rw [Res.appendAll_level_le_iff]
    exact ⟨Res.le_appendAll_level r ss, fun s hs => Res.sub_le_appendAll_level r ss s (h.mem_iff.mpr hs)⟩

/-- C02: several appends keep everything, in order. -/
theorem C02_appendAll {μ : Type} (r : Res μ) (ss : List (Res μ)) :
    (r.appendAll ss).subs = r.subs ++ ss ∧ (r.appendAll ss).msg = r.msg :=
  ⟨Res.appendAll_subs r ss, Res.appendAll_msg r ss⟩

example : ((Res.new py!"x" .error).appendAll [.new py!"y", .new py!"z"]).ok = false ∧
    (Res.new (μ := Str) py!"x" .error).ok = false := ⟨rfl, rfl⟩

/-! ## C03 -/

/-- C03: every tree built through the API is read back without change (messages are strings on both
sides). -/
theorem C03_round_trip (b : Build Str) :
    Res.fromJson (Res.toDict b.run) = .ok (b.run.mapMsg Json.str) := by
  rw [Res.fromJson, Res.fromJsonF_toDict _ _ (Nat.le_succ _),
    Res.relevel_of_consistent _ _ (Res.build_consistent b)]

/-- C03: the verdict is the same. -/
theorem C03_ok (b : Build Str) :
    ∃ r, Res.fromJson (Res.toDict b.run) = .ok r ∧ r.ok = b.run.ok :=
  ⟨_, C03_round_trip b, by rw [Res.ok, Res.ok, Res.mapMsg_level]⟩

/-- C03: for arbitrary result objects, reading back never fails, and gives back the tree exactly if
no sub-result has a worse level than its parent. -/
theorem C03_iff_consistent (r : Res Str) :
    (∃ s, Res.fromJson (Res.toDict r) = .ok s) ∧
    (Res.fromJson (Res.toDict r) = .ok (r.mapMsg Json.str) ↔ Consistent r) := by
  rw [Res.fromJson, Res.fromJsonF_toDict _ _ (Nat.le_succ _)]
  refine ⟨⟨_, rfl⟩, ?_⟩
  constructor
  · intro h
    injection h with h
    exact Res.consistent_of_relevel _ _ h
  · intro h
    rw [Res.relevel_of_consistent _ _ h]

/-- C03: which JSON values can be read at all, and what they stand for. -/
theorem C03_read (j : Json) (r : Res Json) : Res.fromJson j = .ok r ↔ Denotes j r :=
  Res.fromJsonF_iff _ _ _ (Nat.lt_succ_self _)

example : Denotes (.obj [(py!"m", .null), (py!"l", .bool true), (py!"s", .arr [])]) (.mk .null .warning []) :=
  (C03_read _ _).mp rfl

/-- distinct trees have distinct serialisations -/
theorem C03_injective (b c : Build Str) (h : Res.toDict b.run = Res.toDict c.run) :
    b.run.mapMsg Json.str = c.run.mapMsg Json.str := by
  have h1 := C03_round_trip b
  rw [h, C03_round_trip c] at h1
  injection h1 with h1
  exact h1.symm

example : Res.fromJson (Res.toDict (Build.node py!"a" .info [.node py!"b" .error []]).run) =
    .ok (.mk (.str py!"a") .error [.mk (.str py!"b") .error []]) := by rw [C03_round_trip]; rfl
/-- the hypothesis of consistency matters -/
example : ¬ Consistent (Res.mk py!"a" .info [.mk py!"b" .error []]) := by
  intro h
  have := h [] 0 _ _ rfl rfl
  revert this
  decide

/-! ## C04 -/

/-- C04: there is exactly one line for each node; the lines are in lexicographic order of the node
addresses (parents before children, siblings in order), and each line is the expected one for the
depth of the node. -/
theorem C04_lines (r : Res Str) : ∃ as : List (List Nat),
    (∀ a, a ∈ as ↔ (nodeAt r a).isSome = true) ∧ as.Pairwise (· < ·) ∧
    (Res.toLines 0 r).length = as.length ∧
    ∀ (i : Nat) a s, as[i]? = some a → nodeAt r a = some s →
      (Res.toLines 0 r)[i]? = some (expectedLine a.length s.level s.msg) := by
  refine ⟨Res.addrs r, ?_, Res.addrs_sorted r, ?_, ?_⟩
  · intro a
    rw [Res.mem_addrs, Option.isSome_iff_exists]
  · rw [Res.toLines_eq, List.length_map]
  · intro i a s hi ha
    rw [Res.toLines_eq, List.getElem?_map, hi]
    simp [Res.lineAt, ha]

example : Res.toLines 0 (.mk py!"a" .error [.mk py!"b" .error [.mk py!"c" .error []], .mk py!"d" .info []]) =
    [27 :: py!"[91ma" ++ 27 :: py!"[0m", py!"   " ++ 27 :: py!"[91mb" ++ 27 :: py!"[0m",
     py!"      " ++ 27 :: py!"[91mc" ++ 27 :: py!"[0m", py!"   " ++ 27 :: py!"[92md" ++ 27 :: py!"[0m"] := rfl

/-! ## C05 -/

/-- C05: the HTML of every tree is well nested, whatever the messages are. -/
theorem C05_well_nested (r : Res Str) (d : Nat) : Html (Res.toHtml d r) := Res.toHtml_html r d

/-- C05: reading the HTML gives back all levels and messages, in order. -/
theorem C05_messages (r : Res Str) (d : Nat) :
    (events (Res.toHtml d r)).filterMap entryOf = entries r := by
  have := Res.toHtml_entries r d [] (Or.inl rfl)
  rw [List.append_nil] at this
  rw [this]
  simp [events]

/-- C05: what is seen in the page: the list below a result is unfolded, and its caret points down, iff the result failed. -/
theorem C05_seen (r : Res Str) : seen (events (Res.toHtml 0 r)) [] = toSee 0 true r := by
  have := Res.toHtml_seen r [] [] (Or.inl rfl)
  rw [List.append_nil] at this
  exact this.trans (by simp [events, seen])

/-- C05: of a tree made through the API every failed result is visible when the page is opened: nothing that failed is folded away. -/
theorem C05_failures_visible (b : Build Str) (l : Level) (m : Str) (d : Nat) (v : Bool)
    (h : .entry l m d v ∈ seen (events (Res.toHtml 0 b.run)) []) (hl : Fails l) : v = true := by
  rw [C05_seen] at h
  exact Res.toSee_failed b.run 0 true (Res.build_consistent b) (.inl rfl) l m d v h hl

/-- C05: and nothing below a result that is ok is unfolded. -/
theorem C05_folded (m : Str) (l : Level) (ss : List (Res Str)) (hl : ¬ Fails l) (l' : Level) (m' : Str) (d : Nat) (v : Bool)
    (h : .entry l' m' d v ∈ (seen (events (Res.toHtml 0 (.mk m l ss))) []).tail) : v = false := by
  rw [C05_seen, toSee, List.cons_append, List.tail_cons] at h
  rcases List.mem_append.mp h with h | h
  · split at h
    · cases h
    · simp at h
  · rw [show decide (l = .error ∨ l = .critical) = false from decide_eq_false hl, Bool.and_false] at h
    exact Res.toSeeL_folded ss 1 l' m' d v h

example : seen (events (Res.toHtml 0 (.mk py!"a" .error [.mk py!"<b>" .error [], .mk py!"c" .warning [.mk py!"d" .info []]]))) [] =
    [.entry .error py!"a" 0 true, .caret py!"0" true, .entry .error py!"<b>" 1 true, .entry .warning py!"c" 1 true, .caret py!"1" false,
      .entry .info py!"d" 2 false] := by
  decide +kernel

/-- what follows the entries of a depth -/
def BelowDepth (d : Nat) : List Seen → Prop
  | [] => True
  | .entry _ _ k _ :: _ => k < d
  | .caret _ _ :: _ => False

theorem toSeeL_low (d : Nat) (v : Bool) (rs : List (Res Str)) (t : List Seen) (h : BelowDepth d t) : BelowDepth (d + 1) (toSeeL d v rs ++ t) := by
  cases rs with
  | nil =>
    rw [toSeeL, List.nil_append]
    cases t with
    | nil => trivial
    | cons a t => cases a <;> simp only [BelowDepth] at h ⊢; omega
  | cons r rs => obtain ⟨m, l, ss⟩ := r; simp [toSeeL, toSee, BelowDepth]

mutual
theorem toSee_inj : ∀ (r r' : Res Str) (d : Nat) (v : Bool) (t t' : List Seen), BelowDepth (d + 1) t → BelowDepth (d + 1) t' →
    toSee d v r ++ t = toSee d v r' ++ t' → r = r' ∧ t = t'
  | .mk m l ss, .mk m' l' ss', d, v, t, t', h, h', e => by
    simp only [toSee, List.cons_append, List.cons.injEq, Seen.entry.injEq, and_true, List.append_assoc] at e
    obtain ⟨⟨rfl, rfl⟩, e⟩ := e
    have hc : ∀ (x : List Seen) (a : Str) (b : Bool) (y : List Seen), x = .caret a b :: y → ¬ BelowDepth (d + 1) x := by rintro x a b y rfl hx; exact hx
    cases ss with
    | nil =>
      cases ss' with
      | nil => simp only [List.isEmpty_nil, if_true, toSeeL, List.nil_append] at e; exact ⟨rfl, e⟩
      | cons s' ss' =>
        simp only [List.isEmpty_nil, List.isEmpty_cons, if_true, Bool.false_eq_true, if_false, toSeeL, List.nil_append, List.cons_append] at e
        exact absurd h (hc _ _ _ _ e)
    | cons s ss =>
      cases ss' with
      | nil =>
        simp only [List.isEmpty_nil, List.isEmpty_cons, if_true, Bool.false_eq_true, if_false, toSeeL, List.nil_append, List.cons_append] at e
        exact absurd h' (hc _ _ _ _ e.symm)
      | cons s' ss' =>
        simp only [List.isEmpty_cons, Bool.false_eq_true, if_false, List.cons_append, List.nil_append, List.cons.injEq, true_and] at e
        obtain ⟨e1, e2⟩ := toSeeL_inj (s :: ss) (s' :: ss') (d + 1) _ t t' h h' e
        rw [e1]; exact ⟨rfl, e2⟩
theorem toSeeL_inj : ∀ (rs rs' : List (Res Str)) (d : Nat) (v : Bool) (t t' : List Seen), BelowDepth d t → BelowDepth d t' →
    toSeeL d v rs ++ t = toSeeL d v rs' ++ t' → rs = rs' ∧ t = t'
  | [], [], _, _, _, _, _, _, e => ⟨rfl, by simpa [toSeeL] using e⟩
  | [], .mk m l ss :: rs', d, v, t, t', h, _, e => by
    simp only [toSeeL, toSee, List.nil_append, List.cons_append] at e
    rw [e] at h
    exact absurd h (Nat.lt_irrefl d)
  | .mk m l ss :: rs, [], d, v, t, t', _, h', e => by
    simp only [toSeeL, toSee, List.nil_append, List.cons_append] at e
    rw [← e] at h'
    exact absurd h' (Nat.lt_irrefl d)
  | r :: rs, r' :: rs', d, v, t, t', h, h', e => by
    simp only [toSeeL, List.append_assoc] at e
    obtain ⟨e1, e2⟩ := toSee_inj r r' d v _ _ (toSeeL_low d v rs t h) (toSeeL_low d v rs' t' h') e
    obtain ⟨e3, e4⟩ := toSeeL_inj rs rs' d v t t' h h' e2
    exact ⟨by rw [e1, e3], e4⟩
end

/-- C05: nothing is lost: results with the same page are the same. -/
theorem C05_injective (r r' : Res Str) (h : Res.toHtml 0 r = Res.toHtml 0 r') : r = r' := by
  have h1 := C05_seen r
  rw [h, C05_seen r'] at h1
  exact (toSee_inj r r' 0 true [] [] trivial trivial (by rw [h1])).1

/-- a message which looks like the page of a result below it, and one more nested list: the same messages in the same order -/
example : Res.toHtml 0 (.mk py!"a" .error [.mk py!"b" .info [], .mk py!"c" .info []]) ≠
    Res.toHtml 0 (.mk py!"a" .error [.mk py!"b" .info [.mk py!"c" .info []]]) := by
  intro h
  have := C05_injective _ _ h
  simp at this

/-- C05: escaped text has no character that can open or close a tag or end an attribute, and can be
recovered. -/
theorem C05_escape (m : Str) : unescape (Res.escape m) = m ∧
    ∀ c ∈ [pc! '<', pc! '>', pc! '"', pc! '\''], c ∉ Res.escape m := by
  refine ⟨Res.unescape_escape m, ?_⟩
  intro c hc hm
  obtain ⟨h1, h2, h3, h4⟩ := Res.escape_safe m c hm
  simp only [List.mem_cons, List.not_mem_nil, or_false] at hc
  rcases hc with h | h | h | h
  · exact h1 h
  · exact h2 h
  · exact h3 h
  · exact h4 h

example : entries (.mk py!"</div><script>" .error [.mk py!"x" .info []]) =
    [(.error, py!"</div><script>"), (.info, py!"x")] := rfl
example : ¬ Html py!"</div>" := by
  have key : ∀ s, Html s → ∀ t, s ≠ py!"</div>" ++ t := by
    intro s h
    cases h with
    | nil => intro t e; simp at e
    | text h1 _ _ => intro t e; injection e with e1 _; exact h1 e1
    | div _ _ _ => intro t e; simp at e
    | span _ _ => intro t e; simp at e
  intro h
  exact key _ h [] (by simp)

end Verif.Props
