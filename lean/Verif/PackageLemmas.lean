import Verif.Spec.Packages
import Verif.OpcLemmas4

/-!
# Lemmas for C104: the lines of the report about a package
-/

namespace Verif.Opc
open Verif Verif.Spec Verif.Spec.Packages

theorem failedL_append (m : Str) (a b : List (Res Str)) : failedL m (a ++ b) = failedL m a ++ failedL m b := by
  induction a with
  | nil => simp [failedL]
  | cons x a ih => cases x; simp only [List.cons_append, failedL, ih, List.append_assoc]

theorem failed_append (a b : Res Str) : failed (a.append b) = failed a ++ failedL a.msg [b] := by
  cases a; simp only [Res.append, Res.subs, Res.msg, failed, failedL_append]

theorem msg_append (a b : Res Str) : (a.append b).msg = a.msg := rfl

theorem failedL_new (m t : Str) (l : Level) : failedL m [Res.new t l] = if l = .error ∨ l = .critical then [(m, t)] else [] := by
  simp [failedL, failedAt, Res.new]

theorem failed_rel (dep : List (Str × Str)) (type q : Str) (r : Res Str) :
    failed (relResult dep type q r) = failed r ∧ (relResult dep type q r).msg = r.msg := by
  unfold relResult depResult
  split <;> refine ⟨?_, rfl⟩ <;> simp [failed_append, failedL_new]

/-- a result with entries, or an information -/
theorem failedL_plain (m : Str) (x : Res Str) (h : Plain x) : failedL m [x] = failed x := by
  obtain ⟨t, l, ss⟩ := x
  rcases h with h | h
  · simp only [Res.level] at h
    subst h
    cases ss with
    | nil => simp [failedL, failedAt, failed]
    | cons a as => simp [failedL, failedAt, failed]
  · simp only [Res.subs] at h
    cases ss with
    | nil => exact absurd rfl h
    | cons a as => simp [failedL, failedAt, failed]

/-! ## places -/

def placeOf : Source → Str × Str
  | .root => ([], [])
  | .part q => place q

theorem placed_iff (s : Source) (d f : Str) : Placed py!"/" s d f ↔ placeOf s = (d, f) := by
  cases s with
  | root => simp only [Placed, placeOf]; constructor
            · rintro ⟨rfl, rfl⟩; rfl
            · intro e; cases e; exact ⟨rfl, rfl⟩
  | part q => exact located_iff q d f

theorem place_dir (q : Str) : (place q).1.isEmpty = false := by
  unfold place; simp

theorem place_shown (q : Str) : (place q).1 ++ (place q).2 = if pc! '/' ∈ q then q else py!"/" ++ q := by
  unfold place
  split
  · rename_i h
    obtain ⟨d, f, rfl, hf⟩ := last_slash q h
    rw [splitpath_some d f hf]
  · rename_i h
    rw [splitpath_none q h]; rfl

/-- the heading of a source -/
theorem heading_eq (s : Source) : (if (placeOf s).1.isEmpty then Res.new py!"Checking root relationship"
    else Res.new (py!"Checking relationships of " ++ (placeOf s).1 ++ (placeOf s).2) : Res Str) = Res.new (Heading.source s).text := by
  cases s with
  | root => rfl
  | part q =>
    simp only [placeOf, place_dir, Bool.false_eq_true, if_false, Heading.text]
    rw [List.append_assoc, place_shown]

/-! ## reaching -/

theorem linked_reach {z : Zip} {s : Source} (h : Linked py!"/" z s) : Reach py!"/" z (placeOf s).1 (placeOf s).2 := by
  induction h with
  | root => exact .root
  | @step s q _ hn hq ih =>
    obtain ⟨d, f, type, hp, hd⟩ := hn
    have := (placed_iff s d f).mp hp
    rw [this] at ih
    exact .step ih hd hq ((located_iff q _ _).mpr rfl)

theorem reach_linked {z : Zip} {d f : Str} (h : Reach py!"/" z d f) : ∃ s, Linked py!"/" z s ∧ placeOf s = (d, f) := by
  induction h with
  | root => exact ⟨.root, .root, rfl⟩
  | @step dir file type q d f _ hd hq hl ih =>
    obtain ⟨s, hs, e⟩ := ih
    exact ⟨.part q, .step hs ⟨dir, file, type, (placed_iff s _ _).mpr e, hd⟩ hq, (located_iff q d f).mp hl⟩

theorem found_named {z : Zip} {q : Str} : (∃ type, Found py!"/" z type q) ↔ ∃ s, Linked py!"/" z s ∧ Names py!"/" z s q := by
  constructor
  · rintro ⟨type, dir, file, hr, hd⟩
    obtain ⟨s, hs, e⟩ := reach_linked hr
    exact ⟨s, hs, dir, file, type, (placed_iff s _ _).mpr e, hd⟩
  · rintro ⟨s, hs, d, f, type, hp, hd⟩
    have := linked_reach hs
    rw [(placed_iff s d f).mp hp] at this
    exact ⟨type, d, f, this, hd⟩

/-! ## lists of mistakes -/

/-- lines of exactly these mistakes, one for each -/
def Lines (z : Zip) (P : Fault → Prop) (l : List (Str × Str)) : Prop :=
  ∃ fs : List (Fault × Heading), l = fs.map line ∧ (fs.map (·.1)).Nodup ∧ (∀ f, f ∈ fs.map (·.1) ↔ P f) ∧ ∀ p ∈ fs, At py!"/" z p.1 p.2

theorem Lines.nil {z : Zip} {P : Fault → Prop} (h : ∀ f, ¬ P f) : Lines z P [] :=
  ⟨[], rfl, .nil, fun f => ⟨fun hf => (nomatch hf), fun hf => (h f hf).elim⟩, fun _ hp => nomatch hp⟩

theorem Lines.one {z : Zip} {P : Fault → Prop} {f : Fault} {h : Heading} (hP : ∀ g, P g ↔ g = f) (ha : At py!"/" z f h) :
    Lines z P [(h.text, f.text)] :=
  ⟨[(f, h)], rfl, (by simp : [f].Nodup), fun g => by rw [hP g]; simp, fun p hp => by
    rw [List.mem_singleton.mp hp]; exact ha⟩

theorem Lines.join {z : Zip} {A B C : Fault → Prop} {l l' : List (Str × Str)} (hA : Lines z A l) (hB : Lines z B l') (hd : ∀ f, A f → B f → False)
    (hC : ∀ f, C f ↔ A f ∨ B f) : Lines z C (l ++ l') := by
  obtain ⟨fs, e, n, m, a⟩ := hA
  obtain ⟨fs', e', n', m', a'⟩ := hB
  refine ⟨fs ++ fs', by rw [e, e', List.map_append], ?_, fun f => ?_, fun p hp => ?_⟩
  · rw [List.map_append, List.nodup_append]
    refine ⟨n, n', fun f hf g hg e => ?_⟩
    subst e
    exact hd f ((m f).mp hf) ((m' f).mp hg)
  · rw [List.map_append, List.mem_append, m f, m' f, hC f]
  · rcases List.mem_append.mp hp with h | h
    · exact a p h
    · exact a' p h

theorem Lines.congr {z : Zip} {A C : Fault → Prop} {l : List (Str × Str)} (hA : Lines z A l) (h : ∀ f, C f ↔ A f) : Lines z C l := by
  obtain ⟨fs, e, n, m, a⟩ := hA
  exact ⟨fs, e, n, fun f => by rw [m f, h f], a⟩

/-- mistakes of the relationships of this source -/
def Local (z : Zip) (s : Source) : Fault → Prop
  | .relsTag s' t => s' = s ∧ t ≠ relationshipsTag ∧ ∃ els, z.find (relsName (placeOf s).1 (placeOf s).2) = some (.xml t els)
  | .element s' i w => s' = s ∧ ∃ els e, z.find (relsName (placeOf s).1 (placeOf s).2) = some (.xml relationshipsTag els) ∧ els[i]? = some e ∧ IsWrong e w
  | _ => False

/-- mistakes found when a target is visited first -/
def New (z : Zip) (v : Str) (f : Fault) : Prop := (v ∉ z.namelist ∧ f = .dangling v) ∨ (v ∈ z.namelist ∧ Local z (.part v) f)

def subject : Fault → Source
  | .relsTag s _ => s
  | .element s _ _ => s
  | .dangling q => .part q
  | _ => .root

theorem local_subject {z : Zip} {s : Source} {f : Fault} (h : Local z s f) : subject f = s := by
  cases f with
  | relsTag => exact h.1
  | element => exact h.1
  | _ => exact h.elim

theorem new_subject {z : Zip} {v : Str} {f : Fault} (h : New z v f) : subject f = .part v := by
  rcases h with ⟨_, rfl⟩ | ⟨_, h⟩
  · rfl
  · exact local_subject h

/-- what a call adds -/
def CallLines (z : Zip) (call : Str → Str → List Str → List Str → Except PyExc Scanned) : Prop :=
  ∀ (s : Source) (V F : List Str) (r : Scanned) (h : Heading), call (placeOf s).1 (placeOf s).2 V F = .ok r → (∀ q, s = .part q → q ∈ V) →
    Linked py!"/" z s → (∀ t, At py!"/" z (.relsTag s t) h) →
    (∀ v ∈ V, v ∈ r.visited) ∧ Lines z (fun f => Local z s f ∨ ∃ v ∈ r.visited, v ∉ V ∧ New z v f) (failedL h.text r.result.toList)

/-- the state after these elements -/
structure State (z : Zip) (s : Source) (V : List Str) (pre : List Elem) (st : Scan) : Prop where
  sub : ∀ v ∈ V, v ∈ st.visited
  msg : st.result.msg = (Heading.source s).text
  plain : Plain st.result
  lines : Lines z (fun f => (∃ i w e, f = .element s i w ∧ pre[i]? = some e ∧ IsWrong e w) ∨ ∃ v ∈ st.visited, v ∉ V ∧ New z v f) (failed st.result)

theorem wrong_unique {e : Elem} {w w' : Wrong} (h : IsWrong e w) (h' : IsWrong e w') : w = w' := by
  cases w <;> cases w' <;> simp only [IsWrong] at h h'
  · rw [← h.1, ← h'.1]
  · exact absurd h'.1 (h.1 ▸ h.2)
  · exact absurd h'.1 (h.1 ▸ h.2)
  · exact absurd h.1 (h'.1 ▸ h'.2)
  · rfl
  · exact absurd h'.2.1 h.2
  · exact absurd h.1 (h'.1 ▸ h'.2)
  · exact absurd h.2.1 h'.2
  · rfl

theorem attr_none (e : Elem) (k : Str) : dictGet k e.attrib = none ↔ ¬ ∃ v, Attr e k v := by
  simp only [attr_iff]
  cases dictGet k e.attrib <;> simp

theorem get_snoc {T : Type} (pre : List T) (e : T) (i : Nat) (x : T) : (pre ++ [e])[i]? = some x ↔ pre[i]? = some x ∨ (i = pre.length ∧ x = e) := by
  by_cases h : i < pre.length
  · rw [List.getElem?_append_left h]
    constructor
    · exact .inl
    · rintro (h' | ⟨h', _⟩)
      · exact h'
      · omega
  · have hn : pre[i]? = none := List.getElem?_eq_none (by omega)
    rw [List.getElem?_append_right (by omega), hn]
    by_cases h' : i = pre.length
    · subst h'; simp [eq_comm]
    · have : [e][i - pre.length]? = none := List.getElem?_eq_none (by simp; omega)
      rw [this]; simp [h']

/-- a wrong element -/
theorem State.wrong {z : Zip} {s : Source} {V : List Str} {pre : List Elem} {st : Scan} (h : State z s V pre st) (hs : ∀ q, s = .part q → q ∈ V)
    (e : Elem) (w : Wrong) (hw : IsWrong e w) (t : Str) (ht : t = (Fault.element s pre.length w).text) :
    State z s V (pre ++ [e]) { st with result := st.result.append (Res.new t .error) } where
  sub := h.sub
  msg := h.msg
  plain := .inr (append_subs_ne _ _)
  lines := by
    show Lines z _ (failed (st.result.append _))
    rw [failed_append, failedL_new, if_pos (Or.inl rfl), h.msg, ht]
    refine h.lines.join (Lines.one (P := fun g => g = .element s pre.length w) (fun g => Iff.rfl) (show At _ z (.element s _ w) (.source s) from rfl)) ?_ fun f => ?_
    · rintro f (⟨i, w', e', rfl, hi, -⟩ | ⟨v, hv, hV, hn⟩) e'
      · cases e'
        have := (List.getElem?_eq_some_iff.mp hi).1
        omega
      · subst e'
        have := new_subject hn
        exact hV (hs v this)
    · constructor
      · rintro (⟨i, w', e', rfl, hi, hw'⟩ | h')
        · rcases (get_snoc pre e i e').mp hi with hi | ⟨rfl, rfl⟩
          · exact .inl (.inl ⟨i, w', e', rfl, hi, hw'⟩)
          · exact .inr (by rw [wrong_unique hw hw'])
        · exact .inl (.inr h')
      · rintro ((⟨i, w', e', rfl, hi, hw'⟩ | h') | rfl)
        · exact .inl ⟨i, w', e', rfl, (get_snoc pre e i e').mpr (.inl hi), hw'⟩
        · exact .inr h'
        · exact .inl ⟨_, w, e, rfl, (get_snoc pre e _ e).mpr (.inr ⟨rfl, rfl⟩), hw⟩

/-- an element that states a relationship is not wrong -/
theorem right_of {e : Elem} {type target : Str} (h : States e type target) (w : Wrong) : ¬ IsWrong e w := by
  obtain ⟨h1, h2, h3⟩ := h
  cases w with
  | tag t => intro hw; exact hw.2 (hw.1 ▸ h1)
  | noType => intro hw; exact hw.2 ⟨_, h2⟩
  | noTarget => intro hw; exact hw.2.2 ⟨_, h3⟩

/-- the elements before, and one that is right -/
theorem right_iff {s : Source} {pre : List Elem} {e : Elem} (he : ∀ w, ¬ IsWrong e w) (f : Fault) :
    (∃ i w e', f = .element s i w ∧ (pre ++ [e])[i]? = some e' ∧ IsWrong e' w) ↔ ∃ i w e', f = .element s i w ∧ pre[i]? = some e' ∧ IsWrong e' w := by
  constructor
  · rintro ⟨i, w, e', rfl, hi, hw⟩
    rcases (get_snoc pre e i e').mp hi with hi | ⟨rfl, rfl⟩
    · exact ⟨i, w, e', rfl, hi, hw⟩
    · exact (he w hw).elim
  · rintro ⟨i, w, e', rfl, hi, hw⟩
    exact ⟨i, w, e', rfl, (get_snoc pre e i e').mpr (.inl hi), hw⟩

/-- a relationship to a target: the lines added are about what is visited now -/
theorem State.next {z : Zip} {s : Source} {V : List Str} {pre : List Elem} {st st' : Scan} (h : State z s V pre st) (hs : ∀ q, s = .part q → q ∈ V)
    {e : Elem} (he : ∀ w, ¬ IsWrong e w) (hsub : ∀ v ∈ st.visited, v ∈ st'.visited) (hm : st'.result.msg = st.result.msg) (hp : Plain st'.result)
    {l : List (Str × Str)} (hl : failed st'.result = failed st.result ++ l)
    (hn : Lines z (fun f => ∃ v ∈ st'.visited, v ∉ st.visited ∧ New z v f) l) : State z s V (pre ++ [e]) st' where
  sub v hv := hsub v (h.sub v hv)
  msg := hm.trans h.msg
  plain := hp
  lines := by
    rw [hl]
    refine h.lines.join hn ?_ fun f => ?_
    · rintro f (⟨i, w, e', rfl, -, -⟩ | ⟨v, hv, -, hn⟩) ⟨v', -, hv', hn'⟩
      · have := new_subject hn'
        exact hv' (h.sub v' (hs v' this))
      · have := (new_subject hn).symm.trans (new_subject hn')
        cases this
        exact hv' hv
    · rw [right_iff he f]
      constructor
      · rintro (h' | ⟨v, hv, hV, hn⟩)
        · exact .inl (.inl h')
        · by_cases hv' : v ∈ st.visited
          · exact .inl (.inr ⟨v, hv', hV, hn⟩)
          · exact .inr ⟨v, hv, hv', hn⟩
      · rintro ((h' | ⟨v, hv, hV, hn⟩) | ⟨v, hv, hv', hn⟩)
        · exact .inl h'
        · exact .inr ⟨v, hsub v hv, hV, hn⟩
        · exact .inr ⟨v, hv, fun hV => hv' (h.sub v hV), hn⟩

theorem scanRel_lines {z : Zip} {dep : List (Str × Str)} {call : Str → Str → List Str → List Str → Except PyExc Scanned} (hc : CallLines z call)
    {s : Source} {V : List Str} {pre : List Elem} {st st' : Scan} (h : State z s V pre st) (hs : ∀ q, s = .part q → q ∈ V)
    (hl : Linked py!"/" z s) {e : Elem} (hd : ∀ type target, States e type target → Names py!"/" z s (resolve (placeOf s).1 target))
    (he : scanRel z dep call (placeOf s).1 st e = .ok st') : State z s V (pre ++ [e]) st' := by
  rw [scanRel_eq] at he
  split at he
  · rename_i ht
    cases he
    exact h.wrong hs e (.tag e.tag) ⟨rfl, ht⟩ _ rfl
  · rename_i ht
    have ht : e.tag = relationshipTag := Classical.not_not.mp ht
    split at he
    · rename_i h1
      cases he
      exact h.wrong hs e .noType ⟨ht, (attr_none e _).mp h1⟩ _ rfl
    · rename_i h1 h2
      cases he
      exact h.wrong hs e .noTarget ⟨ht, ⟨_, (attr_iff _ _ _).mpr h1⟩, (attr_none e _).mp h2⟩ _ rfl
    · rename_i type target h1 h2
      have hst : States e type target := ⟨ht, (attr_iff _ _ _).mpr h1, (attr_iff _ _ _).mpr h2⟩
      have hw := right_of hst
      have hname := hd type target hst
      generalize resolve (placeOf s).1 target = q at he hname
      obtain ⟨f1, m1⟩ := failed_rel dep type q st.result
      split at he
      · rename_i hv
        cases he
        refine h.next hs hw (fun _ h => h) (by simp only [msg_append, m1]) (.inr (append_subs_ne _ _)) (l := []) ?_ (Lines.nil ?_)
        · simp only [failed_append, failedL_new, f1]; simp
        · rintro f ⟨v, hv, hv', -⟩; exact hv' hv
      · rename_i hv
        have hv : q ∉ st.visited := by simpa using hv
        split at he
        · rename_i hn
          have hn : q ∉ z.namelist := by simpa using hn
          cases he
          refine h.next hs hw (fun v hv => List.mem_append.mpr (.inl hv)) (by simp only [msg_append, m1]) (.inr (append_subs_ne _ _))
            (l := [((Heading.source s).text, (Fault.dangling q).text)]) ?_ (Lines.one ?_ (show At _ z (.dangling q) (.source s) from ⟨s, rfl, hl, hname⟩))
          · simp only [failed_append, failedL_new, f1, m1, h.msg]; simp [Fault.text]
          · intro g
            constructor
            · rintro ⟨v, hv1, hv2, hg⟩
              rcases List.mem_append.mp hv1 with h' | h'
              · exact absurd h' hv2
              · cases List.mem_singleton.mp h'
                rcases hg with ⟨_, hg⟩ | ⟨hg, _⟩
                · exact hg
                · exact absurd hg hn
            · rintro rfl
              exact ⟨q, List.mem_append.mpr (.inr (List.mem_singleton.mpr rfl)), hv, .inl ⟨hn, rfl⟩⟩
        · rename_i hn
          have hn : q ∈ z.namelist := by simpa using hn
          cases hcall : call (place q).1 (place q).2 (st.visited ++ [q]) (st.followed ++ [q]) with
          | error x => rw [hcall] at he; cases he
          | ok r =>
            rw [hcall] at he
            simp only at he
            cases he
            obtain ⟨c1, c2⟩ := hc (.part q) _ _ r (.source s) hcall (fun q' e => by cases e; simp) (.step hl hname ((mem_namelist z q).mp hn))
              (fun t => show At _ z (.relsTag (.part q) t) (.source s) from ⟨s, rfl, hl, hname⟩)
            refine h.next hs hw (fun v hv => c1 v (List.mem_append.mpr (.inl hv))) ?_ ?_ (l := failedL (Heading.source s).text r.result.toList) ?_ (c2.congr ?_)
            · cases r.result <;> simp only [msg_append, m1]
            · cases r.result with
              | none => exact relResult_plain dep type q st.result
              | some x => exact .inr (append_subs_ne _ _)
            · cases r.result with
              | none => simp [f1, failedL]
              | some x => simp only [failed_append, f1, m1, h.msg, Option.toList]
            · intro f
              constructor
              · rintro ⟨v, hv1, hv2, hf⟩
                by_cases e : v = q
                · subst e
                  rcases hf with ⟨h', _⟩ | ⟨_, h'⟩
                  · exact absurd hn h'
                  · exact .inl h'
                · exact .inr ⟨v, hv1, by simp [hv2, e], hf⟩
              · rintro (hf | ⟨v, hv1, hv2, hf⟩)
                · exact ⟨q, c1 q (by simp), hv, .inr ⟨hn, hf⟩⟩
                · exact ⟨v, hv1, fun hh => hv2 (List.mem_append.mpr (.inl hh)), hf⟩

theorem scanRels_lines {z : Zip} {dep : List (Str × Str)} {call : Str → Str → List Str → List Str → Except PyExc Scanned} (hc : CallLines z call)
    {s : Source} {V : List Str} (hs : ∀ q, s = .part q → q ∈ V) (hl : Linked py!"/" z s) : ∀ (els pre : List Elem) {st st' : Scan}, State z s V pre st →
    (∀ e ∈ els, ∀ type target, States e type target → Names py!"/" z s (resolve (placeOf s).1 target)) →
    scanRels z dep call (placeOf s).1 st els = .ok st' → State z s V (pre ++ els) st'
  | [], pre, st, st', h, _, he => by cases he; rw [List.append_nil]; exact h
  | e :: els, pre, st, st', h, hd, he => by
    unfold scanRels at he
    cases h1 : scanRel z dep call (placeOf s).1 st e with
    | error x => rw [h1] at he; cases he
    | ok st1 =>
      rw [h1] at he
      have := scanRels_lines hc hs hl els (pre ++ [e]) (scanRel_lines hc h hs hl (hd e List.mem_cons_self) h1)
        (fun e he => hd e (List.mem_cons_of_mem _ he)) he
      simpa using this

theorem scanF_lines (z : Zip) (dep : List (Str × Str)) : ∀ n, CallLines z (scanF z dep n)
  | 0 => fun s V F r h hr => by simp [scanF] at hr
  | n + 1 => fun s V F r h hr hs hl ha => by
    unfold scanF at hr
    cases hf : z.find (relsName (placeOf s).1 (placeOf s).2) with
    | none =>
      rw [hf] at hr
      cases hr
      refine ⟨fun _ h => h, ?_⟩
      rw [show failedL h.text (none : Option (Res Str)).toList = [] by simp [failedL]]
      refine Lines.nil ?_
      rintro f (hL | ⟨v, hv, hv', -⟩)
      · cases f with
        | relsTag s' t => obtain ⟨_, _, els, hL⟩ := hL; rw [hf] at hL; cases hL
        | element s' i w => obtain ⟨_, els, e, hL, _⟩ := hL; rw [hf] at hL; cases hL
        | _ => exact hL
      · exact hv' hv
    | some p =>
      cases p with
      | broken => rw [hf] at hr; cases hr
      | xml tag els =>
        rw [hf] at hr
        simp only [tags_eq] at hr
        split at hr
        · rename_i ht
          cases hr
          refine ⟨fun _ h => h, ?_⟩
          simp only [Option.toList]
          rw [failedL_new, if_pos (Or.inl rfl)]
          refine Lines.one (f := .relsTag s tag) (fun g => ?_) (ha tag)
          constructor
          · rintro (hL | ⟨v, hv, hv', -⟩)
            · cases g with
              | relsTag s' t => obtain ⟨rfl, _, els', hL⟩ := hL; rw [hf] at hL; cases hL; rfl
              | element s' i w => obtain ⟨_, els', e, hL, _⟩ := hL; rw [hf] at hL; cases hL; exact absurd rfl ht
              | _ => exact hL.elim
            · exact absurd hv hv'
          · rintro rfl
            exact .inl ⟨rfl, ht, els, hf⟩
        · rename_i ht
          have ht : tag = relationshipsTag := Classical.not_not.mp ht
          subst ht
          simp only [heading_eq] at hr
          cases hsc : scanRels z dep (scanF z dep n) (placeOf s).1 ⟨Res.new (Heading.source s).text, [], V, F⟩ els with
          | error x => rw [hsc] at hr; cases hr
          | ok st =>
            rw [hsc] at hr
            cases hr
            have h0 : State z s V [] ⟨Res.new (Heading.source s).text, [], V, F⟩ := by
              refine ⟨fun _ h => h, rfl, .inl rfl, ?_⟩
              rw [show failed (Res.new (Heading.source s).text) = [] by simp [failed, failedL, Res.new]]
              refine Lines.nil ?_
              rintro f (⟨i, w, e, _, h, _⟩ | ⟨v, hv, hv', _⟩)
              · cases h
              · exact hv' hv
            have hfin := scanRels_lines (scanF_lines z dep n) hs hl els [] h0 (fun e he type target hst =>
              ⟨_, _, type, (placed_iff s _ _).mpr rfl, els, e, target, (find_iff z _ _).mp hf, he, hst, (resolved_iff _ _ _).mpr rfl⟩) hsc
            refine ⟨hfin.sub, ?_⟩
            simp only [Option.toList]
            rw [failedL_plain _ _ hfin.plain]
            refine hfin.lines.congr fun f => or_congr ?_ Iff.rfl
            rw [List.nil_append]
            constructor
            · intro hL
              cases f with
              | relsTag s' t => obtain ⟨_, ht, els', hL⟩ := hL; rw [hf] at hL; cases hL; exact absurd rfl ht
              | element s' i w => obtain ⟨rfl, els', e, hL, hi, hw⟩ := hL; rw [hf] at hL; cases hL; exact ⟨i, w, e, rfl, hi, hw⟩
              | _ => exact hL.elim
            · rintro ⟨i, w, e, rfl, hi, hw⟩
              exact ⟨rfl, els, e, hf, hi, hw⟩

/-! ## the mistakes of the package -/

theorem local_iff (z : Zip) (s : Source) (f : Fault) (hl : Linked py!"/" z s) (ht : Typed z) : Local z s f ↔ HasFault py!"/" z f ∧ subject f = s ∧ (∀ q, f ≠ .dangling q) ∧ f ≠ .noRoot ∧ f ≠ .noTypes ∧ ∀ t, f ≠ .typesTag t := by
  have hm : ∀ t els, z.find (relsName (placeOf s).1 (placeOf s).2) = some (.xml t els) ↔ ∃ d f, Placed py!"/" s d f ∧ Member z (relsPart d f) (.xml t els) := by
    intro t els
    rw [find_iff]
    constructor
    · intro h; exact ⟨_, _, (placed_iff s _ _).mpr rfl, h⟩
    · rintro ⟨d, f, hp, h⟩
      rw [(placed_iff s d f).mp hp]; exact h
  cases f with
  | relsTag s' t =>
    simp only [Local, HasFault, subject, hm]
    constructor
    · rintro ⟨rfl, h1, els, d, f, h2, h3⟩; exact ⟨⟨ht, hl, h1, d, f, els, h2, h3⟩, rfl, by simp⟩
    · rintro ⟨⟨_, _, h1, d, f, els, h2, h3⟩, rfl, _⟩; exact ⟨rfl, h1, els, d, f, h2, h3⟩
  | element s' i w =>
    simp only [Local, HasFault, subject, hm]
    constructor
    · rintro ⟨rfl, els, e, ⟨d, f, h2, h3⟩, h4, h5⟩; exact ⟨⟨ht, hl, d, f, els, e, h2, h3, h4, h5⟩, rfl, by simp⟩
    · rintro ⟨⟨_, _, d, f, els, e, h2, h3, h4, h5⟩, rfl, _⟩; exact ⟨rfl, els, e, ⟨d, f, h2, h3⟩, h4, h5⟩
  | _ => simp [Local]

theorem typed_find (z : Zip) (ht : Typed z) : ∃ els, z.find contentTypesXml = some (.xml typesTag els) := by
  obtain ⟨els, h⟩ := ht
  exact ⟨els, (find_iff z _ _).mpr h⟩

/-- with proper content types: the mistakes, by what they are about -/
theorem faults_iff {z : Zip} {dep : List (Str × Str)} {r : Scanned} (h : scanRoot z dep = .ok r) (ht : Typed z) (f : Fault) :
    HasFault py!"/" z f ↔ (f = .noRoot ∧ ¬ HasPart z py!"_rels/.rels") ∨ Local z .root f ∨ ∃ v ∈ r.visited, v ∉ ([] : List Str) ∧ New z v f := by
  have hv : ∀ q, q ∈ r.visited ↔ ∃ s, Linked py!"/" z s ∧ Names py!"/" z s q := fun q => (visited_iff h q).trans found_named
  obtain ⟨els, hf⟩ := typed_find z ht
  have hlocal : ∀ f, (∀ q, f ≠ .dangling q) → f ≠ .noRoot → f ≠ .noTypes → (∀ t, f ≠ .typesTag t) → Linked py!"/" z (subject f) →
      HasFault py!"/" z f → Local z .root f ∨ ∃ v ∈ r.visited, v ∉ ([] : List Str) ∧ New z v f := by
    intro f h1 h2 h3 h4 hl hf
    have := (local_iff z (subject f) f hl ht).mpr ⟨hf, rfl, h1, h2, h3, h4⟩
    generalize hsub : subject f = s at this hl
    cases s with
    | root => exact .inl this
    | part q =>
      cases hl with
      | step h1 h2 h3 => exact .inr ⟨q, (hv q).mpr ⟨_, h1, h2⟩, by simp, .inr ⟨(mem_namelist z q).mpr h3, this⟩⟩
  constructor
  · intro hh
    cases f with
    | noTypes =>
      exact absurd ((find_none z _).mpr hh) (by show ¬ z.find contentTypesXml = none; rw [hf]; simp)
    | typesTag t =>
      obtain ⟨h1, els', h2⟩ := hh
      have := (find_iff z _ _).mpr h2
      rw [show z.find py!"[Content_Types].xml" = z.find contentTypesXml from rfl, hf] at this
      cases this
      exact absurd rfl h1
    | noRoot => exact .inl ⟨rfl, hh.2⟩
    | relsTag s t => exact .inr (hlocal _ (by simp) (by simp) (by simp) (by simp) hh.2.1 hh)
    | element s i w => exact .inr (hlocal _ (by simp) (by simp) (by simp) (by simp) hh.2.1 hh)
    | dangling q => exact .inr (.inr ⟨q, (hv q).mpr hh.2.2, by simp, .inl ⟨fun hn => hh.2.1 ((mem_namelist z q).mp hn), rfl⟩⟩)
  · rintro (⟨rfl, hn⟩ | hL | ⟨v, h1, -, h2⟩)
    · exact ⟨ht, hn⟩
    · exact ((local_iff z .root f .root ht).mp hL).1
    · obtain ⟨s, h3, h4⟩ := (hv v).mp h1
      rcases h2 with ⟨h2, rfl⟩ | ⟨h2, h5⟩
      · exact ⟨ht, fun hp => h2 ((mem_namelist z v).mpr hp), s, h3, h4⟩
      · exact ((local_iff z (.part v) f (.step h3 h4 ((mem_namelist z v).mp h2)) ht).mp h5).1

end Verif.Opc
