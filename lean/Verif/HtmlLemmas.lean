import Verif.ResultLemmas2

/-! # Helper lemmas about the HTML report -/

namespace Verif
open Spec

theorem Spec.Html.append {a b : Str} (ha : Html a) (hb : Html b) : Html (a ++ b) := by
  induction ha with
  | nil => exact hb
  | text h1 h2 _ ih => exact .text h1 h2 ih
  | @div attrs body rest h1 h2 _ _ ih =>
    have := Html.div h1 h2 ih
    simpa [List.append_assoc] using this
  | @span attrs rest h1 _ ih =>
    have := Html.span h1 ih
    simpa [List.append_assoc] using this

theorem Spec.Html.plain : ∀ {s : Str}, (∀ c ∈ s, c ≠ pc! '<' ∧ c ≠ pc! '>') → Html s
  | [], _ => .nil
  | _ :: _, h => .text (h _ List.mem_cons_self).1 (h _ List.mem_cons_self).2
      (Html.plain fun x hx => h x (List.mem_cons_of_mem _ hx))

namespace Res

/-- the characters that have a special meaning in HTML text and attributes -/
theorem escape_safe (m : Str) : ∀ c ∈ escape m,
    c ≠ pc! '<' ∧ c ≠ pc! '>' ∧ c ≠ pc! '"' ∧ c ≠ pc! '\'' := by
  induction m with
  | nil => intro c hc; cases hc
  | cons x xs ih =>
    intro c hc
    rw [escape, List.mem_append] at hc
    rcases hc with hc | hc
    · split at hc
      · revert c; decide
      · split at hc
        · revert c; decide
        · split at hc
          · revert c; decide
          · split at hc
            · revert c; decide
            · split at hc
              · revert c; decide
              · rename_i h1 h2 h3 h4 h5
                simp only [List.mem_singleton] at hc
                subst hc
                exact ⟨h2, h3, h4, h5⟩
    · exact ih c hc

theorem escape_plain (m : Str) : ∀ c ∈ escape m, c ≠ pc! '<' ∧ c ≠ pc! '>' :=
  fun c hc => ⟨(escape_safe m c hc).1, (escape_safe m c hc).2.1⟩

theorem unescape_escape (m : Str) : unescape (escape m) = m := by
  induction m with
  | nil => rw [escape, unescape]
  | cons x xs ih =>
    rw [escape]
    split
    · rename_i h; subst h
      rw [show py!"&amp;" ++ escape xs = pc! '&' :: (py!"amp;" ++ escape xs) from rfl, unescape]
      simp [List.isPrefixOf, ih]
    · split
      · rename_i h; subst h
        rw [show py!"&lt;" ++ escape xs = pc! '&' :: (py!"lt;" ++ escape xs) from rfl, unescape]
        simp [List.isPrefixOf, ih]
      · split
        · rename_i h; subst h
          rw [show py!"&gt;" ++ escape xs = pc! '&' :: (py!"gt;" ++ escape xs) from rfl, unescape]
          simp [List.isPrefixOf, ih]
        · split
          · rename_i h; subst h
            rw [show py!"&quot;" ++ escape xs = pc! '&' :: (py!"quot;" ++ escape xs) from rfl, unescape]
            simp [List.isPrefixOf, ih]
          · split
            · rename_i h; subst h
              rw [show py!"&#x27;" ++ escape xs = pc! '&' :: (py!"#x27;" ++ escape xs) from rfl, unescape]
              simp [List.isPrefixOf, ih]
            · rename_i h1 _ _ _ _
              rw [show [x] ++ escape xs = x :: escape xs from rfl, unescape, if_neg h1, ih]

theorem natStr_digits (n : Nat) : ∀ c ∈ Py.natStr n, 48 ≤ c ∧ c ≤ 57 := by
  have key : ∀ f n c, c ∈ Py.natStrF f n → 48 ≤ c ∧ c ≤ 57 := by
    intro f
    induction f with
    | zero => intro n c hc; simp [Py.natStrF] at hc
    | succ f ih =>
      intro n c hc
      simp only [Py.natStrF] at hc
      split at hc
      · simp at hc; omega
      · rw [List.mem_append] at hc
        rcases hc with hc | hc
        · exact ih _ _ hc
        · simp at hc; omega
  intro c hc
  exact key _ _ _ hc

/-- the tag texts that occur -/
def caretTag (d : Nat) (b : Bool) : Str :=
  py!"span class=\"caret level-" ++ Py.natStr d ++ py!" " ++ (if b then [] else py!"caret-down") ++ py!"\"/"
def subTag (b : Bool) : Str := py!"div class=\"sub-results " ++ (if b then [] else py!"visible") ++ py!"\""
def msgTag (l : Level) : Str := py!"div class=\"" ++ cssClass l ++ py!"\""

theorem caretTag_plain (d : Nat) (b : Bool) : ∀ c ∈ caretTag d b, c ≠ pc! '<' ∧ c ≠ pc! '>' := by
  intro c hc
  simp only [caretTag, List.mem_append] at hc
  rcases hc with (((h | h) | h) | h) | h
  · revert c; decide
  · have := natStr_digits d c h; constructor <;> omega
  · revert c; decide
  · cases b
    · revert c; decide
    · cases h
  · revert c; decide

theorem subTag_plain (b : Bool) : ∀ c ∈ subTag b, c ≠ pc! '<' ∧ c ≠ pc! '>' := by
  cases b <;> decide

theorem msgTag_plain (l : Level) : ∀ c ∈ msgTag l, c ≠ pc! '<' ∧ c ≠ pc! '>' := by
  cases l <;> decide

/-- a tag followed by text -/
def tagged (tag text : Str) : Str := pc! '<' :: (tag ++ pc! '>' :: text)

theorem toHtml_leaf (d : Nat) (m : Str) (l : Level) : toHtml d (.mk m l []) =
    tagged py!"div" py!"\n" ++ (tagged (msgTag l) (escape m) ++ (tagged py!"/div" py!"\n" ++
      tagged py!"/div" py!"\n")) := by
  simp [toHtml, tagged, msgTag]

theorem toHtml_node (d : Nat) (m : Str) (l : Level) (s : Res Str) (ss : List (Res Str)) :
    toHtml d (.mk m l (s :: ss)) =
    tagged py!"div" py!"\n" ++ (tagged (msgTag l) (escape m) ++
      (tagged (caretTag d (l == .info || l == .warning)) [] ++ (tagged py!"/div" py!"\n" ++
      (tagged (subTag (l == .info || l == .warning)) py!"\n" ++ (toHtmlL (d + 1) (s :: ss) ++
      (tagged py!"/div" py!"\n" ++ tagged py!"/div" py!"\n")))))) := by
  simp [toHtml, tagged, msgTag, caretTag, subTag]

theorem html_div {attrs text body rest : Str} (h : ∀ c ∈ attrs, c ≠ pc! '<' ∧ c ≠ pc! '>')
    (hb : Html (text ++ body)) (hr : Html (py!"\n" ++ rest)) :
    Html (tagged (py!"div" ++ attrs) text ++ (body ++ (tagged py!"/div" py!"\n" ++ rest))) := by
  have := Html.div h hb hr
  simpa [tagged, List.append_assoc] using this

theorem html_nl : Html py!"\n" := Html.plain (by decide)

mutual
theorem toHtml_html : ∀ (r : Res Str) (d : Nat), Html (toHtml d r)
  | .mk m l [], d => by
    rw [toHtml_leaf]
    have h1 : Html (tagged (msgTag l) (escape m) ++ (([] : Str) ++ (tagged py!"/div" py!"\n" ++ ([] : Str)))) := by
      rw [show msgTag l = py!"div" ++ (py!" class=\"" ++ cssClass l ++ py!"\"") from by simp [msgTag]]
      exact html_div (by cases l <;> decide) (by simpa using Html.plain (escape_plain m)) html_nl
    have h2 := html_div (attrs := []) (text := py!"\n") (body := tagged (msgTag l) (escape m) ++ tagged py!"/div" py!"\n")
      (rest := []) (by intro c hc; cases hc) (html_nl.append (by simpa using h1)) html_nl
    simpa [List.append_assoc] using h2
  | .mk m l (s :: ss), d => by
    rw [toHtml_node]
    have hs := toHtmlL_html (s :: ss) (d + 1)
    have hcaret : Html (tagged (caretTag d (l == .info || l == .warning)) []) := by
      have := Html.span (attrs := py!" class=\"caret level-" ++ Py.natStr d ++ py!" " ++
        (if (l == .info || l == .warning) then [] else py!"caret-down") ++ py!"\"") (rest := [])
        (by
          intro c hc
          apply caretTag_plain d (l == .info || l == .warning) c
          simp only [caretTag, List.mem_append] at hc ⊢
          rcases hc with (((h | h) | h) | h) | h
          · refine Or.inl (Or.inl (Or.inl (Or.inl ?_)))
            have : py!"span class=\"caret level-" = py!"span" ++ py!" class=\"caret level-" := rfl
            rw [this]; exact List.mem_append_right _ h
          · exact Or.inl (Or.inl (Or.inl (Or.inr h)))
          · exact Or.inl (Or.inl (Or.inr h))
          · exact Or.inl (Or.inr h)
          · right
            simp only [List.mem_cons, List.not_mem_nil, or_false] at h ⊢
            exact Or.inl h) .nil
      simpa [tagged, caretTag] using this
    have h1 : Html (tagged (subTag (l == .info || l == .warning)) py!"\n" ++ (toHtmlL (d + 1) (s :: ss) ++
        (tagged py!"/div" py!"\n" ++ ([] : Str)))) := by
      rw [show ∀ b, subTag b = py!"div" ++ (py!" class=\"sub-results " ++ (if b then [] else py!"visible") ++ py!"\"") from by
        intro b; simp [subTag]]
      exact html_div (by cases l <;> decide) (html_nl.append hs) html_nl
    have h2 : Html (tagged (msgTag l) (escape m) ++ (tagged (caretTag d (l == .info || l == .warning)) [] ++
        (tagged py!"/div" py!"\n" ++ (tagged (subTag (l == .info || l == .warning)) py!"\n" ++ (toHtmlL (d + 1) (s :: ss) ++
        (tagged py!"/div" py!"\n" ++ ([] : Str))))))) := by
      rw [show msgTag l = py!"div" ++ (py!" class=\"" ++ cssClass l ++ py!"\"") from by simp [msgTag]]
      exact html_div (by cases l <;> decide) ((Html.plain (escape_plain m)).append hcaret) (html_nl.append h1)
    have h3 := html_div (attrs := []) (text := py!"\n") (body := tagged (msgTag l) (escape m) ++ (tagged (caretTag d (l == .info || l == .warning)) [] ++
        (tagged py!"/div" py!"\n" ++ (tagged (subTag (l == .info || l == .warning)) py!"\n" ++ (toHtmlL (d + 1) (s :: ss) ++
        (tagged py!"/div" py!"\n" ++ ([] : Str)))))))
      (rest := []) (by intro c hc; cases hc) (html_nl.append h2) html_nl
    simp only [List.append_nil, List.append_assoc] at h3 ⊢
    exact h3
theorem toHtmlL_html : ∀ (rs : List (Res Str)) (d : Nat), Html (toHtmlL d rs)
  | [], d => .nil
  | r :: rs, d => by
    rw [toHtmlL]
    exact (toHtml_html r d).append (toHtmlL_html rs d)
end

/-! ## reading the report -/

theorem events_skip {t rest : Str} (h : ∀ c ∈ t, c ≠ pc! '<') : events (t ++ rest) = events rest := by
  induction t with
  | nil => rfl
  | cons c cs ih =>
    rw [List.cons_append, events, if_neg (h c List.mem_cons_self)]
    exact ih fun x hx => h x (List.mem_cons_of_mem _ hx)

theorem takeWhile_stop {p : Nat → Bool} {a rest : List Nat} (h : ∀ c ∈ a, p c = true)
    (hr : rest = [] ∨ ∃ c cs, rest = c :: cs ∧ p c = false) : (a ++ rest).takeWhile p = a := by
  rw [List.takeWhile_append_of_pos h]
  rcases hr with rfl | ⟨c, cs, rfl, hc⟩
  · simp
  · simp [hc]

theorem dropWhile_stop {p : Nat → Bool} {a : List Nat} {c : Nat} {cs : List Nat} (h : ∀ c ∈ a, p c = true)
    (hc : p c = false) : (a ++ c :: cs).dropWhile p = c :: cs := by
  rw [List.dropWhile_append_of_pos h]
  simp [hc]

/-- `rest` is empty or begins with a tag -/
def Tagish (rest : Str) : Prop := rest = [] ∨ ∃ cs, rest = pc! '<' :: cs

theorem events_tagged {tag text rest : Str} (h1 : ∀ c ∈ tag, c ≠ pc! '<' ∧ c ≠ pc! '>')
    (h2 : ∀ c ∈ text, c ≠ pc! '<') (hr : Tagish rest) :
    events (tagged tag text ++ rest) = (tag, text) :: events rest := by
  have e : tagged tag text ++ rest = pc! '<' :: (tag ++ pc! '>' :: (text ++ rest)) := by
    simp [tagged]
  rw [e, events, if_pos rfl]
  have hd : ((tag ++ pc! '>' :: (text ++ rest)).dropWhile (· ≠ pc! '>')) = pc! '>' :: (text ++ rest) :=
    dropWhile_stop (fun c hc => by simpa using (h1 c hc).2) (by simp)
  have ht : ((tag ++ pc! '>' :: (text ++ rest)).takeWhile (· ≠ pc! '>')) = tag :=
    takeWhile_stop (fun c hc => by simpa using (h1 c hc).2) (Or.inr ⟨_, _, rfl, by simp⟩)
  rw [hd, ht]
  have htx : (text ++ rest).takeWhile (· ≠ pc! '<') = text := by
    apply takeWhile_stop (fun c hc => by simpa using h2 c hc)
    rcases hr with rfl | ⟨cs, rfl⟩
    · exact Or.inl rfl
    · exact Or.inr ⟨_, cs, rfl, by simp⟩
  simp only [List.drop_succ_cons, List.drop_zero]
  rw [htx]
  congr 1
  have : tag ++ pc! '>' :: (text ++ rest) = (tag ++ pc! '>' :: text) ++ rest := by simp
  rw [this]
  apply events_skip
  intro c hc
  rw [List.mem_append, List.mem_cons] at hc
  rcases hc with hc | rfl | hc
  · exact (h1 c hc).1
  · simp
  · exact h2 c hc

theorem tagged_tagish (tag text rest : Str) : Tagish (tagged tag text ++ rest) :=
  Or.inr ⟨_, rfl⟩

theorem toHtml_tagish (d : Nat) (r : Res Str) (rest : Str) : Tagish (toHtml d r ++ rest) := by
  match r with
  | .mk m l [] => rw [toHtml_leaf, List.append_assoc]; exact tagged_tagish ..
  | .mk m l (s :: ss) => rw [toHtml_node, List.append_assoc]; exact tagged_tagish ..

theorem toHtmlL_tagish (d : Nat) (rs : List (Res Str)) (rest : Str) (h : Tagish rest) :
    Tagish (toHtmlL d rs ++ rest) := by
  cases rs with
  | nil => exact h
  | cons r rs => rw [toHtmlL, List.append_assoc]; exact toHtml_tagish ..

theorem entryOf_msg (l : Level) (t : Str) : entryOf (msgTag l, t) = some (l, unescape t) := by
  cases l <;> simp [entryOf, msgTag, cssClass]

theorem entryOf_caret (d : Nat) (b : Bool) (t : Str) : entryOf (caretTag d b, t) = none := by
  simp [entryOf, caretTag]

theorem entryOf_sub (b : Bool) (t : Str) : entryOf (subTag b, t) = none := by
  cases b <;> simp [entryOf, subTag]

theorem entryOf_div (t : Str) : entryOf (py!"div", t) = none := by simp [entryOf]
theorem entryOf_end (t : Str) : entryOf (py!"/div", t) = none := by simp [entryOf]

theorem div_plain : ∀ c ∈ py!"div", c ≠ pc! '<' ∧ c ≠ pc! '>' := by decide
theorem end_plain : ∀ c ∈ py!"/div", c ≠ pc! '<' ∧ c ≠ pc! '>' := by decide
theorem nl_plain : ∀ c ∈ py!"\n", c ≠ pc! '<' := by decide
theorem nil_plain : ∀ c ∈ ([] : Str), c ≠ pc! '<' := by intro c hc; cases hc

mutual
theorem toHtml_entries : ∀ (r : Res Str) (d : Nat) (rest : Str), Tagish rest →
    (events (toHtml d r ++ rest)).filterMap entryOf = entries r ++ (events rest).filterMap entryOf
  | .mk m l [], d, rest, h => by
    rw [toHtml_leaf]
    simp only [List.append_assoc]
    rw [events_tagged div_plain nl_plain (tagged_tagish ..),
      events_tagged (msgTag_plain l) (fun c hc => (escape_plain m c hc).1) (tagged_tagish ..),
      events_tagged end_plain nl_plain (tagged_tagish ..),
      events_tagged end_plain nl_plain h]
    simp [entryOf_msg, entryOf_div, entryOf_end, entries, entriesL, unescape_escape]
  | .mk m l (s :: ss), d, rest, h => by
    rw [toHtml_node]
    simp only [List.append_assoc]
    rw [events_tagged div_plain nl_plain (tagged_tagish ..),
      events_tagged (msgTag_plain l) (fun c hc => (escape_plain m c hc).1) (tagged_tagish ..),
      events_tagged (caretTag_plain d _) nil_plain (tagged_tagish ..),
      events_tagged end_plain nl_plain (tagged_tagish ..),
      events_tagged (subTag_plain _) nl_plain (toHtmlL_tagish _ _ _ (tagged_tagish ..))]
    simp only [List.filterMap_cons, entryOf_msg, entryOf_div, entryOf_end, entryOf_caret, entryOf_sub,
      unescape_escape]
    rw [toHtmlL_entries (s :: ss) (d + 1) _ (tagged_tagish ..),
      events_tagged end_plain nl_plain (tagged_tagish ..),
      events_tagged end_plain nl_plain h]
    simp [entryOf_end, entries]
theorem toHtmlL_entries : ∀ (rs : List (Res Str)) (d : Nat) (rest : Str), Tagish rest →
    (events (toHtmlL d rs ++ rest)).filterMap entryOf = entriesL rs ++ (events rest).filterMap entryOf
  | [], d, rest, h => by simp [toHtmlL, entriesL]
  | r :: rs, d, rest, h => by
    rw [toHtmlL, List.append_assoc, toHtml_entries r d _ (toHtmlL_tagish d rs rest h),
      toHtmlL_entries rs d rest h]
    simp [entriesL]
end

/-! ## what is seen -/

theorem seen_end (t : Str) (es : List (Str × Str)) (st : List (Option Bool)) : seen ((py!"/div", t) :: es) st = seen es st.tail := by
  rw [seen, if_pos rfl]

theorem seen_div (t : Str) (es : List (Str × Str)) (st : List (Option Bool)) : seen ((py!"div", t) :: es) st = seen es (none :: st) := by
  rw [seen, if_neg (by decide), if_neg (by decide), if_neg (by decide), if_pos (by decide), entryOf_div]

theorem seen_msg (l : Level) (t : Str) (es : List (Str × Str)) (st : List (Option Bool)) : seen ((msgTag l, t) :: es) st =
    .entry l (unescape t) (st.countP Option.isSome) (st.all (· != some false)) :: seen es (none :: st) := by
  rw [seen, if_neg (by cases l <;> decide), if_neg (by cases l <;> decide), if_neg (by cases l <;> decide), if_pos (by cases l <;> decide), entryOf_msg]

theorem seen_sub (b : Bool) (t : Str) (es : List (Str × Str)) (st : List (Option Bool)) :
    seen ((subTag b, t) :: es) st = seen es (some (!b) :: st) := by
  cases b
  · rw [seen, if_neg (by decide), if_neg (by decide), if_pos (by decide)]; rfl
  · rw [seen, if_neg (by decide), if_pos (by decide)]; rfl

theorem seen_caret (d : Nat) (b : Bool) (t : Str) (es : List (Str × Str)) (st : List (Option Bool)) :
    seen ((caretTag d b, t) :: es) st = .caret (Py.natStr d) (!b) :: seen es st := by
  have hne : ∀ x : Str, x.head? = some (pc! 'd') ∨ x.head? = some (pc! '/') → caretTag d b ≠ x := by
    rintro x h rfl
    simp [caretTag] at h
  have e : caretTag d b = py!"span class=\"caret level-" ++ (Py.natStr d ++ (py!" " ++ (if b then [] else py!"caret-down") ++ py!"\"/")) := by
    simp [caretTag, List.append_assoc]
  have hp : (py!"div".isPrefixOf (caretTag d b)) = false := by rw [e]; rfl
  rw [seen, if_neg (hne _ (.inr rfl)), if_neg (hne _ (.inl rfl)), if_neg (hne _ (.inl rfl)), if_neg (by rw [hp]; decide)]
  rw [e, List.drop_left]
  have ht : (Py.natStr d ++ (py!" " ++ (if b then [] else py!"caret-down") ++ py!"\"/")).takeWhile (fun c => 48 ≤ c && c ≤ 57) = Py.natStr d := by
    apply takeWhile_stop
    · intro c hc
      have := natStr_digits d c hc
      simp [this.1, this.2]
    · exact .inr ⟨pc! ' ', _, rfl, by decide⟩
  simp only [ht, List.drop_left]
  cases b <;> rfl

theorem failing (l : Level) : (!(l == .info || l == .warning)) = decide (l = .error ∨ l = .critical) := by cases l <;> rfl

mutual
theorem toHtml_seen : ∀ (r : Res Str) (rest : Str) (st : List (Option Bool)), Tagish rest →
    seen (events (toHtml (st.countP Option.isSome) r ++ rest)) st =
      toSee (st.countP Option.isSome) (st.all (· != some false)) r ++ seen (events rest) st
  | .mk m l [], rest, st, h => by
    rw [toHtml_leaf]
    simp only [List.append_assoc]
    rw [events_tagged div_plain nl_plain (tagged_tagish ..),
      events_tagged (msgTag_plain l) (fun c hc => (escape_plain m c hc).1) (tagged_tagish ..),
      events_tagged end_plain nl_plain (tagged_tagish ..),
      events_tagged end_plain nl_plain h]
    simp [seen_div, seen_msg, seen_end, toSee, toSeeL, unescape_escape]
  | .mk m l (s :: ss), rest, st, h => by
    rw [toHtml_node]
    simp only [List.append_assoc]
    rw [events_tagged div_plain nl_plain (tagged_tagish ..),
      events_tagged (msgTag_plain l) (fun c hc => (escape_plain m c hc).1) (tagged_tagish ..),
      events_tagged (caretTag_plain _ _) nil_plain (tagged_tagish ..),
      events_tagged end_plain nl_plain (tagged_tagish ..),
      events_tagged (subTag_plain _) nl_plain (toHtmlL_tagish _ _ _ (tagged_tagish ..))]
    simp only [seen_div, seen_msg, seen_end, seen_caret, seen_sub, unescape_escape, List.tail_cons, failing]
    have hc : (none :: st : List (Option Bool)).countP Option.isSome = st.countP Option.isSome := rfl
    have ih := toHtmlL_seen (s :: ss) (tagged py!"/div" py!"\n" ++ (tagged py!"/div" py!"\n" ++ rest))
      (some (decide (l = .error ∨ l = .critical)) :: none :: st) (tagged_tagish ..)
    have hd : (some (decide (l = .error ∨ l = .critical)) :: none :: st : List (Option Bool)).countP Option.isSome = st.countP Option.isSome + 1 := by
      simp
    have hv : (some (decide (l = .error ∨ l = .critical)) :: none :: st : List (Option Bool)).all (· != some false) =
        (st.all (· != some false) && decide (l = .error ∨ l = .critical)) := by
      generalize decide (l = .error ∨ l = .critical) = b
      have ht : (some true != some false) = true := rfl
      have hn : ((none : Option Bool) != some false) = true := rfl
      cases b <;> simp [ht, hn]
    rw [hd, hv] at ih
    rw [ih, events_tagged end_plain nl_plain (tagged_tagish ..), events_tagged end_plain nl_plain h]
    simp [seen_end, toSee]
theorem toHtmlL_seen : ∀ (rs : List (Res Str)) (rest : Str) (st : List (Option Bool)), Tagish rest →
    seen (events (toHtmlL (st.countP Option.isSome) rs ++ rest)) st =
      toSeeL (st.countP Option.isSome) (st.all (· != some false)) rs ++ seen (events rest) st
  | [], rest, st, h => by simp [toHtmlL, toSeeL]
  | r :: rs, rest, st, h => by
    rw [toHtmlL, List.append_assoc, toHtml_seen r _ st (toHtmlL_tagish _ rs rest h), toHtmlL_seen rs rest st h]
    simp [toSeeL]
end

theorem not_fails_le {a b : Level} (h : a.value ≤ b.value) (hb : ¬ Fails b) : ¬ Fails a := by
  revert h hb
  cases a <;> cases b <;> simp [Level.value, Fails]

mutual
theorem toSee_failed : ∀ (r : Res Str) (d : Nat) (v : Bool), Consistent r → (v = true ∨ ¬ Fails r.level) →
    ∀ l m d' v', .entry l m d' v' ∈ toSee d v r → Fails l → v' = true
  | .mk m0 l0 ss, d, v, hc, hv, l, m, d', v', h, hl => by
    have hc' := (consistent_mk m0 l0 ss).mp hc
    rw [toSee, List.cons_append] at h
    rcases List.mem_cons.mp h with h | h
    · injection h with h1 _ _ h4
      subst h1 h4
      rcases hv with hv | hv
      · exact hv
      · exact absurd hl hv
    · rcases List.mem_append.mp h with h | h
      · split at h
        · cases h
        · simp at h
      · refine toSeeL_failed ss (d + 1) _ (fun s hs => hc'.2 s hs) ?_ l m d' v' h hl
        by_cases hf : Fails l0
        · rcases hv with hv | hv
          · exact .inl (by subst hv; simpa [Fails] using hf)
          · exact absurd hf hv
        · exact .inr fun s hs => not_fails_le (hc'.1 s hs) hf
theorem toSeeL_failed : ∀ (rs : List (Res Str)) (d : Nat) (v : Bool), (∀ r ∈ rs, Consistent r) → (v = true ∨ ∀ r ∈ rs, ¬ Fails r.level) →
    ∀ l m d' v', .entry l m d' v' ∈ toSeeL d v rs → Fails l → v' = true
  | [], _, _, _, _, _, _, _, _, h, _ => by rw [toSeeL] at h; cases h
  | r :: rs, d, v, hc, hv, l, m, d', v', h, hl => by
    rw [toSeeL] at h
    rcases List.mem_append.mp h with h | h
    · exact toSee_failed r d v (hc r (by simp)) (hv.imp id fun hv => hv r (by simp)) l m d' v' h hl
    · exact toSeeL_failed rs d v (fun r hr => hc r (by simp [hr])) (hv.imp id fun hv r hr => hv r (by simp [hr])) l m d' v' h hl
end

mutual
theorem toSee_folded : ∀ (r : Res Str) (d : Nat) (l : Level) (m : Str) (d' : Nat) (v : Bool), .entry l m d' v ∈ toSee d false r → v = false
  | .mk m0 l0 ss, d, l, m, d', v, h => by
    rw [toSee, List.cons_append, Bool.false_and] at h
    rcases List.mem_cons.mp h with h | h
    · injection h
    · rcases List.mem_append.mp h with h | h
      · split at h
        · cases h
        · simp at h
      · exact toSeeL_folded ss (d + 1) l m d' v h
theorem toSeeL_folded : ∀ (rs : List (Res Str)) (d : Nat) (l : Level) (m : Str) (d' : Nat) (v : Bool), .entry l m d' v ∈ toSeeL d false rs → v = false
  | [], _, _, _, _, _, h => by rw [toSeeL] at h; cases h
  | r :: rs, d, l, m, d', v, h => by
    rw [toSeeL] at h
    rcases List.mem_append.mp h with h | h
    · exact toSee_folded r d l m d' v h
    · exact toSeeL_folded rs d l m d' v h
end

end Res
end Verif
