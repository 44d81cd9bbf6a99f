import Verif.JsonFileLemmas
import Verif.Props.Engine

/-!
# C77, C78: reading JSON

C77 is about `json.loads` of texts, C78 about `check_json_file` for files of bytes, as they are opened by the command line and found in
AASX packages.
-/

namespace Verif.Props
open Verif Verif.JsonText Verif.Spec.JsonText Verif.File

/-! ## C77 -/

/-- Exactly the texts of the grammar are read, and they are read as the value they stand for. -/
theorem C77_reads (p : Nums) (s : Str) (j : Json) : loads p s = .ok j ↔ Denotes p s j := by
  unfold loads
  split
  · rename_i h
    refine ⟨fun h => (nomatch h), fun hd => ?_⟩
    obtain ⟨c, r, rfl, -, h1, -⟩ := denotes_plain hd
    obtain ⟨t, ht⟩ := (startsWith_iff _ _).mp h
    simp only [List.cons_append, List.cons.injEq] at ht
    omega
  · exact decode_iff p s j

/-- A text has one value at most. -/
theorem C77_unique {p : Nums} {s : Str} {j k : Json} (hj : Denotes p s j) (hk : Denotes p s k) : j = k := by
  have h := (C77_reads p s j).mpr hj
  rw [(C77_reads p s k).mpr hk] at h
  injection h with h
  exact h.symm

/-- Names of members are unique in what is read. -/
theorem C77_names {p : Nums} {s : Str} {j : Json} (h : loads p s = .ok j) : Spec.Parse.WF j := by
  obtain ⟨a, t, b, -, -, -, hv⟩ := (C77_reads p s j).mp h
  exact value_wf hv

theorem decode_fails (p : Nums) (s : Str) :
    (∀ m n, decode p s = .error (.syntax m n) → ¬ IsJson p s ∧ n ≤ s.length) ∧ (∀ e, decode p s = .error (.raised e) → e = .valueError ∧ LongNumber p s) := by
  refine ⟨fun m n h => ?_, fun e h => ?_⟩
  · refine ⟨?_, decode_within h⟩
    rcases decode_like p s with hl | ⟨hl, -⟩
    · rintro ⟨j, hj⟩
      rw [h, (decode_iff _ s j).mpr hj] at hl
      cases hl
    · rw [h] at hl
      cases hl
  · rcases decode_like p s with hl | ⟨hl, l, a, ds, b, h1, h2, h3, h4⟩
    · rw [h] at hl
      exact absurd hl.symm (decode_calm rfl s e)
    · rw [h] at hl
      cases hl
      exact ⟨rfl, l, a, ds, b, h1, h2, h3, h4⟩

/-- `JSONDecodeError` is raised for texts that are not JSON only, and it points into the text; the only other exception is `ValueError`, for numbers with more digits than
Python converts. -/
theorem C77_rejects (p : Nums) (s : Str) :
    (∀ m n, loads p s = .error (.syntax m n) → ¬ IsJson p s ∧ n ≤ s.length) ∧ (∀ e, loads p s = .error (.raised e) → e = .valueError ∧ LongNumber p s) := by
  unfold loads
  split
  · rename_i h
    refine ⟨fun m n hn => ⟨?_, ?_⟩, fun e he => (nomatch he)⟩
    case refine_2 =>
      simp only [err, Except.error.injEq, Fail.syntax.injEq] at hn
      omega
    rintro ⟨j, hd⟩
    obtain ⟨c, r, rfl, -, h1, -⟩ := denotes_plain hd
    obtain ⟨t, ht⟩ := (startsWith_iff _ _).mp h
    simp only [List.cons_append, List.cons.injEq] at ht
    omega
  · exact decode_fails p s

/-- Every text that is not JSON and has no such number is rejected with `JSONDecodeError`. -/
theorem C77_malformed {p : Nums} {s : Str} (h : ¬ IsJson p s) (hl : ¬ LongNumber p s) : ∃ m n, loads p s = .error (.syntax m n) := by
  cases hr : loads p s with
  | ok j =>
    obtain ⟨a, t, b, h1, h2, h3, hv⟩ := (C77_reads p s j).mp hr
    refine absurd ⟨j, ?_⟩ h
    rcases decode_like p s with hd | ⟨-, hd⟩
    · exact (decode_iff _ s j).mp (by rw [← hd]; exact (decode_iff p s j).mpr ⟨a, t, b, h1, h2, h3, hv⟩)
    · exact absurd hd hl
  | error e =>
    cases e with
    | «syntax» m n => exact ⟨m, n, rfl⟩
    | raised e => exact absurd ((C77_rejects p s).2 e hr).2 hl

/-! ## C78 -/

variable {X : Type}

theorem load_ok {p : Nums} {b : List Nat} {s : Str} (h : decodeBytes (detectEncoding b) b = some s) (j : Json) :
    load p b = .ok j ↔ Denotes p s j := by
  unfold load
  rw [h, ← decode_iff]
  dsimp only
  cases decode p s with
  | ok k => exact ⟨fun h => by cases h; rfl, fun h => by cases h; rfl⟩
  | error e => cases e <;> exact ⟨fun h => (nomatch h), fun h => (nomatch h)⟩

theorem hasText_decode {p : Nums} {b : List Nat} {s : Str} {j : Json} (hb : HasText b s) (hj : Denotes p s j) :
    decodeBytes (detectEncoding b) b = some s := by
  obtain ⟨f, mark, rfl, hs, hp⟩ := hb
  exact detected' hs (denotes_plain hj) f mark hp

/-- Exactly the files with a JSON text are read, whatever the form of Unicode and with or without byte order mark, and they are read as the value
of the text. -/
theorem C78_reads (p : Nums) {b : List Nat} (hb : ∀ x ∈ b, x < 256) (j : Json) : load p b = .ok j ↔ ∃ s, HasText b s ∧ Denotes p s j := by
  constructor
  · intro h
    cases hd : decodeBytes (detectEncoding b) b with
    | none => simp [load, hd] at h
    | some s => exact ⟨s, decodeBytes_sound hd hb, (load_ok hd j).mp h⟩
  · rintro ⟨s, hs, hj⟩
    exact (load_ok (hasText_decode hs hj) j).mpr hj

/-- Texts of characters that are no surrogates can be in every form. -/
theorem hasText_scalar {s : Str} (hs : ∀ c ∈ s, Scalar c) (f : Form) (mark : Bool) : HasText (fileOf f mark s) s :=
  ⟨f, mark, rfl, fun c hc => scalar_bound (hs c hc), fun _ => scalar_noPair hs⟩

/-- A document is checked in the same way in whatever form of Unicode it is encoded, with or without byte order mark. -/
theorem C78_forms (p : Nums) (x : Except Unread X) (g : Engine Json X) (T : Str) {b : List Nat} {s : Str} {j : Json} (hb : HasText b s)
    (hj : Denotes p s j) : checkJsonFile g (ofBytes p x b) T = checkJsonData g j T := by
  have h := (load_ok (p := p) (hasText_decode hb hj) j).mpr hj
  unfold checkJsonFile ofBytes
  rw [h]

theorem errorText_spec {s m : Str} {k : Nat} : ErrorText s (errorText s m k) := by
  unfold errorText
  dsimp only
  generalize hn : s.length - k = n
  have hs : s = s.take n ++ s.drop n := (List.take_append_drop n s).symm
  generalize s.take n = a at *
  generalize s.drop n = b at *
  have hr : a.reverse.takeWhile (· != 10) ++ a.reverse.dropWhile (· != 10) = a.reverse := List.takeWhile_append_dropWhile
  generalize hw : a.reverse.takeWhile (· != 10) = w' at *
  have hw10 : 10 ∉ w' := by
    intro h
    rw [← hw] at h
    have := List.all_takeWhile (p := fun x : Nat => x != 10) (l := a.reverse)
    rw [List.all_eq_true] at this
    simpa using this 10 h
  cases hd : a.reverse.dropWhile (· != 10) with
  | nil =>
    rw [hd, List.append_nil] at hr
    have ha : a = w'.reverse := by rw [hr, List.reverse_reverse]
    subst ha
    refine ⟨m, 1, [], w'.reverse, b, by simpa using hs, by simpa using hw10, .inl ⟨rfl, rfl⟩, ?_⟩
    have : List.count 10 w'.reverse = 0 := List.count_eq_zero.mpr (by simpa using hw10)
    rw [this]
    simp
  | cons c u' =>
    have hc : c = 10 := by
      have := List.head?_dropWhile_not (fun x : Nat => x != 10) a.reverse
      rw [hd] at this
      simpa using this
    subst hc
    rw [hd] at hr
    have ha : a = (u'.reverse ++ [10]) ++ w'.reverse := by rw [← List.reverse_reverse a, ← hr]; simp
    subst ha
    refine ⟨m, _, u'.reverse ++ [10], w'.reverse, b, by rw [← List.append_assoc]; exact hs, by simpa using hw10, .inr ⟨_, rfl, rfl⟩, ?_⟩
    have h0 : List.count 10 w'.reverse = 0 := List.count_eq_zero.mpr (by simpa using hw10)
    have h1 : ∀ l : List Nat, List.count 10 l = (l.filter (· = 10)).length := by
      intro l
      rw [List.count, List.countP_eq_length_filter]
      congr 2
    have h2 : (u'.reverse ++ [10] ++ w'.reverse).length = List.length (u'.reverse ++ [10]) + List.length w'.reverse := List.length_append
    rw [List.count_append, h0, ← h1, h2, List.length_reverse (as := w')]

/-- Files in UTF-8 whose text is not JSON are reported, with the place of an error, unless a number is too long. Texts with the character NUL are left out
because they may be taken for UTF-16 or UTF-32. -/
theorem C78_malformed (p : Nums) (x : Except Unread X) (g : Engine Json X) (T : Str) {s : Str} (h0 : 0 ∉ s) (hs : ∀ c ∈ s, c < 0x110000) (mark : Bool)
    (hm : mark = false → ∀ r, s ≠ 0xfeff :: r) (hj : ¬ IsJson p s) (hl : ¬ LongNumber p s) :
    ∃ t, checkJsonFile g (ofBytes p x (fileOf .utf8 mark s)) T = .ok (.mk (py!"Invalid JSON: " ++ t) .error []) ∧ ErrorText s t := by
  unfold checkJsonFile ofBytes load
  rw [file8 h0 hs mark hm]
  dsimp only
  cases hr : decode p s with
  | ok j =>
    rcases decode_like p s with hd | ⟨-, hd⟩
    · exact absurd ⟨j, (decode_iff _ s j).mp (by rw [← hd]; exact hr)⟩ hj
    · exact absurd hd hl
  | error e =>
    cases e with
    | «syntax» m n => exact ⟨_, rfl, errorText_spec⟩
    | raised e => exact absurd ((decode_fails p s).2 e hr).2 hl

/-- "The check returns a result for every file" does not hold: files that are not UTF-8 raise `UnicodeDecodeError`, whatever the engine. -/
theorem C78_bytes_violated (p : Nums) (x : Except Unread X) (g : Engine Json X) (T : Str) {b : List Nat} (h0 : 0 ∉ b)
    (h1 : ¬ ∃ r, b = 0xfe :: 0xff :: r) (h2 : ¬ ∃ r, b = 0xff :: 0xfe :: r) (h : ∀ s, (∀ c ∈ s, c < 0x110000) → b ≠ encode .utf8 s) :
    checkJsonFile g (ofBytes p x b) T = .error .unicodeDecodeError := by
  have g1 : Py.startsWith b [0xfe, 0xff] = false := by
    rw [← Bool.not_eq_true, startsWith_iff]
    exact fun ⟨t, ht⟩ => h1 ⟨t, by simpa using ht⟩
  have g2 : Py.startsWith b [0xff, 0xfe] = false := by
    rw [← Bool.not_eq_true, startsWith_iff]
    exact fun ⟨t, ht⟩ => h2 ⟨t, by simpa using ht⟩
  have hd : decodeBytes (detectEncoding b) b = none := by
    cases hd : decodeBytes (detectEncoding b) b with
    | none => rfl
    | some s =>
      exfalso
      obtain ⟨mark, hb, hs, -⟩ := (decode8 h0 g1 g2 s).mp hd
      cases mark with
      | false => exact h s hs hb
      | true =>
        refine h (0xfeff :: s) (fun c hc => ?_) hb
        rcases List.mem_cons.mp hc with rfl | hc
        · decide
        · exact hs c hc
  unfold checkJsonFile ofBytes load
  rw [hd]

/-- … and so does JSON with an integer that has more digits than Python converts: `ValueError`. -/
theorem C78_numbers_violated (p : Nums) (x : Except Unread X) (g : Engine Json X) (T : Str) {b : List Nat} {s : Str} (hb : HasText b s) (hj : IsJson p s)
    (hn : ∀ j, ¬ Denotes p s j) : checkJsonFile g (ofBytes p x b) T = .error .valueError := by
  obtain ⟨j, hj⟩ := hj
  unfold checkJsonFile ofBytes load
  rw [hasText_decode hb hj]
  dsimp only
  rcases decode_like p s with hd | ⟨hd, -⟩
  · exact absurd ((decode_iff p s j).mp (by rw [hd]; exact (decode_iff _ s j).mpr hj)) (hn j)
  · rw [hd]

/-- Reading raises no other exception, whatever the bytes. -/
theorem C78_raises (p : Nums) (b : List Nat) (e : PyExc) (h : load p b = .error (.raised e)) : e = .unicodeDecodeError ∨ e = .valueError := by
  unfold load at h
  split at h
  · cases h; exact .inl rfl
  · rename_i s _
    split at h
    · cases h
    · cases h
    · rename_i hd
      cases h
      exact .inr ((decode_fails p s).2 _ hd).1

section
open Verif.Parse Verif.Aas Verif.Engine Verif.Spec.Parse Verif.Spec.Model Verif.Spec.Templates Verif.Spec.Engine

/-- A file without a JSON text that can be read is never ok, whatever the engine: the check raises, or it reports that the JSON is invalid. -/
theorem C78_unread (p : Nums) (x : Except Unread Xml) (g : File.Engine Json Xml) (T : Str) {b : List Nat} (hb : ∀ x ∈ b, x < 256)
    (h : ¬ ∃ s j, HasText b s ∧ Denotes p s j) :
    (∃ t, checkJsonFile g (ofBytes p x b) T = .ok (.mk (py!"Invalid JSON: " ++ t) .error [])) ∨
      checkJsonFile g (ofBytes p x b) T = .error .unicodeDecodeError ∨ checkJsonFile g (ofBytes p x b) T = .error .valueError := by
  unfold checkJsonFile ofBytes
  cases hl : load p b with
  | ok j =>
    obtain ⟨s, hs, hj⟩ := (C78_reads p hb j).mp hl
    exact absurd ⟨s, j, hs, hj⟩ h
  | error e =>
    cases e with
    | malformed t => exact .inl ⟨t, rfl⟩
    | raised e =>
      rcases C78_raises p b e hl with rfl | rfl
      · exact .inr (.inl rfl)
      · exact .inr (.inr rfl)

/-- A JSON file against the default model type (C50, without its hypothesis about names): with every document in a file, in any form of Unicode, the
check raises only if a check of a rule or of a template does; otherwise the result is ok iff the document conforms, obeys the rules and follows the
templates. Missing: the files of `C78_bytes_violated` and `C78_numbers_violated`, on which the check raises; `C78_unread` is about all files
without such a document. -/
theorem C78_file_partial (text : Note → Str) (lim : Option Nat) (p : Nums) (x : Except Unread Xml) {b : List Nat} {s : Str} {j : Json} (hb : HasText b s)
    (hj : Denotes p s j) :
    (¬ Conforms (schema lim) (.cls .environment) j →
      ∃ r, checkJsonFile (engine text lim) (ofBytes p x b) environment = .ok r ∧ r.ok = false) ∧
    (Conforms (schema lim) (.cls .environment) j →
      ∃ v, HasType (schema lim) (.cls .environment) v ∧ Describes (schema lim) (.cls .environment) j (strip v) ∧
      ((∃ e, checkJsonFile (engine text lim) (ofBytes p x b) environment = .error e) ↔
        Raising lim v ∨ (Obeys lim v ∧ ∃ p ∈ templated (elems v .submodels), RaisesSubmodel p.2 p.1)) ∧
      ∀ r, checkJsonFile (engine text lim) (ofBytes p x b) environment = .ok r →
        (r.ok = true ↔ Obeys lim v ∧ ∀ p ∈ templated (elems v .submodels), Follows true p.2 p.1)) := by
  rw [C78_forms p x (engine text lim) environment hb hj]
  exact C50_json_partial text lim j (C77_names ((C77_reads p s j).mpr hj))
end

/-! ## examples -/

namespace JsonSamples
/-- numbers with a fraction are not looked at; integers have four digits at most -/
def nums : Nums := ⟨some 4, fun _ => .inr 0⟩
/-- escapes, a name twice, white space -/
def doc : Str := py!"{\"a\": 1,\n \"a\": [true, \"\\u00e9\\ud83d\\ude00\\n\"], \"b\": -12.5e3} "
def value : Json := .obj [(py!"a", .arr [.bool true, .str [0xe9, 0x1f600, 10]]), (py!"b", .float 0)]
end JsonSamples
open JsonSamples

example : Denotes nums doc value := (C77_reads _ _ _).mp rfl
example : loads nums doc = .ok value := rfl
example : ¬ IsJson nums py!"[1,]" := ((C77_rejects nums py!"[1,]").1 py!"Expecting value" 1 rfl).1
example : ∃ m n, loads nums py!"[1,]" = .error (.syntax m n) :=
  C77_malformed ((C77_rejects nums py!"[1,]").1 py!"Expecting value" 1 rfl).1 (by
    rintro ⟨l, a, ds, b, hl, hs, -, h⟩
    cases hl
    have := congrArg List.length hs
    simp at this
    omega)
example : loads nums py!"[12345]" = .error (.raised .valueError) := rfl
/-- the document above in UTF-16 with byte order mark -/
example {X : Type} (x : Except Unread X) (g : Engine Json X) (T : Str) :
    checkJsonFile g (ofBytes nums x (fileOf (.utf16 true) true doc)) T = checkJsonData g value T :=
  C78_forms nums x g T (hasText_scalar (fun c hc => .inl (by revert c; decide)) _ _) ((C77_reads _ _ _).mp rfl)
/-- a single surrogate in UTF-8, as Python writes it with `surrogatepass` -/
example : load nums [0x22, 0xed, 0xa0, 0x80, 0x22] = .ok (.str [0xd800]) :=
  (C78_reads nums (by decide) _).mpr ⟨[0x22, 0xd800, 0x22], ⟨.utf8, false, rfl, by decide, fun ⟨_, h⟩ => (nomatch h)⟩, (C77_reads _ _ _).mp rfl⟩
example {X : Type} (x : Except Unread X) (g : Engine Json X) (T : Str) :
    checkJsonFile g (ofBytes nums x (fileOf .utf8 false py!"{\n [")) T =
      .ok (.mk py!"Invalid JSON: Expecting property name enclosed in double quotes: line 2 column 2 (char 3)" .error []) := rfl
example {X : Type} (x : Except Unread X) (g : Engine Json X) (T : Str) : checkJsonFile g (ofBytes nums x [0x22, 0xff, 0x22]) T = .error .unicodeDecodeError :=
  C78_bytes_violated nums x g T (by decide) (fun ⟨_, h⟩ => by cases h) (fun ⟨_, h⟩ => by cases h) fun s hs h => by
    have := decodeUtf8_encode hs
    rw [← h] at this
    cases this
example {X : Type} (x : Except Unread X) (g : Engine Json X) (T : Str) : checkJsonFile g (ofBytes nums x py!"12345") T = .error .valueError :=
  C78_numbers_violated nums x g T (s := py!"12345") (hasText_scalar (s := py!"12345") (fun c hc => .inl (by revert c; decide)) .utf8 false) ⟨.num 12345, (decode_iff _ _ _).mp rfl⟩
    (fun j hj => by
      have := (decode_iff _ _ _).mpr hj
      cases this)

end Verif.Props
