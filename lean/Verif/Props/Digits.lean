import Verif.DigitLemmas2
import Verif.Cli

/-!
# C108: a limit on the digits of numbers matters only for long texts
-/

namespace Verif.Props
open Verif Parse Aas Aas.Digits Engine DataTypes Spec Spec.Digits

variable (W : Words) {lim lim' : Option Nat} {n : Nat}

/-- Texts of at most `n` characters are judged in the same way by all interpreters that convert numerals of `n` digits, for all 30 data types. -/
theorem C108_types (h : Converts lim n) (h' : Converts lim' n) (t : Xsd) (s : Str) (hs : s.length ≤ n) : validate lim t s = validate lim' t s := by
  rw [validate_none (converts_mono h hs), validate_none (converts_mono h' hs)]

example : validate (some 4300) .date py!"2024-02-30" = validate none .date py!"2024-02-30" :=
  C108_types (n := 10) (by intro l hl; cases hl; decide) (by intro l hl; cases hl) _ _ (by decide)

/-- So are formatted strings, with the same texts of exceptions. -/
theorem C108_strings (h : Converts lim n) (h' : Converts lim' n) (c : SfvCls) (s : Str) (hs : s.length ≤ n) : tellConstruct lim c s = tellConstruct lim' c s := by
  rw [construct_none (converts_mono h hs), construct_none (converts_mono h' hs)]

example : tellConstruct (some 4300) .dateTime py!"2024-02-30T00:00:00Z" = tellConstruct (some 640) .dateTime py!"2024-02-30T00:00:00Z" :=
  C108_strings (n := 640) (by intro l hl; cases hl; decide) (by intro l hl; cases hl; decide) _ _ (by decide)

/-- The bound is sharp: with a limit of `n` digits there is a text with one character more that is judged differently than without a limit. -/
theorem C108_sharp (n : Nat) : ∃ s : Str, s.length = n + 1 ∧ validate (some n) .integer s = .ok false ∧ validate none .integer s = .ok true := by
  have hn : Numeral (List.replicate (n + 1) 49) := ⟨by simp, fun c hc => by rw [List.eq_of_mem_replicate hc]; decide⟩
  refine ⟨List.replicate (n + 1) 49, by simp, ?_, ?_⟩
  · simp only [validate, isBoundedInteger, pyInt_numeral _ hn]
    simp [tooLong]
  · simp only [validate, isBoundedInteger, pyInt_numeral _ hn]
    simp [tooLong]

example : validate (some 3) .integer py!"1111" = .ok false ∧ validate none .integer py!"1111" = .ok true := by decide +kernel

theorem sayObj_none {A : Type} {ops : TOps A} {P : A → Prop} (hP : Closed ops n P) (h : Converts lim n) (k : Nat) {a : A} (ha : P a) (T : Str) :
    sayObj W ops lim k a T = sayObj W ops none k a T := by
  have key : ∀ ty, tellAndCheck W ops (schema lim) (texts lim) Fld.pyName (tells lim) k ty a =
      tellAndCheck W ops (schema none) (texts none) Fld.pyName (tells none) k ty a := by
    intro ty
    unfold tellAndCheck
    obtain ⟨h1, h2⟩ := tellF_alike (W := W) hP h k ty a (Res.new (heading py!"Check meta model")) ha
    rw [← h1]
    cases hx : tellF W ops (schema lim) (texts lim) k ty a (Res.new (heading py!"Check meta model")) with
    | error e => rfl
    | ok p =>
      obtain ⟨v, res⟩ := p
      dsimp only
      rw [(constraints_none h (h2 _ _ hx)).1]
  have : tellObj W ops lim k a T = tellObj W ops none k a T := by
    unfold tellObj
    simp only [key]
  rw [sayObj, sayObj, this]

theorem json_members : ∀ (p : List PTok) (kvs : List (Str × Json)), (∀ q ∈ kvs, ShortJson n q.2) → ∀ q ∈ JsonA.members p kvs, ShortJson n q.2.value
  | _, [], _ => nofun
  | p, (k, v) :: rest, h => by
    have ih := json_members p rest fun q hq => h q (List.mem_cons_of_mem _ hq)
    rw [JsonA.members]
    split
    · exact ih
    · intro q hq
      rcases List.mem_cons.mp hq with rfl | hq
      · exact h _ (List.mem_cons_self ..)
      · exact ih q hq

theorem json_items : ∀ (p : List PTok) (i : Nat) (l : List Json), (∀ j ∈ l, ShortJson n j) → ∀ q ∈ JsonA.items p i l, ShortJson n q.value
  | _, _, [], _ => nofun
  | p, i, j :: l, h => by
    rw [JsonA.items]
    intro q hq
    rcases List.mem_cons.mp hq with rfl | hq
    · exact h _ (List.mem_cons_self ..)
    · exact json_items p (i + 1) l (fun q hq => h q (List.mem_cons_of_mem _ hq)) q hq

theorem json_closed : Closed (jsonTells W) n fun a => ShortJson n a.value where
  obj {a m} ha h := by
    change JsonA.tellObject W a = _ at h
    unfold JsonA.tellObject at h
    split at h
    · rename_i kvs e
      cases h
      rw [e] at ha
      exact json_members _ _ (by cases ha; assumption)
    · cases h
  list {a b l} ha h := by
    change JsonA.tellList W a b = _ at h
    unfold JsonA.tellList at h
    split at h
    · rename_i l' e
      split at h
      · cases h
      · cases h
        rw [e] at ha
        exact json_items _ _ _ (by cases ha; assumption)
    · cases h
  str {a s} ha h := by
    change JsonA.tellString W a = _ at h
    unfold JsonA.tellString at h
    split at h
    · rename_i s' e
      cases h
      rw [e] at ha
      cases ha
      assumption
    · cases h

theorem xml_items : ∀ (p : List PTok) (i : Nat) (l : List Xml), (∀ j ∈ l, ShortXml n j) → ∀ q ∈ XmlA.items p i l, ShortXml n q.value
  | _, _, [], _ => nofun
  | p, i, j :: l, h => by
    rw [XmlA.items]
    intro q hq
    rcases List.mem_cons.mp hq with rfl | hq
    · exact h _ (List.mem_cons_self ..)
    · exact xml_items p (i + 1) l (fun q hq => h q (List.mem_cons_of_mem _ hq)) q hq

theorem short_children {x : Xml} (h : ShortXml n x) : ∀ c ∈ x.children, ShortXml n c := by cases h; assumption
theorem short_text {x : Xml} (h : ShortXml n x) : (x.text.getD []).length ≤ n := by
  cases h with
  | @elem tag text children h1 h2 =>
    cases text with
    | none => exact Nat.zero_le _
    | some t => exact h1 t rfl

theorem short_single {x c : Xml} (h : ShortXml n x) (hc : XmlA.tellSingle x = .ok c) : ShortXml n c := by
  unfold XmlA.tellSingle at hc
  split at hc
  · rename_i c' e
    cases hc
    exact short_children h _ (by rw [e]; exact List.mem_cons_self ..)
  · cases hc

theorem short_data {x c : Xml} (h : ShortXml n x) (hc : XmlA.tellData x = .ok c) : ShortXml n c := by
  unfold XmlA.tellData at hc
  split at hc
  · exact short_single h hc
  · cases hc; exact h

theorem dictSet_short {k : Str} {a : XmlA} (ha : ShortXml n a.value) : ∀ {m : List (Str × XmlA)}, (∀ q ∈ m, ShortXml n q.2.value) →
    ∀ q ∈ XmlA.dictSet k a m, ShortXml n q.2.value
  | [], _ => by
    intro q hq
    rw [XmlA.dictSet, List.mem_singleton] at hq
    subst hq
    exact ha
  | (k', b) :: m, h => by
    rw [XmlA.dictSet]
    intro q hq
    split at hq
    · rcases List.mem_cons.mp hq with rfl | hq
      · exact ha
      · exact h q (List.mem_cons_of_mem _ hq)
    · rcases List.mem_cons.mp hq with rfl | hq
      · exact h _ (List.mem_cons_self ..)
      · exact dictSet_short ha (fun q hq => h q (List.mem_cons_of_mem _ hq)) q hq

theorem xml_members (a : XmlA) : ∀ (l : List Xml) (r m : List (Str × XmlA)), (∀ x ∈ l, ShortXml n x) → (∀ q ∈ r, ShortXml n q.2.value) →
    XmlA.tellMembers W a l r = .ok m → ∀ q ∈ m, ShortXml n q.2.value
  | [], r, m, _, hr, h => by cases h; exact hr
  | c :: l, r, m, hl, hr, h => by
    have hc := hl c (List.mem_cons_self ..)
    have ih := fun r m => xml_members a l r m fun x hx => hl x (List.mem_cons_of_mem _ hx)
    rw [XmlA.tellMembers] at h
    split at h
    · dsimp only at h
      split at h
      · cases h
      · split at h
        · split at h
          · cases h
          · rename_i d hd
            exact ih _ m (dictSet_short (short_single hc hd) hr) h
        · exact ih _ m (dictSet_short hc hr) h
    · cases h

theorem xml_closed : Closed (xmlTells W) n fun a => ShortXml n a.value where
  obj {a m} ha h := by
    change XmlA.tellObject W a = _ at h
    unfold XmlA.tellObject at h
    split at h
    · split at h
      · cases h
      · split at h
        · cases h
        · rename_i d hd
          exact xml_members W a _ [] m (short_children (short_data ha hd)) nofun h
    · cases h
  list {a b l} ha h := by
    change XmlA.tellList a b = _ at h
    unfold XmlA.tellList at h
    split at h
    · cases h
    · cases h
      exact xml_items _ _ _ (short_children ha)
  str {a s} ha h := by
    change XmlA.tellString a = _ at h
    unfold XmlA.tellString at h
    split at h
    · cases h
    · cases h
      exact short_text ha

/-- JSON documents whose texts have at most `n` characters get the same report, word for word, in all interpreters that convert numerals of `n`
digits, or the same exception is raised. -/
theorem C108_json (h : Converts lim n) (h' : Converts lim' n) (j : Json) (hj : ShortJson n j) (T : Str) :
    (textEngine W lim).json j T = (textEngine W lim').json j T := by
  change (sayObj W (jsonTells W) lim (j.size + 1) ⟨j, []⟩ T).map (·.1) = (sayObj W (jsonTells W) lim' (j.size + 1) ⟨j, []⟩ T).map (·.1)
  rw [sayObj_none W (json_closed W) h _ hj, sayObj_none W (json_closed W) h' _ hj]

/-- a document with an integer -/
def DigitSamples.doc (v : Str) : Json := .obj [(py!"submodels", .arr [.obj [(py!"modelType", .str py!"Submodel"), (py!"id", .str py!"i"),
  (py!"submodelElements", .arr [.obj [(py!"modelType", .str py!"Property"), (py!"idShort", .str py!"p"), (py!"valueType", .str py!"xs:integer"), (py!"value", .str v)]])]])]

theorem DigitSamples.doc_short {n : Nat} (v : Str) (hv : v.length ≤ n) (hn : 10 ≤ n) : ShortJson n (doc v) := by
  have s : ∀ {t : Str}, t.length ≤ 10 → ShortJson n (.str t) := fun h => .str (Nat.le_trans h hn)
  have one : ∀ {j x : Json}, ShortJson n j → x ∈ [j] → ShortJson n x := fun h hx => by rw [List.mem_singleton] at hx; subst hx; exact h
  refine .obj fun p hp => ?_
  rw [List.mem_singleton] at hp
  subst hp
  refine .arr fun x hx => one (.obj fun p hp => ?_) hx
  simp only [List.mem_cons, List.not_mem_nil, or_false] at hp
  rcases hp with rfl | rfl | rfl
  · exact s (by decide)
  · exact s (by decide)
  · refine .arr fun x hx => one (.obj fun p hp => ?_) hx
    simp only [List.mem_cons, List.not_mem_nil, or_false] at hp
    rcases hp with rfl | rfl | rfl | rfl
    · exact s (by decide)
    · exact s (by decide)
    · exact s (by decide)
    · exact .str hv

example : (textEngine W (some 640)).json (DigitSamples.doc py!"1111") py!"Environment" = (textEngine W none).json (DigitSamples.doc py!"1111") py!"Environment" :=
  C108_json (n := 640) W (by intro l hl; cases hl; decide) (by intro l hl; cases hl) _ (DigitSamples.doc_short _ (by decide) (by decide)) _

/-- The same for XML documents. -/
theorem C108_xml (h : Converts lim n) (h' : Converts lim' n) (x : Xml) (hx : ShortXml n x) (T : Str) :
    (textEngine W lim).xml x T = (textEngine W lim').xml x T := by
  change (sayObj W (xmlTells W) lim (x.size + 1) ⟨x, []⟩ T).map (·.1) = (sayObj W (xmlTells W) lim' (x.size + 1) ⟨x, []⟩ T).map (·.1)
  rw [sayObj_none W (xml_closed W) h _ hx, sayObj_none W (xml_closed W) h' _ hx]

example (t : Str) (ht : t.length ≤ 640) : (textEngine W (some 640)).xml (.elem (XmlA.ns ++ py!"submodel") none [.elem (XmlA.ns ++ py!"id") (some t) []]) py!"Submodel" =
    (textEngine W (some 4300)).xml (.elem (XmlA.ns ++ py!"submodel") none [.elem (XmlA.ns ++ py!"id") (some t) []]) py!"Submodel" :=
  C108_xml (n := 640) W (by intro l hl; cases hl; decide) (by intro l hl; cases hl; decide) _
    (.elem (fun _ h => by cases h) fun x hx => by rw [List.mem_singleton] at hx; subst hx; exact .elem (fun u hu => by cases hu; exact ht) nofun) _

/-- what the parsers make of a file has no text of more than `n` characters -/
def ShortContent (n : Nat) (f : File.Content Json Xml) : Prop := (∀ j, f.json = .ok j → ShortJson n j) ∧ ∀ x, f.xml = .ok x → ShortXml n x

section
variable {J X : Type} {g g' : File.Engine J X}

/-- two engines agree on what the parsers make of a file -/
def AgreeOn (g g' : File.Engine J X) (f : File.Content J X) : Prop :=
  (∀ j, f.json = .ok j → ∀ T, g.json j T = g'.json j T) ∧ ∀ x, f.xml = .ok x → ∀ T, g.xml x T = g'.xml x T

theorem jsonFile_agree {f : File.Content J X} (hf : AgreeOn g g' f) (T : Str) : File.checkJsonFile g f T = File.checkJsonFile g' f T := by
  unfold File.checkJsonFile
  split
  · rfl
  · rfl
  · rename_i j hj
    exact hf.1 j hj T

theorem xmlFile_agree {f : File.Content J X} (hf : AgreeOn g g' f) (T : Str) : File.checkXmlFile g f T = File.checkXmlFile g' f T := by
  unfold File.checkXmlFile
  split
  · rfl
  · rfl
  · rename_i x hx
    exact hf.2 x hx _

theorem spec_agree (z : Opc.Zip) (files : Str → File.Content J X) (t : Str) (hf : t ∈ z.namelist → AgreeOn g g' (files t)) :
    File.checkSpec g z files t = File.checkSpec g' z files t := by
  unfold File.checkSpec
  by_cases hc : z.namelist.contains t = true
  · have hs := hf (List.contains_iff_mem.mp hc)
    rw [jsonFile_agree hs, xmlFile_agree hs]
  · simp only [Bool.not_eq_true] at hc
    simp only [hc, Bool.not_false, if_true]
    rfl

theorem specs_agree (z : Opc.Zip) (files : Str → File.Content J X) (hf : ∀ t ∈ z.namelist, AgreeOn g g' (files t)) :
    ∀ (l : List Opc.Relationship) (r : Res Str), File.checkSpecs g z files r l = File.checkSpecs g' z files r l
  | [], _ => rfl
  | s :: l, r => by
    rw [File.checkSpecs, File.checkSpecs, spec_agree z files s.target (hf _)]
    split
    · rfl
    · rfl
    · exact specs_agree z files hf l _

theorem origins_agree (z : Opc.Zip) (files : Str → File.Content J X) (hf : ∀ t ∈ z.namelist, AgreeOn g g' (files t)) :
    ∀ (l : List Opc.Relationship) (r : Res Str), File.checkOrigins g z files r l = File.checkOrigins g' z files r l
  | [], _ => rfl
  | s :: l, r => by
    simp only [File.checkOrigins, specs_agree z files hf]
    split
    · rfl
    · rfl
    · exact origins_agree z files hf l _

theorem package_agree (z : Opc.Zip) (files : Str → File.Content J X) (hf : ∀ t ∈ z.namelist, AgreeOn g g' (files t)) :
    File.checkAasxFile g (.ok (z, files)) = File.checkAasxFile g' (.ok (z, files)) := by
  simp only [File.checkAasxFile, File.checkAasxData, File.checkFiles, origins_agree z files hf]

end

theorem short_agree (h : Converts lim n) (h' : Converts lim' n) {f : File.Content Json Xml} (hf : ShortContent n f) :
    AgreeOn (textEngine W lim) (textEngine W lim') f :=
  ⟨fun j hj T => C108_json W h h' j (hf.1 j hj) T, fun x hx T => C108_xml W h h' x (hf.2 x hx) T⟩

/-- JSON files whose texts are short get the same report. -/
theorem C108_json_file (h : Converts lim n) (h' : Converts lim' n) (f : File.Content Json Xml) (hf : ShortContent n f) (T : Str) :
    File.checkJsonFile (textEngine W lim) f T = File.checkJsonFile (textEngine W lim') f T := jsonFile_agree (short_agree W h h' hf) T

/-- XML files whose texts are short get the same report. -/
theorem C108_xml_file (h : Converts lim n) (h' : Converts lim' n) (f : File.Content Json Xml) (hf : ShortContent n f) (T : Str) :
    File.checkXmlFile (textEngine W lim) f T = File.checkXmlFile (textEngine W lim') f T := xmlFile_agree (short_agree W h h' hf) T

/-- So do packages, if this holds for what the parsers make of the files in them. -/
theorem C108_package (h : Converts lim n) (h' : Converts lim' n) (z : Opc.Zip) (files : Str → File.Content Json Xml)
    (hf : ∀ t ∈ z.namelist, ShortContent n (files t)) :
    File.checkAasxFile (textEngine W lim) (.ok (z, files)) = File.checkAasxFile (textEngine W lim') (.ok (z, files)) :=
  package_agree z files fun t ht => short_agree W h h' (hf t ht)

example (v : Str) (hv : v.length ≤ 640) : ShortContent 640 ⟨.ok (DigitSamples.doc v), .error (.malformed py!"syntax error")⟩ :=
  ⟨fun _ hj => by cases hj; exact DigitSamples.doc_short v hv (by decide), nofun⟩

example (z : Opc.Zip) : File.checkAasxFile (textEngine W (some 640)) (.ok (z, fun _ => ⟨.ok (DigitSamples.doc py!"1111"), .error (.malformed py!"syntax error")⟩)) =
    File.checkAasxFile (textEngine W none) (.ok (z, fun _ => ⟨.ok (DigitSamples.doc py!"1111"), .error (.malformed py!"syntax error")⟩)) :=
  C108_package (n := 640) W (by intro l hl; cases hl; decide) (by intro l hl; cases hl) z _
    fun _ _ => ⟨fun _ hj => by cases hj; exact DigitSamples.doc_short _ (by decide) (by decide), nofun⟩

theorem checkFile_agree {g g' : File.Engine Json Xml} (f : Cli.FileArg) (hc : AgreeOn g g' f.content)
    (hz : ∀ z files, f.zip = .ok (z, files) → ∀ t ∈ z.namelist, AgreeOn g g' (files t)) (T : Str) (k : Cli.Format) :
    Cli.checkFile g f T k = Cli.checkFile g' f T k := by
  cases k with
  | aasx =>
    have : File.checkAasxFile g f.zip = File.checkAasxFile g' f.zip := by
      match hq : f.zip with
      | .error e => rfl
      | .ok (z, files) => exact package_agree z files (hz z files hq)
    simp only [Cli.checkFile, this]
  | json => simp only [Cli.checkFile, jsonFile_agree hc]
  | xml => simp only [Cli.checkFile, xmlFile_agree hc]

/-- And the whole run of the command `check_file` is the same: what is printed and the exit code, for all options. -/
theorem C108_command (h : Converts lim n) (h' : Converts lim' n) (c : Cli.Console) (args : Cli.FileArgs) (hc : ShortContent n args.file.content)
    (hz : ∀ z files, args.file.zip = .ok (z, files) → ∀ t ∈ z.namelist, ShortContent n (files t)) :
    Cli.runFileTest c (textEngine W lim) args = Cli.runFileTest c (textEngine W lim') args := by
  simp only [Cli.runFileTest, checkFile_agree args.file (short_agree W h h' hc) fun z files e t ht => short_agree W h h' (hz z files e t ht)]

example (v : Str) (hv : v.length ≤ 640) (c : Cli.Console) (format output : Option Str) :
    let f : Cli.FileArg := ⟨.error py!"File is not a zip file", ⟨.ok (DigitSamples.doc v), .error (.malformed py!"syntax error")⟩⟩
    Cli.runFileTest c (textEngine W (some 640)) { file := f, format, output, modelType := none } =
      Cli.runFileTest c (textEngine W none) { file := f, format, output, modelType := none } :=
  C108_command (n := 640) W (by intro l hl; cases hl; decide) (by intro l hl; cases hl) c _
    ⟨fun _ hj => by cases hj; exact DigitSamples.doc_short v hv (by decide), nofun⟩ nofun

end Verif.Props
