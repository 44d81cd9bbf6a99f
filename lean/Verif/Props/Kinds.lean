import Verif.KindLemmas
import Verif.Props.JsonText
import Verif.Props.File

/-!
# C81: the kinds of exceptions

Which exceptions the checks raise at all (C50, C51 and C78 say when). A `KeyError` is not among them, so that the check of packages, which
takes every `KeyError` for a missing file (C33), never mistakes one.
-/

namespace Verif.Props
open Verif Verif.Parse Verif.Aas Verif.Engine Verif.Spec.Parse Verif.Spec.Model Verif.File Verif.JsonText Verif.Spec.JsonText
open Verif.Opc (Zip)

variable (text : Note → Str) (lim : Option Nat)

/-- JSON data of any kind, any model type: AttributeError, TypeError and ValueError only. -/
theorem C81_json (j : Json) (T : Str) (e : PyExc) (h : checkJsonData (engine text lim) j T = .error e) : Mishap e := by
  rw [checkJsonData, engine] at h
  dsimp only at h
  cases hx : jsonToObj lim j T with
  | ok p => rw [hx] at h; cases h
  | error e' =>
    rw [hx] at h
    cases h
    exact (toObj_only jsonOps json_quiet.kinds ⟨fun _ _ _ _ _ _ => trivial, fun _ _ _ _ _ _ _ => trivial⟩ (fun a => a.value.size) json_lawful
      json_nonempty (Nat.lt_succ_self _) trivial T e hx).elim (fun h => h.elim) id

/-- XML data: also IndexError, but only if some element has no name besides the namespace. -/
theorem C81_xml (x : Xml) (T : Str) (e : PyExc) (h : checkXmlData (engine text lim) x T = .error e) :
    Mishap e ∨ (e = .indexError ∧ ¬ Named x) := by
  rw [checkXmlData, engine] at h
  dsimp only at h
  cases hx : xmlToObj lim x T with
  | ok p => rw [hx] at h; cases h
  | error e' =>
    rw [hx] at h
    cases h
    by_cases hn : Named x
    · exact .inl ((toObj_only xmlOps xml_quiet.kinds xml_named (fun a => a.value.size) xml_lawful xml_nonempty (Nat.lt_succ_self _) hn T e hx).elim
        (fun h => h.elim) id)
    · rcases toObj_only xmlOps xml_kinds ⟨fun _ _ _ _ _ _ => trivial, fun _ _ _ _ _ _ _ => trivial⟩ (fun a => a.value.size) xml_lawful xml_nonempty
        (Nat.lt_succ_self _) trivial T e hx with h | h
      · exact .inr ⟨h, hn⟩
      · exact .inl h

/-- JSON files of any bytes: also UnicodeDecodeError. -/
theorem C81_json_file (p : Nums) (x : Except Unread Xml) (b : List Nat) (T : Str) (e : PyExc)
    (h : checkJsonFile (engine text lim) (ofBytes p x b) T = .error e) : Mishap e ∨ e = .unicodeDecodeError := by
  unfold checkJsonFile ofBytes at h
  cases hl : load p b with
  | ok j => rw [hl] at h; exact .inl (C81_json text lim j T e h)
  | error u =>
    rw [hl] at h
    cases u with
    | malformed t => cases h
    | raised e' =>
      cases h
      rcases C78_raises p b e hl with rfl | rfl
      · exact .inr rfl
      · exact .inl (.inr (.inr rfl))

/-- XML files: also what the XML parser raises besides ParseError. -/
theorem C81_xml_file (f : Content Json Xml) (T : Str) (e : PyExc) (h : checkXmlFile (engine text lim) f T = .error e) :
    Mishap e ∨ (e = .indexError ∧ ∃ x, f.xml = .ok x ∧ ¬ Named x) ∨ f.xml = .error (.raised e) := by
  unfold checkXmlFile at h
  cases hl : f.xml with
  | ok x =>
    rw [hl] at h
    rcases C81_xml text lim x _ e h with h | ⟨h, hn⟩
    · exact .inl h
    · exact .inr (.inl ⟨h, x, rfl, hn⟩)
  | error u =>
    rw [hl] at h
    cases u with
    | malformed t => cases h
    | raised e' => cases h; exact .inr (.inr rfl)

/-- the files of a package: their bytes, and what the XML parser makes of them -/
def partsOf (p : Nums) (bytes : Str → List Nat) (parsed : Str → Except Unread Xml) (q : Str) : Content Json Xml := ofBytes p (parsed q) (bytes q)

/-- A file of a package is checked without a `KeyError`, unless the XML parser raises one. -/
theorem C81_key_error (p : Nums) (bytes : Str → List Nat) (parsed : Str → Except Unread Xml) (q : Str)
    (hx : parsed q ≠ .error (.raised .keyError)) : ¬ Spec.Verdict (engine text lim) (partsOf p bytes parsed) q (.error .keyError) := by
  have nomis : ¬ Mishap .keyError := by rintro (h | h | h) <;> cases h
  intro h
  generalize hy : (Except.error .keyError : Except PyExc (Res Str)) = y at h
  cases h with
  | xml pre data _ hd =>
    rcases C81_xml text lim data _ _ hy.symm with h | ⟨h, -⟩
    · exact nomis h
    · cases h
  | noXml => cases hy
  | xmlRaises pre e _ hd => cases hy; exact hx hd
  | json pre data _ hd => exact nomis (C81_json text lim data _ _ hy.symm)
  | noJson => cases hy
  | jsonRaises pre e _ hd =>
    cases hy
    rcases C78_raises p _ _ hd with h | h <;> cases h
  | other => cases hy

/-- Packages: ParseError for the package itself, besides the exceptions of the files. -/
theorem C81_package (z : Zip) (p : Nums) (bytes : Str → List Nat) (parsed : Str → Except Unread Xml) (e : PyExc)
    (h : checkAasxData (engine text lim) z (partsOf p bytes parsed) = .error e) :
    e = .parseError ∨ Mishap e ∨ e = .unicodeDecodeError ∨ ∃ q, Spec.Linked py!"/" z q ∧
      ((e = .indexError ∧ ∃ x, parsed q = .ok x ∧ ¬ Named x) ∨ parsed q = .error (.raised e)) := by
  rcases C33_raises e h with ⟨h, -⟩ | ⟨q, hq, hv⟩
  · exact .inl h
  · generalize hy : (Except.error e : Except PyExc (Res Str)) = y at hv
    cases hv with
    | xml pre data _ hd =>
      rcases C81_xml text lim data _ _ hy.symm with h | ⟨h, hn⟩
      · exact .inr (.inl h)
      · exact .inr (.inr (.inr ⟨q, hq, .inl ⟨h, data, hd, hn⟩⟩))
    | noXml => cases hy
    | xmlRaises pre e' _ hd => cases hy; exact .inr (.inr (.inr ⟨q, hq, .inr hd⟩))
    | json pre data _ hd => exact .inr (.inl (C81_json text lim data _ _ hy.symm))
    | noJson => cases hy
    | jsonRaises pre e' _ hd =>
      cases hy
      rcases C78_raises p _ _ hd with rfl | rfl
      · exact .inr (.inr (.inl rfl))
      · exact .inr (.inl (.inr (.inr rfl)))
    | other => cases hy

/-- C33 for the checks of the meta-model: without the hypothesis about `KeyError`. Missing: packages with other links to the origin part
(`C33_second_link_violated`). -/
theorem C33_engine_partial (z : Zip) (p : Nums) (bytes : Str → List Nat) (parsed : Str → Except Unread Xml)
    (hx : ∀ q, parsed q ≠ .error (.raised .keyError)) (r : Res Str)
    (h : checkAasxData (engine text lim) z (partsOf p bytes parsed) = .ok r) (hpl : Spec.PlainOrigins z) :
    r.ok = true ↔ Spec.ProperPackage py!"/" z ∧ ∀ q, Spec.Linked py!"/" z q → Spec.Passes (engine text lim) (partsOf p bytes parsed) q :=
  C33_verdict_partial r h hpl fun q _ => C81_key_error text lim p bytes parsed q (hx q)

/-! ## examples -/

open EngineSamples

-- all kinds occur: AttributeError and TypeError by C50_violated
example : verdictOf (checkJsonData (engine (fun _ => []) none) (.num 1) py!"NoSuchType") = .error .valueError := by decide +kernel
example : verdictOf (checkXmlData (engine (fun _ => []) none) ⟨py!"x", none, []⟩ py!"SubmodelElement") = .error .indexError := by decide +kernel

end Verif.Props
