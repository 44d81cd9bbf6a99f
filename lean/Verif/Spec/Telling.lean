import Verif.Spec.Places
import Verif.Spec.Values
import Verif.Telling

/-!
# What a line about a mistake says

`Says`: the text of a line, for the mistake of a JSON value (`Fault` in Spec/Faults.lean) that should be of a type. The texts are written out here again, with
the values and names they show. `XSays` is the same for XML elements, `FormatText` says which texts tell what is wrong with a formatted string.
-/

namespace Verif.Spec.Parse
open Verif Verif.Parse

/-- how a value is shown: strings as they are, `null` and truth values as in Python, and the others by the interpreter -/
def shows (W : Words) (j : Json) : Str :=
  match j with
  | .str s => s
  | .null => py!"None"
  | .bool b => if b then py!"True" else py!"False"
  | .num _ | .float _ | .arr _ | .obj _ => W.str j

/-- a digit of a hexadecimal number, and its value -/
def HexDigit (d n : Nat) : Prop := (48 ≤ d ∧ d ≤ 57 ∧ n = d - 48) ∨ (pc! 'a' ≤ d ∧ d ≤ pc! 'f' ∧ n = d - pc! 'a' + 10)

/-- digits of a hexadecimal number, the last one first, and its value -/
inductive HexNumber : Str → Nat → Prop
  | nil : HexNumber [] 0
  | digit {d n ds m} : HexDigit d n → HexNumber ds m → HexNumber (d :: ds) (16 * m + n)

/-- how many digits stand behind these letters -/
def HexLetter (l n : Nat) : Prop := (l = pc! 'x' ∧ n = 2) ∨ (l = pc! 'u' ∧ n = 4) ∨ (l = pc! 'U' ∧ n = 8)

/-- reading a character between quotes `q` -/
inductive ReadsChar (q : Nat) : Str → Nat → Prop
  | plain {c} : c ≠ q → c ≠ pc! '\\' → ReadsChar q [c] c
  | quote : ReadsChar q [pc! '\\', q] q
  | backslash : ReadsChar q py!"\\\\" (pc! '\\')
  | tab : ReadsChar q py!"\\t" 9
  | lineFeed : ReadsChar q py!"\\n" 10
  | return_ : ReadsChar q py!"\\r" 13
  | hex {l n ds c} : HexLetter l n → ds.length = n → HexNumber ds.reverse c → ReadsChar q (pc! '\\' :: l :: ds) c

/-- reading the characters between quotes `q` -/
inductive Reads (q : Nat) : Str → Str → Prop
  | nil : Reads q [] []
  | cons {t c r s} : ReadsChar q t c → Reads q r s → Reads q (t ++ r) (c :: s)

/-- reading a string in single or double quotes -/
def Quoted (t s : Str) : Prop := ∃ q r, (q = pc! '\'' ∨ q = pc! '"') ∧ t = q :: r ++ [q] ∧ Reads q r s

section
variable {C E S F : Type}

/-- a text for a mistake of a JSON value; `fmt` are the texts for formatted strings, `enumName` the names of enumerations -/
inductive Says (W : Words) (sc : Schema C E S F) (fmt : S → Str → Str → Prop) (enumName : E → Str) : Ty C E S → Json → Kind → Str → Prop
  | notString {ty j} : Textual ty → Says W sc fmt enumName ty j .notAString (py!"Cannot convert " ++ shows W j ++ py!" to string")
  | notBool {j} : Says W sc fmt enumName .bool j .notABool (py!"Cannot convert " ++ shows W j ++ py!" to bool")
  | notList {it ae j} : Says W sc fmt enumName (.list it ae) j .notAList (py!"Cannot convert " ++ shows W j ++ py!" to list")
  | notObject {c j} : sc.abstract c = false → Says W sc fmt enumName (.cls c) j .notAnObject (py!"Cannot convert " ++ shows W j ++ py!" to object")
  | notAbstract {c j} : sc.abstract c = true → Says W sc fmt enumName (.cls c) j .notAnObject (py!"Expected an object, got " ++ shows W j)
  | emptyList {it ae} : Says W sc fmt enumName (.list it ae) (.arr []) .emptyList py!"Empty array not allowed"
  | notInEnum {e s} : Says W sc fmt enumName (.enum e) (.str s) .notInEnum (W.repr s ++ py!" is not a valid " ++ enumName e)
  | format {c s t} : fmt c s t → Says W sc fmt enumName (.sfv c) (.str s) .format t
  | noModelType {c kvs} : Says W sc fmt enumName (.cls c) (.obj kvs) .noModelType py!"Missing 'modelType'"
  | invalidModelType {c kvs j} : (py!"modelType", j) ∈ kvs →
      Says W sc fmt enumName (.cls c) (.obj kvs) .invalidModelType (py!"Invalid model type " ++ shows W j)
  | missingModelType {c kvs} : Says W sc fmt enumName (.cls c) (.obj kvs) .missingModelType py!"Model typ missing"
  | wrongModelType {c kvs} : Says W sc fmt enumName (.cls c) (.obj kvs) .wrongModelType py!"Wrong model type"
  | missing {c kvs key} : Says W sc fmt enumName (.cls c) (.obj kvs) (.missingAttribute key) (py!"Missing attribute " ++ key)
  | unknown {c kvs key} : Says W sc fmt enumName (.cls c) (.obj kvs) (.unknownAttribute key) (py!"Unknown additional attribute " ++ key)

/-- a text for a mistake of an XML element -/
inductive XSays (W : Words) (fmt : S → Str → Str → Prop) (enumName : E → Str) : Ty C E S → Xml → Kind → Str → Prop
  | children {ty x} : Textual ty ∨ ty = .bool → XSays W fmt enumName ty x .childElements py!"No child elements allowed"
  | notInEnum {e x} : XSays W fmt enumName (.enum e) x .notInEnum (W.repr (x.text.getD []) ++ py!" is not a valid " ++ enumName e)
  | format {c x t} : fmt c (x.text.getD []) t → XSays W fmt enumName (.sfv c) x .format t
  | emptyList {it ae x} : XSays W fmt enumName (.list it ae) x .emptyList py!"Empty list not allowed"
  | ns {c x} : ¬ xmlns <+: x.tag → XSays W fmt enumName (.cls c) x .badNamespace (py!"invalid namespace, got '" ++ x.tag ++ py!"'")
  | childNs {c x d y} : xmlns <+: x.tag → Content x d → y ∈ d.children → ¬ xmlns <+: y.tag →
      XSays W fmt enumName (.cls c) x .badNamespace (py!"invalid namespace, got " ++ y.tag)
  | text {c x} : XSays W fmt enumName (.cls c) x .inlineText py!"No inline text allowed"
  | content {c x} : py!"dataSpecificationContent" <:+ x.tag → (∀ d, x.children ≠ [d]) →
      XSays W fmt enumName (.cls c) x .notOneChild py!"DataSpecificationContent must have exactly one child"
  /-- although the element that must have exactly one child is the value of an operation variable -/
  | value {c x d y} : Content x d → y ∈ d.children → IsOpValue d y → (∀ z, y.children ≠ [z]) →
      XSays W fmt enumName (.cls c) x .notOneChild py!"DataSpecificationContent must have exactly one child"
  | invalidModelType {c x d a s} : Content x d → d.tag.drop xmlns.length = a :: s →
      XSays W fmt enumName (.cls c) x .invalidModelType (py!"Invalid model type " ++ W.upper a ++ s)
  | wrongModelType {c x} : XSays W fmt enumName (.cls c) x .wrongModelType py!"Wrong model type"
  | missing {c x key} : XSays W fmt enumName (.cls c) x (.missingAttribute key) (py!"Missing attribute " ++ key)
  | unknown {c x key} : XSays W fmt enumName (.cls c) x (.unknownAttribute key) (py!"Unknown additional attribute " ++ key)

end

/-! ## reading the kind of mistake from the text -/

/-- how a reader tells the kind of mistake from the text: mostly by its first letters -/
def kindOf (t : Str) : Kind :=
  if py!"Ca" <+: t then
    -- Cannot convert ... to string, bool, list, object
    if py!"ing" <:+ t then .notAString
    else if py!"ool" <:+ t then .notABool
    else if py!"ist" <:+ t then .notAList
    else .notAnObject
  else if py!"Exp" <+: t then .notAnObject
  else if py!"Emp" <+: t then .emptyList
  else if py!"Missing '" <+: t then .noModelType
  else if py!"Missing a" <+: t then .missingAttribute (t.drop 18)
  else if py!"Mo" <+: t then .missingModelType
  else if py!"Inv" <+: t then .invalidModelType
  else if py!"W" <+: t then .wrongModelType
  else if py!"U" <+: t then .unknownAttribute (t.drop 29)
  else if py!"No c" <+: t then .childElements
  else if py!"No i" <+: t then .inlineText
  else if py!"inv" <+: t then .badNamespace
  else if py!"D" <+: t then .notOneChild
  else if py!"'" <+: t ∨ py!"\"" <+: t then .notInEnum
  else .format

end Verif.Spec.Parse

namespace Verif.Spec
open Verif Verif.Parse Verif.Aas Verif.DataTypes

/-- a point in time whose year has `k` digits; a line feed may follow -/
def YearDigits (Z : Str → Prop) (k : Nat) : Str → Prop :=
  OrLineFeed fun s => ∃ d t tz, s = d ++ pc! 'T' :: t ++ tz ∧ DateForm d k ∧ TimeOfDay t ∧ Z tz

/-- the words of the interpreter for too many digits -/
def limitWords (n k : Nat) : Str :=
  py!"Exceeds the limit (" ++ Py.natStr n ++ py!" digits) for integer string conversion: value has " ++ Py.natStr k ++
    py!" digits; use sys.set_int_max_str_digits() to increase the limit"

/-- `FormatText lim c s t`: the text `t` says what is wrong with the string `s`, and this is true -/
inductive FormatText (lim : Option Nat) : SfvCls → Str → Str → Prop
  | short {c s} : s.length < (lengths c).1 → FormatText lim c s (py!"String is shorter than " ++ Py.natStr (lengths c).1 ++ py!" characters")
  | long {c s m} : (lengths c).2 = some m → m < s.length → FormatText lim c s (py!"String is longer than " ++ Py.natStr m ++ py!" characters")
  | chars {c s x} : x ∈ s → ¬ XmlChar x → FormatText lim c s py!"Constraint AASd-130 violated: String is not XML serializable"
  | pattern {c s p} : patternOf c = some p → ¬ Format c s → FormatText lim c s (py!"String '" ++ s ++ py!"' does not match pattern " ++ p)
  | path {s} : ¬ OrLineFeed (IriReference CodeGroups) s → FormatText lim .pathString s py!"Not a valid path"
  | dateTime {s} : ¬ DateTimeText s → FormatText lim .dateTime s py!"Not an xs:dateTime"
  | dateTimeUtc {s} : ¬ DateTimeUtcText s → FormatText lim .dateTimeUtc s py!"Not an xs:dateTimeUtc"
  | longYear {s n k} : lim = some n → n < k → YearDigits OptTimeZone k s → FormatText lim .dateTime s (limitWords n k)
  | longYearUtc {s n k} : lim = some n → n < k → YearDigits UtcZone k s → FormatText lim .dateTimeUtc s (limitWords n k)

end Verif.Spec
