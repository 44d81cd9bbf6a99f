import Verif.Schema
import Verif.DataTypes

/-!
# Model of formatted strings: `aas_test_engines/reflect.py` 55-84 and model.py 98-186, 517-524
-/

namespace Verif.Aas
open Verif Verif.Parse Verif.DataTypes

/-- reflect.py 74-80 the pattern of constraint AASd-130 -/
def xmlRe : Re := compile py!"[\\x09\\x0a\\x0d\\x20-\\ud7ff\\ue000-\\ufffd\\U00010000-\\U0010ffff]*"

/-- `re.fullmatch(pattern, s) is not None`; the anchors of `^...$` do not matter for `fullmatch` -/
def patternMatches (p : Str) (s : Str) : Bool :=
  match Re.unanchor p with
  | some body => Re.fullmatch (compile body) s
  | none => Re.fullmatch (compile p) s

/-- reflect.py 61-84 `StringFormattedValue.__init__` -/
def constructBase (c : SfvCls) (s : Str) : Except PyExc Unit :=
  if (minLengthOf c).any (fun m => decide (s.length < m)) then .error .valueError
  else if (maxLengthOf c).any (fun m => decide (m < s.length)) then .error .valueError
  else if !Re.fullmatch xmlRe s then .error .valueError
  else
    match patternOf c with
    | none => .ok ()
    | some p => if patternMatches p s then .ok () else .error .valueError

/-- `if not f(raw_value): raise ValueError` -/
def orValueError : Except PyExc Bool → Except PyExc Unit
  | .error e => .error e
  | .ok true => .ok ()
  | .ok false => .error .valueError

/-- model.py 133-136, 161-164, 170-173: the constructors that check more -/
def construct (lim : Option Nat) (c : SfvCls) (s : Str) : Except PyExc Unit :=
  match constructBase c s with
  | .error e => .error e
  | .ok () =>
    match c with
    | .pathString => orValueError (.ok (isAnyUri s))
    | .dateTime => orValueError (isXsDateTime lim s)
    | .dateTimeUtc => orValueError (isXsDateTimeUtc lim s)
    | _ => .ok ()

end Verif.Aas
