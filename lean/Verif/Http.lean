import Verif.Py
import Verif.Json

/-!
# `aas_test_engines/http.py` and `data_types.base64_urlsafe`

`json.dumps` of request bodies and the transport (`requests.request`) are not modelled: the former is a parameter, the
latter is represented by the arguments it is called with. Values of query parameters are represented by their `str`
(`urlencode` calls `str` on values that are neither `str` nor `bytes`); `None` is `none`.
-/

namespace Verif.Http
open Verif

/-- `c.encode()`: the UTF-8 bytes of a code point; surrogates have none -/
def utf8Char (c : Nat) : Except PyExc (List Nat) :=
  if c < 0x80 then .ok [c]
  else if c < 0x800 then .ok [0xc0 + c / 64, 0x80 + c % 64]
  else if 0xd800 ≤ c && c ≤ 0xdfff then .error .unicodeEncodeError
  else if c < 0x10000 then .ok [0xe0 + c / 4096, 0x80 + c / 64 % 64, 0x80 + c % 64]
  else .ok [0xf0 + c / 262144, 0x80 + c / 4096 % 64, 0x80 + c / 64 % 64, 0x80 + c % 64]

/-- `s.encode()` -/
def utf8 : Str → Except PyExc (List Nat)
  | [] => .ok []
  | c :: s => do
    let b ← utf8Char c
    let bs ← utf8 s
    return b ++ bs

/-- the character of `base64.urlsafe_b64encode` for six bits -/
def b64Char (n : Nat) : Nat :=
  if n < 26 then pc! 'A' + n
  else if n < 52 then pc! 'a' + (n - 26)
  else if n < 62 then pc! '0' + (n - 52)
  else if n = 62 then pc! '-'
  else pc! '_'

/-- `base64.urlsafe_b64encode(bs).decode()` -/
def b64 : List Nat → Str
  | a :: b :: c :: rest =>
    b64Char (a / 4) :: b64Char (a % 4 * 16 + b / 16) :: b64Char (b % 16 * 4 + c / 64) :: b64Char (c % 64) :: b64 rest
  | [a, b] => [b64Char (a / 4), b64Char (a % 4 * 16 + b / 16), b64Char (b % 16 * 4), pc! '=']
  | [a] => [b64Char (a / 4), b64Char (a % 4 * 16), pc! '=', pc! '=']
  | [] => []

/-- `s.strip(c)` -/
def stripChar (c : Nat) (s : Str) : Str := ((s.dropWhile (· == c)).reverse.dropWhile (· == c)).reverse

/-- data_types.py 412-413 -/
def base64Urlsafe (s : Str) : Except PyExc Str := do
  let bs ← utf8 s
  return stripChar (pc! '=') (b64 bs)

/-- upper case hex digit -/
def hexDigit (n : Nat) : Nat := if n < 10 then pc! '0' + n else pc! 'A' + (n - 10)

/-- `urllib.parse.quote`: characters that are not escaped -/
def alwaysSafe (b : Nat) : Bool :=
  (pc! 'A' ≤ b && b ≤ pc! 'Z') || (pc! 'a' ≤ b && b ≤ pc! 'z') || (pc! '0' ≤ b && b ≤ pc! '9') ||
  b == pc! '_' || b == pc! '.' || b == pc! '-' || b == pc! '~'

/-- `urllib.parse.quote_plus` on a byte -/
def quoteByte (b : Nat) : Str :=
  if alwaysSafe b then [b]
  else if b = 32 then [pc! '+']
  else [pc! '%', hexDigit (b / 16), hexDigit (b % 16)]

/-- `urllib.parse.quote_plus` -/
def quotePlus (s : Str) : Except PyExc Str := do
  let bs ← utf8 s
  return (bs.map quoteByte).flatten

/-- the pairs of `urllib.parse.urlencode` -/
def quotePairs : List (Str × Str) → Except PyExc (List Str)
  | [] => .ok []
  | (k, v) :: rest => do
    let k ← quotePlus k
    let v ← quotePlus v
    let r ← quotePairs rest
    return (k ++ py!"=" ++ v) :: r

/-- `urllib.parse.urlencode` -/
def urlencode (ps : List (Str × Str)) : Except PyExc Str := do
  let l ← quotePairs ps
  return Py.join py!"&" l

/-- http.py 9-16 `Request` -/
structure Request where
  path : Str
  method : Str := py!"get"
  body : Option Json := none
  query : List (Str × Option Str) := []
  headers : List (Str × Str) := []

/-- http.py 20: parameters whose value is not `None` -/
def present : List (Str × Option Str) → List (Str × Str)
  | [] => []
  | (k, some v) :: rest => (k, v) :: present rest
  | (_, none) :: rest => present rest

/-- http.py 18-23 `Request.make_url` -/
def Request.makeUrl (r : Request) : Except PyExc Str :=
  match present r.query with
  | [] => .ok r.path
  | ps => do
    let q ← urlencode ps
    return r.path ++ (py!"?" ++ q)

/-- http.py 38-46 `HttpClient` -/
structure Client where
  host : Str
  verify : Bool
  removePathPrefix : Str
  prefixes : List Str
  additionalHeaders : List (Str × Str)

/-- http.py 38-46 `HttpClient.__init__` -/
def Client.init (host : Str) (verify : Bool) (removePathPrefix : Str) (additionalHeaders : List (Str × Str)) : Client :=
  { host, verify, removePathPrefix, prefixes := [], additionalHeaders }

/-- http.py 48-51 `HttpClient.descend` -/
def Client.descend (c : Client) (pre : Str) : Client :=
  let result := Client.init c.host c.verify c.removePathPrefix c.additionalHeaders
  { result with prefixes := result.prefixes ++ [pre] }

/-- the arguments of `requests.request` -/
structure Sent where
  url : Str
  method : Str
  data : Option Str
  headers : List (Str × Str)
  verify : Bool

/-- http.py 60-63: the host without one final slash -/
def hostOf (host : Str) : Str := if Py.endsWith host py!"/" then host.dropLast else host

/-- http.py 66-69: removal of the prefix -/
def removePrefix (pre url : Str) : Str :=
  if Py.startsWith url pre && (url.length == pre.length || url[pre.length]? == some (pc! '/')) then url.drop pre.length
  else url

/-- http.py 53-77 `HttpClient.send`, up to the call of `requests.request` -/
def Client.send (dumps : Json → Str) (c : Client) (r : Request) : Except PyExc Sent := do
  let u ← r.makeUrl
  let url := removePrefix c.removePathPrefix (c.prefixes.flatten ++ u)
  return { url := hostOf c.host ++ url, method := r.method, data := r.body.map dumps, headers := r.headers, verify := c.verify }

end Verif.Http
