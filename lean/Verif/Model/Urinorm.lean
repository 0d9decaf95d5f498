import Verif.Base.Url
/-! # Model of openid/urinorm.py

The Python 2 branches (lines 126-128, 140-142) and bytes input are not modelled. -/

namespace Urinorm
open Py

/-- openid/urinorm.py:35-42: position of the segment end, split into first segment (with its
    leading slash, if any) and rest -/
def firstSegment (path : Str) : Str × Str :=
  match path with
  | '/' :: r => ('/' :: r.takeWhile (· != '/'), r.dropWhile (· != '/'))
  | _ => (path.takeWhile (· != '/'), path.dropWhile (· != '/'))

/-- openid/urinorm.py:15-42, the loop of `remove_dot_segments`.  `result_segments` is kept in
    reverse (`pop` drops the head).  The fuel bounds the number of iterations; each one shortens
    the path, so `path.length` iterations always suffice (theorem `rdsLoop_fuel`). -/
def rdsLoop : Nat → List Str → Str → List Str
  | 0, segs, _ => segs
  | fuel + 1, segs, path =>
    if path = [] then segs
    else if startsWith path t!"../" then rdsLoop fuel segs (path.drop 3)
    else if startsWith path t!"./" then rdsLoop fuel segs (path.drop 2)
    else if startsWith path t!"/./" then rdsLoop fuel segs (path.drop 2)
    else if path = t!"/." then rdsLoop fuel segs t!"/"
    else if startsWith path t!"/../" then rdsLoop fuel segs.tail (path.drop 3)
    else if path = t!"/.." then rdsLoop fuel segs.tail t!"/"
    else if path = t!".." ∨ path = t!"." then rdsLoop fuel segs []
    else rdsLoop fuel ((firstSegment path).1 :: segs) (firstSegment path).2

/-- openid/urinorm.py:12-44 `remove_dot_segments` -/
def removeDotSegments (path : Str) : Str := (rdsLoop path.length [] path).reverse.flatten

/-- openid/urinorm.py:48 `SUB_DELIMS` -/
def subDelims : Str := t!"!$&'()*+,;="

/-- openid/urinorm.py:47-52: characters allowed by `_check_disallowed_characters` -/
def isAllowed (c : Char) : Bool :=
  Url.isAlpha c || Url.isDigitChar c || t!"-._~".contains c || t!":/?#[]@".contains c
    || subDelims.contains c || c == '%'

/-- openid/urinorm.py:55-59 `_check_disallowed_characters` -/
def checkDisallowed (part : Str) : Except PyErr Unit :=
  if part.all isAllowed then .ok () else .error .valueError

/-- openid/urinorm.py:93-97: `hostname.encode('idna').decode('utf-8')`, any ValueError re-raised as a
    plain ValueError -/
def idnaOrError (U : Url.Uni) (h : Str) : Except PyErr Str :=
  match Url.idnaEncode U h with
  | .ok h => .ok h
  | .error _ => .error .valueError

/-- openid/urinorm.py:85-98: the normalised hostname -/
def normHostname (U : Url.Uni) (netloc : Str) : Except PyErr Str := do
  let h := match Url.hostname U netloc with
    | none => []
    | some h => Url.lower U h
  let h := Percent.unquote h
  let h ← idnaOrError U h
  checkDisallowed h
  return h

/-- openid/urinorm.py:100-107: the port to write, `none` when absent or the scheme's default -/
def normPort (scheme netloc : Str) : Except PyErr (Option Nat) := do
  let p ← Url.port netloc
  match p with
  | none => return none
  | some n =>
    if (scheme = t!"http" ∧ n = 80) ∨ (scheme = t!"https" ∧ n = 443) then return none
    else return some n

/-- openid/urinorm.py:110-111: the port part of the netloc -/
def portText : Option Nat → Str
  | none => []
  | some n => if n = 0 then [] else ':' :: natToStr n

/-- openid/urinorm.py:109-116: host, port and userinfo put together.  `if port:` (line 110) also
    drops port 0. -/
def normNetloc (U : Url.Uni) (scheme netloc : Str) : Except PyErr Str := do
  let host ← normHostname U netloc
  let port ← normPort scheme netloc
  let nl := host ++ portText port
  match Url.userinfo netloc with
  | (some u, some p) => do
    checkDisallowed (u ++ ':' :: p)
    return u ++ ':' :: p ++ '@' :: nl
  | (some u, none) => do
    checkDisallowed u
    return u ++ '@' :: nl
  | (none, _) => return nl

/-- openid/urinorm.py:119-133: the normalised path -/
def normPath (path : Str) : Except PyErr Str := do
  let p := Percent.quote ('/' :: subDelims) (Percent.unquote path)
  let p := removeDotSegments p
  let p := if p = [] then ['/'] else p
  checkDisallowed p
  return p

/-- openid/urinorm.py:62-150 `urinorm` -/
def urinorm (U : Url.Uni) (uri : Str) : Except PyErr Str := do
  let s ← Url.urlsplit U uri
  let scheme := Url.lower U s.scheme
  if scheme ≠ t!"http" ∧ scheme ≠ t!"https" then throw .valueError
  if s.netloc = [] then throw .valueError
  let netloc ← normNetloc U scheme s.netloc
  let path ← normPath s.path
  let query := Percent.urlencode (Percent.parseQsl false s.query)
  checkDisallowed query
  let fragment := Percent.unquote s.fragment
  checkDisallowed fragment
  return Url.urlunsplit ⟨scheme, netloc, path, query, fragment⟩

end Urinorm
