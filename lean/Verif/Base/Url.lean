import Verif.Base.Percent
/-! # URL splitting as in CPython 3.11's `urllib.parse`

Not code of /repo; stdlib behaviour that /repo calls: `urlsplit`, `urlparse`, `urlunsplit`,
`urldefrag`, the `hostname`/`port`/`username`/`password` attributes, and `str.encode('idna')`.
What depends on Unicode tables or on the `ipaddress` module is a parameter (`Uni`); on ASCII text
the functions are concrete. -/

namespace Url
open Py

/-- Unicode- and IP-address-dependent parts of the standard library, arbitrary. -/
structure Uni where
  /-- `s.lower()` for a text that is not pure ASCII -/
  lower : Str → Str
  /-- `_checknetloc` accepts this non-ASCII netloc (NFKC check) -/
  netlocOk : Str → Bool
  /-- `_check_bracketed_host` accepts this host (IPv6 or IPvFuture literal) -/
  bracketOk : Str → Bool
  /-- `s.encode('idna').decode('utf-8')` for a non-ASCII host; `none` is UnicodeError -/
  idna : Str → Option Str

/-- `s.lower()` -/
def lower (U : Uni) (s : Str) : Str := if isAscii s then s.map asciiLowerChar else U.lower s

/-- `urlsplit` result -/
structure Split where
  scheme : Str
  netloc : Str
  path : Str
  query : Str
  fragment : Str
  deriving DecidableEq, Repr

def isAlpha (c : Char) : Bool :=
  (65 ≤ c.toNat && c.toNat ≤ 90) || (97 ≤ c.toNat && c.toNat ≤ 122)

def isDigitChar (c : Char) : Bool := 48 ≤ c.toNat && c.toNat ≤ 57

/-- `scheme_chars` -/
def isSchemeChar (c : Char) : Bool :=
  isAlpha c || isDigitChar c || c == '+' || c == '-' || c == '.'

/-- `_splitnetloc`: up to the first of `/`, `?`, `#` -/
def splitNetloc (s : Str) : Str × Str :=
  (s.takeWhile fun c => !(c == '/' || c == '?' || c == '#'),
   s.dropWhile fun c => !(c == '/' || c == '?' || c == '#'))

/-- the scheme part of `urlsplit`: `(scheme, rest)` -/
def splitScheme (url : Str) : Str × Str :=
  match cut ':' url with
  | some (s, rest) =>
    match s with
    | [] => ([], url)
    | c :: _ =>
      if isAlpha c && s.all isSchemeChar then (s.map asciiLowerChar, rest) else ([], url)
  | none => ([], url)

/-- leading C0 controls and space removed, then tab, CR and LF removed everywhere -/
def cleanUrl (url : Str) : Str :=
  (url.dropWhile fun c => c.toNat ≤ 0x20).filter fun c => !(c == '\t' || c == '\r' || c == '\n')

/-- the bracket checks of `urlsplit` on a netloc -/
def bracketsOk (U : Uni) (netloc : Str) : Bool :=
  if ('[' ∈ netloc ∧ ']' ∉ netloc) ∨ (']' ∈ netloc ∧ '[' ∉ netloc) then false
  else if '[' ∈ netloc ∧ ']' ∈ netloc then
    match cut '[' netloc with
    | some (_, r) => match cut ']' r with
      | some (h, _) => U.bracketOk h
      | none => U.bracketOk r
    | none => true
  else true

/-- `s.split(c, 1)` with an empty second part when `c` does not occur -/
def cutOr (c : Char) (s : Str) : Str × Str :=
  match cut c s with
  | some p => p
  | none => (s, [])

/-- `urlsplit(url)` -/
def urlsplit (U : Uni) (url : Str) : Except PyErr Split :=
  let url := cleanUrl url
  let (scheme, url) := splitScheme url
  let hasNetloc := startsWith url t!"//"
  let (netloc, url) := if hasNetloc then splitNetloc (url.drop 2) else ([], url)
  if hasNetloc && !bracketsOk U netloc then .error .valueError
  else
    let (url, fragment) := cutOr '#' url
    let (url, query) := cutOr '?' url
    if !isAscii netloc && !U.netlocOk netloc then .error .valueError
    else .ok ⟨scheme, netloc, url, query, fragment⟩

/-- `netloc.rpartition('@')[2]` -/
def hostinfoText (netloc : Str) : Str :=
  match rcut '@' netloc with
  | some (_, h) => h
  | none => netloc

/-- `_hostinfo`: `(hostname, port)`, port empty when absent -/
def hostinfo (netloc : Str) : Str × Str :=
  let h := hostinfoText netloc
  match cut '[' h with
  | some (_, br) =>
    let (host, p) := cutOr ']' br
    (host, (cutOr ':' p).2)
  | none => cutOr ':' h

/-- `.hostname` -/
def hostname (U : Uni) (netloc : Str) : Option Str :=
  let h := (hostinfo netloc).1
  if h = [] then none
  else match cut '%' h with
    | some (a, zone) => some (lower U a ++ '%' :: zone)
    | none => some (lower U h)

/-- value of a text of decimal digits -/
def decVal (s : Str) : Nat := s.foldl (fun a c => a * 10 + (c.toNat - 48)) 0

/-- `.port`; the error is ValueError -/
def port (netloc : Str) : Except PyErr (Option Nat) :=
  let p := (hostinfo netloc).2
  if p = [] then .ok none
  else if p.all isDigitChar then
    if decVal p ≤ 65535 then .ok (some (decVal p)) else .error .valueError
  else .error .valueError

/-- `.username`, `.password` -/
def userinfo (netloc : Str) : Option Str × Option Str :=
  match rcut '@' netloc with
  | some (u, _) => match cut ':' u with
    | some (a, b) => (some a, some b)
    | none => (some u, none)
  | none => (none, none)

def usesNetloc : List Str :=
  [t!"ftp", t!"http", t!"gopher", t!"nntp", t!"telnet", t!"imap", t!"wais", t!"file", t!"mms",
   t!"https", t!"shttp", t!"snews", t!"prospero", t!"rtsp", t!"rtsps", t!"rtspu", t!"rsync", t!"svn",
   t!"svn+ssh", t!"sftp", t!"nfs", t!"git", t!"git+ssh", t!"ws", t!"wss"]

def usesParams : List Str :=
  [t!"", t!"ftp", t!"hdl", t!"prospero", t!"http", t!"imap", t!"https", t!"shttp", t!"rtsp",
   t!"rtsps", t!"rtspu", t!"sip", t!"sips", t!"mms", t!"sftp", t!"tel"]

/-- `urlunsplit` -/
def urlunsplit (s : Split) : Str :=
  let url := s.path
  let url :=
    if s.netloc ≠ [] ∨ (s.scheme ≠ [] ∧ s.scheme ∈ usesNetloc) ∨ startsWith url t!"//" = true then
      let url := if url ≠ [] ∧ url.head? ≠ some '/' then '/' :: url else url
      t!"//" ++ s.netloc ++ url
    else url
  let url := if s.scheme ≠ [] then s.scheme ++ ':' :: url else url
  let url := if s.query ≠ [] then url ++ '?' :: s.query else url
  if s.fragment ≠ [] then url ++ '#' :: s.fragment else url

/-- `_splitparams`: split at the first `;` of the last path segment -/
def splitParams (path : Str) : Str × Str :=
  match rcut '/' path with
  | some (a, last) => match cut ';' last with
    | some (b, params) => (a ++ '/' :: b, params)
    | none => (path, [])
  | none => cutOr ';' path

/-- `urlparse` result: the path without params, the params -/
structure Parsed where
  scheme : Str
  netloc : Str
  path : Str
  params : Str
  query : Str
  fragment : Str
  deriving DecidableEq, Repr

/-- `urlparse(url)` -/
def urlparse (U : Uni) (url : Str) : Except PyErr Parsed := do
  let s ← urlsplit U url
  let (path, params) :=
    if s.scheme ∈ usesParams ∧ ';' ∈ s.path then splitParams s.path else (s.path, [])
  return ⟨s.scheme, s.netloc, path, params, s.query, s.fragment⟩

/-- `urlunparse` -/
def urlunparse (p : Parsed) : Str :=
  let path := if p.params ≠ [] then p.path ++ ';' :: p.params else p.path
  urlunsplit ⟨p.scheme, p.netloc, path, p.query, p.fragment⟩

/-- `urldefrag(url)`: `(url without fragment, fragment)` -/
def urldefrag (U : Uni) (url : Str) : Except PyErr (Str × Str) :=
  if '#' ∈ url then do
    let p ← urlparse U url
    return (urlunparse { p with fragment := [] }, p.fragment)
  else .ok (url, [])

/-- `s.encode('idna').decode('utf-8')`: for ASCII text only the label lengths are checked -/
def idnaEncode (U : Uni) (s : Str) : Except PyErr Str :=
  if isAscii s then
    if s = [] then .ok []
    else
      let labels := splitOn '.' s
      if labels.dropLast.all (fun l => 0 < l.length && l.length < 64) &&
          (match labels.getLast? with | some l => decide (l.length < 64) | none => true)
      then .ok s else .error .unicodeError
  else match U.idna s with
    | some t => .ok t
    | none => .error .unicodeError

end Url
