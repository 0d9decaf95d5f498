import Verif.Model.Urinorm
import Verif.Base.Utf8
/-! # Model of openid/fetchers.py

What the HTTP libraries do with one request is a parameter.  Times are whole seconds (`int(time.time())`). -/

namespace Fetchers
open Py

/-- openid/fetchers.py:177-178 `_allowedURL` -/
def allowedURL (url : Str) : Bool := startsWith url t!"http://" || startsWith url t!"https://"

/-- what a fetcher raises: `HTTPError` (openid/fetchers.py:256-261), what pycurl raises, other exceptions -/
inductive Err where
  | http | curl | py (e : PyErr)
  deriving DecidableEq, Repr

/-- openid/fetchers.py:124-142 `HTTPResponse` -/
structure Response where
  finalUrl : Str
  status : Nat
  headers : Dict Str Str
  body : Bytes
  deriving DecidableEq, Repr

/-! ## CurlHTTPFetcher -/

/-- openid/fetchers.py:271 `ALLOWED_TIME` -/
def ALLOWED_TIME : Int := 20
/-- openid/fetchers.py:40 `MAX_RESPONSE_KB` -/
def MAX_RESPONSE_KB : Nat := 1024

/-- bytes that `strip()` removes -/
def isSpaceByte (b : UInt8) : Bool := b = 32 || (9 ≤ b && b ≤ 13)
/-- `bytes.strip()` -/
def stripBytes (s : Bytes) : Bytes := ((s.dropWhile isSpaceByte).reverse.dropWhile isSpaceByte).reverse
/-- `bytes.lower()` -/
def lowerByte (b : UInt8) : UInt8 := if 65 ≤ b && b ≤ 90 then b + 32 else b
/-- `s.split(b, 1)`, if `b` is in `s` -/
def cutByte (b : UInt8) : Bytes → Option (Bytes × Bytes)
  | [] => none
  | x :: r => if x = b then some ([], r) else (cutByte b r).map fun p => (x :: p.1, p.2)

/-- `s.split(b)` -/
def splitByte (b : UInt8) : Bytes → List Bytes
  | [] => [[]]
  | x :: r =>
    if x = b then [] :: splitByte b r
    else match splitByte b r with
      | [] => [[x]]
      | l :: ls => (x :: l) :: ls

/-- the lines of a file, without their line feeds -/
def linesOf (s : Bytes) : List Bytes :=
  if (splitByte 10 s).getLast? = some [] then (splitByte 10 s).dropLast else splitByte 10 s

/-- openid/fetchers.py:282-285: the lines after the status line -/
def afterStatus (lines : List Bytes) : List Bytes :=
  if (((lines.headD []).map lowerByte).take 13) = Utf8.encode t!"http/1.1 100 " then lines.drop 3 else lines.drop 1

/-- openid/fetchers.py:295-306: one line -/
def headerLine (d : Dict Str Str) (line : Bytes) : Except Err (Dict Str Str) :=
  match cutByte 58 line with
  | none => .error .http
  | some (name, value) =>
    match Utf8.decode (stripBytes value) with
    | .error e => .error (.py e)
    | .ok v =>
      match Utf8.decode (name.map lowerByte) with
      | .error e => .error (.py e)
      | .ok n => .ok (d.set n v)

/-- openid/fetchers.py:278-308 `_parseHeaders` -/
def parseHeaders (data : Bytes) : Except Err (Dict Str Str) :=
  let lines := (afterStatus (linesOf data)).map stripBytes
  match lines.getLast? with
  | none => .error (.py .indexError)
  | some l => if l ≠ [] then .error .http else lines.dropLast.foldlM headerLine []

/-- openid/fetchers.py:332-360: one request: the URL that is set, the method, the headers, the time allowed -/
structure Request where
  url : Str
  post : Bool
  headers : List Str
  timeout : Int
  deriving DecidableEq, Repr

/-- what curl does with a request: it fails; or it gives the data of the headers, the body in pieces, and the code -/
inductive Reply where
  | failed
  | got (header : Bytes) (chunks : List Bytes) (code : Nat)

/-- openid/fetchers.py:318, 385 `int(time.time())`, the first, second and so on; openid/fetchers.py:362: what is answered to
    the last of some requests -/
structure Env where
  time : Nat → Int
  reply : List Request → Reply

/-- openid/fetchers.py:350-354 `write_data`, for one piece after the other; `none` if one is refused -/
def writeAll (data : Bytes) : List Bytes → Option Bytes
  | [] => some data
  | c :: cs => if data.length > 1024 * MAX_RESPONSE_KB then (if c = [] then writeAll data cs else none) else writeAll (data ++ c) cs

/-- openid/fetchers.py:227, 324-325: `headers.setdefault('User-Agent', …)` -/
def withAgent (userAgent : Str) (headers : Dict Str Str) : Dict Str Str :=
  if headers.has t!"User-Agent" then headers else headers.set t!"User-Agent" userAgent

/-- openid/fetchers.py:324-330: the list of headers -/
def headerList (userAgent : Str) (headers : Dict Str Str) : List Str :=
  (withAgent userAgent headers).map fun p => p.1 ++ t!": " ++ p.2

/-- openid/fetchers.py:366: codes that are followed -/
def redirectCodes : List Nat := [301, 302, 303, 307]

/-- openid/fetchers.py:344-387: so many rounds; `none` if it goes on.  `k` is the number of clock readings so far. -/
def loop (E : Env) (U : Url.Uni) (headers : List Str) (stop : Int) : Nat → Str → Int → Bool → List Request → Nat →
    List Request × Option (Except Err Response)
  | 0, _, _, _, past, _ => (past, none)
  | n + 1, url, off, post, past, k =>
    if off ≤ 0 then (past, some (.error .http))
    else if !allowedURL url then (past, some (.error .http))
    else match Urinorm.urinorm U url with
      | .error e => (past, some (.error (.py e)))
      | .ok u =>
        let past := past ++ [⟨u, post, headers, off⟩]
        match E.reply past with
        | .failed => (past, some (.error .curl))
        | .got header chunks code =>
          match writeAll [] chunks with
          | none => (past, some (.error .curl))
          | some data =>
            match parseHeaders header with
            | .error e => (past, some (.error e))
            | .ok hs =>
              if code ∈ redirectCodes then
                match hs.get? t!"location" with
                | none => (past, some (.error .http))
                | some l => loop E U headers stop n l (stop - E.time k) false past (k + 1)
              else (past, some (.ok ⟨url, code, hs, data⟩))

/-- openid/fetchers.py:315-389 `CurlHTTPFetcher.fetch`, the first `n` rounds: the requests made, and what it ends with -/
def curlFetch (E : Env) (U : Url.Uni) (userAgent : Str) (n : Nat) (url : Str) (body : Option Bytes) (headers : Dict Str Str) :
    List Request × Option (Except Err Response) :=
  loop E U (headerList userAgent headers) (E.time 0 + ALLOWED_TIME) n url ALLOWED_TIME body.isSome [] 1

/-! ## the other fetchers -/

/-- a request to a library: method, URL, body, headers; no headers (`None`) are empty ones -/
structure Call where
  method : Str
  url : Str
  body : Option Bytes
  headers : Dict Str Str
  deriving DecidableEq, Repr

/-- openid/fetchers.py:218-240 `Urllib2Fetcher.fetch`, with lines 242-253: the call to `urlopen`, which makes a POST request of one with a body,
    and what is made of its response; a response with an error status is a response.  `read` gives at most so many bytes. -/
def urllibFetch (open_ : Call → Except PyErr Response) (userAgent : Str) (url : Str) (body : Option Bytes)
    (headers : Dict Str Str) : Except PyErr Response :=
  if !allowedURL url then .error .valueError
  else
    match open_ ⟨if body.isSome then t!"POST" else t!"GET", url, body, withAgent userAgent headers⟩ with
    | .error e => .error e
    | .ok r => .ok { r with body := r.body.take (MAX_RESPONSE_KB * 1024) }

/-- openid/fetchers.py:426-429, 478-481: the method -/
def methodFor (body : Option Bytes) : Str :=
  match body with
  | some (_ :: _) => t!"POST"
  | _ => t!"GET"

/-- openid/fetchers.py:417-463 `HTTPLib2Fetcher.fetch`; `contentLocation`, `previous`: of the response -/
def httplib2Fetch (request : Call → Except PyErr (Response × Option Str × Bool)) (url : Str) (body : Option Bytes)
    (headers : Dict Str Str) : Except PyErr Response :=
  if !allowedURL url then .error .valueError
  else
    match request ⟨methodFor body, url, body, headers⟩ with
    | .error e => .error e
    | .ok (r, some l, _) => .ok { r with finalUrl := l }
    | .ok (r, none, previous) =>
      if previous || r.status = 200 then .error .assertionError else .ok { r with finalUrl := url }

/-- openid/fetchers.py:469-483 `RequestsFetcher.fetch` -/
def requestsFetch (request : Call → Except PyErr Response) (url : Str) (body : Option Bytes) (headers : Dict Str Str) :
    Except PyErr Response :=
  request ⟨methodFor body, url, body, headers⟩

/-! ## the default fetcher -/

/-- openid/fetchers.py: the classes of fetchers; others by number -/
inductive Fetcher where
  | requests | curl | httplib2 | urllib | other (n : Nat)
  /-- openid/fetchers.py:193-208 `ExceptionWrappingFetcher` -/
  | wrapped (f : Fetcher)
  deriving DecidableEq, Repr

/-- openid/fetchers.py:53-71 `createHTTPFetcher`: which libraries are there -/
def createHTTPFetcher (requests curl httplib2 : Bool) : Fetcher :=
  if requests then .requests else if curl then .curl else if httplib2 then .httplib2 else .urllib

/-- openid/fetchers.py:95-113 `setDefaultFetcher`: the new default -/
def setDefault (f : Option Fetcher) (wrap : Bool) : Option Fetcher :=
  match f with
  | none => none
  | some f => if wrap then some (.wrapped f) else some f

/-- openid/fetchers.py:80-92 `getDefaultFetcher`: the fetcher, and the new default -/
def getDefault (created : Fetcher) (d : Option Fetcher) : Fetcher × Option Fetcher :=
  match d with
  | some f => (f, some f)
  | none => (.wrapped created, some (.wrapped created))

/-- openid/fetchers.py:116-121 `usingCurl` -/
def usingCurl (f : Fetcher) : Bool :=
  match f with
  | .wrapped g => g = .curl
  | g => g = .curl

/-- openid/fetchers.py:199-208 `ExceptionWrappingFetcher.fetch`: what it makes of what the fetcher does -/
def wrap {α : Type} (x : Except Err α) : Except PyErr α :=
  match x with
  | .ok r => .ok r
  | .error _ => .error .fetchingError

end Fetchers
