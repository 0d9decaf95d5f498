import Verif.Model.Fetchers
/-! # Specification of fetching with redirects -/

namespace Spec
open Py Fetchers

/-- A URL that starts with http:// or https://. -/
def IsHttp (url : Str) : Prop := (∃ r, url = t!"http://" ++ r) ∨ ∃ r, url = t!"https://" ++ r

/-- The headers that are sent: the given ones, and a User-Agent header after them if that is not one of them. -/
def sentHeaders (userAgent : Str) (headers : Dict Str Str) : List (Str × Str) :=
  headers ++ if t!"User-Agent" ∈ headers.map Prod.fst then [] else [(t!"User-Agent", userAgent)]

/-- The time that is left before request number `i`: twenty seconds before the first one. -/
def timeLeft (E : Env) (i : Nat) : Int := if i = 0 then 20 else E.time 0 + 20 - E.time i

/-- The pieces of a body that is not too long: before each of them there is no more than a mebibyte. -/
def Fits (chunks : List Bytes) : Prop :=
  ∀ pre c post, chunks = pre ++ c :: post → c ≠ [] → pre.flatten.length ≤ 1024 * 1024

/-- The answer to the last of some requests: the body, from its pieces; the headers, and the code. -/
def Answered (E : Env) (reqs : List Request) (body : Bytes) (headers : Dict Str Str) (code : Nat) : Prop :=
  ∃ header chunks, E.reply reqs = .got header chunks code ∧ Fits chunks ∧ body = chunks.flatten ∧
    parseHeaders header = .ok headers

/-- Codes of redirects that are followed. -/
def IsRedirect (code : Nat) : Prop := code = 301 ∨ code = 302 ∨ code = 303 ∨ code = 307

/-- The URLs that were followed and the requests made for them: the first URL is the given one, each other one is the
    location that the answer before it redirects to; each request is for a URL that starts with http:// or https://, and
    in its normal form; only the first one sends a body. -/
structure Followed (E : Env) (U : Url.Uni) (url : Str) (post : Bool) (headers : List Str) (urls : List Str)
    (reqs : List Request) : Prop where
  first : urls[0]? = some url
  next : ∀ i u, urls[i + 1]? = some u → ∃ body hs code, Answered E (reqs.take (i + 1)) body hs code ∧ IsRedirect code ∧
    hs.get? t!"location" = some u
  asked : ∀ i (r : Request), reqs[i]? = some r → ∃ u, urls[i]? = some u ∧ IsHttp u ∧ Urinorm.urinorm U u = .ok r.url ∧
    r.post = (post && i == 0) ∧ r.headers = headers ∧ r.timeout = timeLeft E i ∧ 0 < r.timeout

/-- How fetching ends, after some URLs and requests. -/
inductive Ends (E : Env) (U : Url.Uni) (urls : List Str) (reqs : List Request) : Except Err Response → Prop where
  /-- no time is left -/
  | late (hl : urls.length = reqs.length + 1) (ht : timeLeft E reqs.length ≤ 0) : Ends E U urls reqs (.error .http)
  /-- the next URL is not one of the Web -/
  | refused (u : Str) (hl : urls.length = reqs.length + 1) (ht : 0 < timeLeft E reqs.length) (hu : urls[reqs.length]? = some u)
      (hn : ¬ IsHttp u) : Ends E U urls reqs (.error .http)
  /-- the next URL cannot be normalised -/
  | malformed (u : Str) (hl : urls.length = reqs.length + 1) (ht : 0 < timeLeft E reqs.length) (hu : urls[reqs.length]? = some u)
      (hn : IsHttp u) (he : Urinorm.urinorm U u = .error .valueError) : Ends E U urls reqs (.error (.py .valueError))
  /-- curl fails -/
  | failed (hl : urls.length = reqs.length) (hf : E.reply reqs = .failed) : Ends E U urls reqs (.error .curl)
  /-- the body is too long -/
  | long (hl : urls.length = reqs.length) (header : Bytes) (chunks : List Bytes) (code : Nat)
      (hr : E.reply reqs = .got header chunks code) (hw : ¬ Fits chunks) : Ends E U urls reqs (.error .curl)
  /-- the headers cannot be read -/
  | unreadable (hl : urls.length = reqs.length) (header : Bytes) (chunks : List Bytes) (code : Nat) (e : Err)
      (hr : E.reply reqs = .got header chunks code) (hw : Fits chunks) (hp : parseHeaders header = .error e) :
      Ends E U urls reqs (.error e)
  /-- a redirect without a location -/
  | nowhere (hl : urls.length = reqs.length) (body : Bytes) (hs : Dict Str Str) (code : Nat) (ha : Answered E reqs body hs code)
      (hc : IsRedirect code) (hn : hs.get? t!"location" = none) : Ends E U urls reqs (.error .http)
  /-- an answer that is not a redirect: what is returned is that answer, with the last URL -/
  | done (hl : urls.length = reqs.length) (r : Response) (hu : urls.getLast? = some r.finalUrl)
      (ha : Answered E reqs r.body r.headers r.status) (hc : ¬ IsRedirect r.status) : Ends E U urls reqs (.ok r)

/-- A header that can be sent: a name without a colon, neither with a line feed or spaces at the ends. -/
def HeaderOk (name value : Bytes) : Prop :=
  58 ∉ name ∧ 10 ∉ name ∧ 10 ∉ value ∧ stripBytes name = name ∧ name ≠ [] ∧ stripBytes value = value

/-- The data of some headers after a status line. -/
def headerData (status : Bytes) (hs : List (Bytes × Bytes)) : Bytes :=
  status ++ Utf8.encode t!"\r\n" ++ hs.flatMap (fun p => p.1 ++ Utf8.encode t!": " ++ p.2 ++ Utf8.encode t!"\r\n") ++
    Utf8.encode t!"\r\n"

end Spec
