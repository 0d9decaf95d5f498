import Verif.Model.Sreg
import Verif.Model.Pape
import Verif.Model.Extend
/-! # Model of the relying party in examples/consumer.py

The two addresses `/verify` and `/process`, with the sessions of the visitors: examples/consumer.py:53-291.  The cookie is given as the session id in it, the query as a dictionary of texts (under Python 3 the program does
not start: it imports `Cookie`).  Of a page the message, the contents of the form and the data of extensions are kept, not the
rest of the HTML.  The texts of the library's own failures are a parameter.  A session is what the library keeps in it. -/

namespace Visitor
open Py Message Consumer

/-- examples/consumer.py:61: the sessions by id -/
abbrev Sessions := Dict Str UserSession

/-- what is asked of the program, with the session id from the cookie, if there is one -/
inductive Path where
  | verify (query : Dict Str Str)
  /-- with the header `Host` and the path as sent, with its query -/
  | process (query : Dict Str Str) (host : Option Str) (path : Str)
  deriving DecidableEq, Repr

structure Visit where
  cookie : Option Str
  path : Path
  deriving DecidableEq, Repr

/-- What the visitor gets.  A redirection carries another status line among its headers, as `writeUserHeader` (line 209) does not
    exist; a form that submits itself is sent without any headers (line 217). -/
inductive Page where
  | page (message : Str) (contents : Option Str) (sreg : Option Sreg.Response) (pape : Option Pape.Response)
  | redirect (url : Str)
  | form (html : Str)
  | trouble
  deriving DecidableEq, Repr

/-- a page and the session id it sets as a cookie -/
structure Reply where
  cookie : Option Str
  page : Page
  deriving DecidableEq, Repr

/-- How the program was started: its own address, ending in a slash; the texts of the library's failures and exceptions; the
    attribute names that lxml takes. -/
structure Setup where
  base : Str
  failureText : Response → Str
  discoveryText : Str → Str
  okName : Str → Bool

/-- `cgi.escape(c)` of Python 2, one character -/
def escapeChar (quote : Bool) (c : Char) : Str :=
  if c = '&' then t!"&amp;"
  else if c = '<' then t!"&lt;"
  else if c = '>' then t!"&gt;"
  else if c = '"' ∧ quote = true then t!"&quot;"
  else [c]

/-- `cgi.escape(s, quote)` -/
def escape (quote : Bool) (s : Str) : Str := s.flatMap (escapeChar quote)

/-- examples/consumer.py:22-24 `quoteattr` -/
def quoteattr (s : Str) : Str := t!"\"" ++ escape true s ++ t!"\""

/-- examples/consumer.py:84-115 `getSession`: the id of the session -/
def sidOf (fresh : Str) (v : Visit) : Str := v.cookie.getD fresh

/-- examples/consumer.py:100-111: the session of this id, or a new one -/
def sessionOf (ss : Sessions) (sid : Str) : UserSession := (ss.get? sid).getD ⟨none, none⟩

/-- examples/consumer.py:219-222 `requestRegistrationData` -/
def registration : Except PyErr Extend.Extension := do
  let r ← Sreg.Request.new [t!"nickname"] [t!"fullname", t!"email"] none Sreg.nsUri11
  return ⟨Sreg.nsUri11, t!"sreg", r.getExtensionArgs⟩

/-- openid/extensions/pape.py:34-35 -/
def phishingResistant : Str := t!"http://schemas.openid.net/pape/policies/2007/06/phishing-resistant"

/-- examples/consumer.py:224-226 `requestPAPEDetails` -/
def policies : Except PyErr Extend.Extension := do
  let r ← Pape.Request.new [phishingResistant] none []
  let args ← r.getExtensionArgs
  return ⟨Pape.nsUri, Pape.nsAlias, args⟩

/-- examples/consumer.py:196-200: one extension, if the query asks for it -/
def extendIf (query : Dict Str Str) (key : Str) (x : Except PyErr Extend.Extension) (r : AuthRequest) :
    Except PyErr AuthRequest :=
  if (query.get? key).isSome then do
    let x ← x
    Extend.extendRequest r [x]
  else .ok r

/-- examples/consumer.py:196-217: the visitor is sent on with the request -/
def sendOn (S : Setup) (query : Dict Str Str) (r : AuthRequest) : Except PyErr Page := do
  let r ← extendIf query t!"use_sreg" registration r
  let r ← extendIf query t!"use_pape" policies r
  let immediate := (query.get? t!"immediate").isSome
  if r.shouldSendRedirect then do
    let url ← r.redirectURL S.base (some (S.base ++ t!"process")) immediate
    return .redirect url
  else do
    let html ← r.htmlMarkup S.okName S.base (some (S.base ++ t!"process")) immediate [(t!"id", t!"openid_message")]
    return .form html

/-- the page of an outcome; an exception becomes a page (examples/consumer.py:154-159) -/
def orTrouble : Except PyErr Page → Page
  | .ok p => p
  | .error _ => .trouble

/-- the cookie that goes with a page: `render`, the redirection and the page about an exception set it -/
def withCookie (sid : Str) : Page → Reply
  | .form html => ⟨none, .form html⟩
  | p => ⟨some sid, p⟩

/-- examples/consumer.py:178-217: what follows `begin` -/
def verifyPage (S : Setup) (query : Dict Str Str) (url : Str) : Except Err AuthRequest → Page
  | .error (.py .discoveryFailure) =>
    .page (t!"Error in discovery: " ++ escape false (S.discoveryText url)) (some url) none none
  | .error _ => .trouble
  | .ok r => orTrouble (sendOn S query r)

/-- examples/consumer.py:161-217 `doVerify`: the session after it, and the page -/
def doVerify (W : World) (C : Conf) (E : Env) (S : Setup) (s : UserSession) (query : Dict Str Str) :
    Prog (UserSession × Page) :=
  match query.get? t!"openid_identifier" with
  | none | some [] => pure (s, .page t!"Enter an OpenID Identifier to verify." none none none)
  | some url => do
    let C := if (query.get? t!"use_stateless").isSome then { C with hasStore := false } else C
    let (s, r) ← begin W C E s url false
    pure (s, verifyPage S query url r)

/-- examples/consumer.py:245-251: the text of a failure; the provider's error may be missing -/
def failureMessage (S : Setup) (info : Response) : Str :=
  match info with
  | .failure _ (some (error, _, _)) => error.getD t!"None"
  | _ => S.failureText info

/-- examples/consumer.py:265-271: the canonical identifier, if there is one -/
def canonicalPart : Option Str → Str
  | none | some [] => []
  | some c => t!"  This is an i-name, and its persistent ID is " ++ escape false c

/-- examples/consumer.py:252-271: the page of a success.  `cgi.escape(None)` raises AttributeError. -/
def verifiedPage (X : ExtraDigits) (e : Discover.Endpoint) (m : Msg) (signed : List Str) : Option Str → Except PyErr Page
  | none => .error .attributeError
  | some id => do
    let (m, sreg) ← Sreg.fromSuccessResponse m signed true
    let pape ← Pape.Response.fromSuccessResponse X m signed
    return .page (t!"You have successfully verified " ++ escape false id ++ t!" as your identity." ++
      canonicalPart e.canonicalID) (some id) sreg pape

/-- examples/consumer.py:239-291: the page about what the library reports -/
def infoPage (W : World) (S : Setup) (info : Response) : Except PyErr Page := do
  let id ← info.getDisplayIdentifier W.uni
  match info with
  | .failure _ _ =>
    if Server.truthy id then
      return .page (t!"Verification of " ++ escape false (id.getD []) ++ t!" failed: " ++ failureMessage S info) id none none
    else return .page t!"Verification failed." id none none
  | .success e m signed => verifiedPage W.digits e m signed id
  | .cancel _ => return .page t!"Verification cancelled" id none none
  | .setupNeeded _ url =>
    if Server.truthy url then
      return .page (t!"<a href=" ++ quoteattr (url.getD []) ++ t!">Setup needed</a>") id none none
    else return .page t!"Setup needed" id none none

/-- examples/consumer.py:238-243: what follows `complete` -/
def processPage (W : World) (S : Setup) : Except Err Response → Page
  | .error _ => .trouble
  | .ok info => orTrouble (infoPage W S info)

/-- examples/consumer.py:228-291 `doProcess` -/
def doProcess (W : World) (C : Conf) (E : Env) (S : Setup) (s : UserSession) (query : Dict Str Str) (host : Option Str)
    (path : Str) : Prog (UserSession × Page) :=
  match host with
  | none => pure (s, .trouble)
  | some host => do
    let (s, r) ← complete W C E s query (t!"http://" ++ host ++ path)
    pure (s, processPage W S r)

/-- examples/consumer.py:122-159 `do_GET` for the two addresses -/
def answer (W : World) (C : Conf) (E : Env) (S : Setup) (s : UserSession) : Path → Prog (UserSession × Page)
  | .verify query => doVerify W C E S s query
  | .process query host path => doProcess W C E S s query host path

/-- a visit, with the sessions after it; `fresh` is the new session id, if one is needed -/
def visit (W : World) (C : Conf) (E : Env) (S : Setup) (ss : Sessions) (fresh : Str) (v : Visit) : Prog (Sessions × Reply) := do
  let (s, p) ← answer W C E S (sessionOf ss (sidOf fresh v)) v.path
  pure (ss.set (sidOf fresh v) s, withCookie (sidOf fresh v) p)

end Visitor
