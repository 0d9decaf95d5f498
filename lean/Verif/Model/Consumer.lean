import Verif.Model.Endpoint
import Verif.Model.Manager
import Verif.Model.Server
/-! # Model of openid/consumer/consumer.py

Text only: bytes arguments (deprecated) are not modelled.  A method that uses the store, the network or discovery is a
program of such calls (`Prog`); whatever comes back, an answer or an exception, is an input of the rest of the program.
The clock is read once per call (`Env.now`, in ticks).  The texts of exceptions and of failures that are not the
provider's own words are not modelled.  Messages are values, so `Message.copy` does nothing.  Deprecated attributes
(`hash_func`), warnings, logging and subclasses of the consumer classes are not modelled. -/

namespace Consumer
open Py Message Association Cryptutil DH Store Discover

/-- What consumer code raises: `ServerError` (lines 547-565) with its code and message, or another exception. -/
inductive Err where
  | py (e : PyErr)
  | server (code : Option Str) (message : Msg)
  deriving DecidableEq, Repr

/-- an exception of a library function passes through -/
def lift {α : Type} : Except PyErr α → Except Err α
  | .ok a => .ok a
  | .error e => .error (.py e)

/-- what `fetchers.fetch` returns; the final URL and the headers are not used -/
structure Http where
  status : Nat
  body : Bytes
  deriving DecidableEq, Repr

/-! ## Programs -/

/-- What a method does to the world outside: it returns (or raises), or calls the store, the fetcher or discovery and goes
    on with what comes back. -/
inductive Prog (α : Type) where
  | done (r : Except Err α)
  | store (op : Store.Op) (k : Outcome → Prog α)
  /-- `fetchers.fetch(url, body=…)`: an HTTP POST -/
  | post (url body : Str) (k : Except PyErr Http → Prog α)
  /-- `discover(identifier)` -/
  | discover (id : Str) (k : Except PyErr (Str × List Endpoint) → Prog α)

namespace Prog

/-- run a program and go on with its outcome, whether it returned or raised -/
def handle {α β : Type} : Prog α → (Except Err α → Prog β) → Prog β
  | .done r, f => f r
  | .store op k, f => .store op fun o => handle (k o) f
  | .post u b k, f => .post u b fun o => handle (k o) f
  | .discover i k, f => .discover i fun o => handle (k o) f

def raise {α : Type} (e : Err) : Prog α := .done (.error e)

instance : Monad Prog where
  pure a := .done (.ok a)
  bind p f := handle p fun
    | .ok a => f a
    | .error e => .done (.error e)

/-- a computation that touches nothing outside -/
def ofPy {α : Type} (r : Except PyErr α) : Prog α := .done (lift r)

end Prog

/-- what a program did, and what came back -/
inductive Ev where
  | store (op : Store.Op) (o : Outcome)
  | post (url body : Str) (o : Except PyErr Http)
  | discover (id : Str) (o : Except PyErr (Str × List Endpoint))

/-- The program can do exactly these calls, with these replies, and then return or raise `r`. -/
def Runs {α : Type} : Prog α → List Ev → Except Err α → Prop
  | .done r', evs, r => evs = [] ∧ r' = r
  | .store op k, evs, r => ∃ o rest, evs = .store op o :: rest ∧ Runs (k o) rest r
  | .post u b k, evs, r => ∃ o rest, evs = .post u b o :: rest ∧ Runs (k o) rest r
  | .discover i k, evs, r => ∃ o rest, evs = .discover i o :: rest ∧ Runs (k o) rest r

/-- an answer that is not of the kind the call gives: no store does this -/
def badAnswer {α : Type} : Prog α := .raise (.py .typeError)

/-- `store.storeAssociation(url, assoc)` -/
def putAssoc (url : Str) (a : Assoc) : Prog Unit :=
  .store (.storeAssociation url a) fun
    | .ok _ => pure ()
    | .error e => .raise (.py e)

/-- `store.getAssociation(url, handle)` -/
def fetchAssoc (url : Str) (handle : Option Str) : Prog (Option Assoc) :=
  .store (.getAssociation url handle) fun
    | .ok (.assoc r) => pure r
    | .ok _ => badAnswer
    | .error e => .raise (.py e)

/-- `store.removeAssociation(url, handle)` -/
def dropAssoc (url handle : Str) : Prog Unit :=
  .store (.removeAssociation url handle) fun
    | .ok _ => pure ()
    | .error e => .raise (.py e)

/-- `store.useNonce(url, timestamp, salt)` -/
def useNonce (url : Str) (timestamp : Int) (salt : Str) : Prog Bool :=
  .store (.useNonce url timestamp salt) fun
    | .ok (.bool b) => pure b
    | .ok _ => badAnswer
    | .error e => .raise (.py e)

/-- `discover(identifier)` -/
def runDiscover (id : Str) : Prog (Str × List Endpoint) := .discover id fun o => .ofPy o

/-! ## Surroundings -/

/-- Everything outside that stays the same; `digits` are the decimal digits outside ASCII that `int` and `strptime` take. -/
structure World extends Server.World where
  digits : ExtraDigits

/-- How the consumer is set up: whether it has a store, and its negotiator. -/
structure Conf where
  hasStore : Bool
  negotiator : Negotiator

/-- What one call draws from outside: the time, the salt of `mkNonce`, and the private keys of the (at most two)
    Diffie-Hellman sessions it makes. -/
structure Env where
  now : Nat
  salt : Str
  priv1 : Nat
  priv2 : Nat

def Env.seconds (E : Env) (W : World) : Int := W.clock.seconds E.now

/-- `ProtocolError` (lines 525-527) and its subclass `TypeURIMismatch` (530-543) -/
def isProtocolError : Err → Bool
  | .py .protocolError => true
  | .py .typeURIMismatch => true
  | _ => false

/-! ## Direct requests -/

/-- openid/consumer/consumer.py:557-563 `ServerError.fromMessage`; the error text is only logged -/
def serverError (m : Msg) : Except Err Msg := do
  let _ ← lift (m.getArg .openid t!"error")
  let code ← lift (m.getArg .openid t!"error_code")
  .error (.server code m)

/-- openid/consumer/consumer.py:234-257 `_httpResponseToMessage` -/
def httpResponseToMessage (W : World) (r : Http) : Except Err Msg := do
  let text ← lift (Utf8.decode r.body)
  let m ← lift (fromKVForm W.reg text)
  if r.status = 400 then serverError m
  else if r.status = 200 ∨ r.status = 206 then return m
  else .error (.py .fetchingError)

/-- openid/consumer/consumer.py:217-231 `makeKVPost` -/
def makeKVPost (W : World) (m : Msg) (url : Str) : Prog Msg :=
  .post url m.toURLEncoded fun
    | .ok r => .done (httpResponseToMessage W r)
    | .error e => .raise (.py e)

/-! ## Association sessions -/

/-- openid/consumer/consumer.py:455-513, the three session classes -/
inductive Session where
  | plain
  | dh (sha256 : Bool) (d : DiffieHellman)
  deriving DecidableEq, Repr

/-- openid/consumer/consumer.py:453, 490, 497 `session_type` -/
def Session.sessionType : Session → Str
  | .plain => t!"no-encryption"
  | .dh false _ => t!"DH-SHA1"
  | .dh true _ => t!"DH-SHA256"

/-- openid/consumer/consumer.py:457, 493, 498 `allowed_assoc_types` -/
def Session.allowedAssocTypes : Session → List Str
  | .plain => [t!"HMAC-SHA1", t!"HMAC-SHA256"]
  | .dh false _ => [t!"HMAC-SHA1"]
  | .dh true _ => [t!"HMAC-SHA256"]

/-- openid/consumer/consumer.py:593-597 `session_types` and 459-463: make a session of the named type -/
def Session.new (L : Lib) (priv : Nat) (sessionType : Str) : Except PyErr Session :=
  if sessionType = t!"DH-SHA256" then do return .dh true (← DiffieHellman.fromDefaults L priv)
  else if sessionType = t!"DH-SHA1" then do return .dh false (← DiffieHellman.fromDefaults L priv)
  else if sessionType = t!"no-encryption" then .ok .plain
  else .error .keyError

/-- openid/consumer/consumer.py:465-472, 500-501 `getRequest` -/
def Session.getRequest : Session → Except PyErr (Dict Str Str)
  | .plain => .ok []
  | .dh _ d => do
    let pub ← d.publicKey
    let dflt ← d.usingDefaultValues
    if dflt then return [(t!"dh_consumer_public", pub)]
    else do
      let ps ← d.parameters
      return [(t!"dh_consumer_public", pub), (t!"dh_modulus", ps.1), (t!"dh_gen", ps.2)]

/-- the digest of a session, openid/consumer/consumer.py:454, 491 `algorithm` -/
def World.hash (W : World) (sha256 : Bool) : Bytes → Bytes := if sha256 then W.sha256 else W.sha1

/-- openid/consumer/consumer.py:474-486, 503-505 `extractSecret` -/
def Session.extractSecret (W : World) (s : Session) (response : Msg) : Except PyErr Bytes :=
  match s with
  | .plain => do
    let k ← response.getArgReq .openid t!"mac_key"
    fromBase64 k
  | .dh sha256 d => do
    let pub ← response.getArgReq .openid t!"dh_server_public"
    let enc ← response.getArgReq .openid t!"enc_mac_key"
    let _ ← base64ToLong pub
    let _ ← fromBase64 enc
    let x ← d.xorSecret W.lib pub enc (W.hash sha256)
    Base64.decode x

/-! ## Associations -/

/-- openid/consumer/consumer.py:1264-1309 `_createAssociateRequest` -/
def createAssociateRequest (W : World) (priv : Nat) (e : Endpoint) (assocType sessionType : Str) :
    Except PyErr (Session × Msg) := do
  let s ← Session.new W.lib priv sessionType
  let args : Dict Str Str := [(t!"mode", t!"associate"), (t!"assoc_type", assocType)]
  let args := if e.compatibilityMode then args else args.set t!"ns" OPENID2_NS
  let args := if !e.compatibilityMode || s.sessionType != t!"no-encryption"
    then args.set t!"session_type" s.sessionType else args
  let extra ← s.getRequest
  let m ← fromOpenIDArgs W.reg (args.update extra)
  return (s, m)

/-- openid/consumer/consumer.py:1311-1346 `_getOpenID1SessionType` -/
def getOpenID1SessionType (response : Msg) : Except PyErr Str := do
  let t ← response.getArg (.uri OPENID1_NS) t!"session_type"
  if t = some [] then return t!"no-encryption" else return t.getD t!"no-encryption"

/-- openid/consumer/consumer.py:1384-1389: the session type of the reply -/
def replySessionType (response : Msg) : Except PyErr Str :=
  if response.isOpenID1 then getOpenID1SessionType response
  else response.getArgReq (.uri OPENID2_NS) t!"session_type"

/-- openid/consumer/consumer.py:1391-1406: the session to go on with -/
def sessionFor (response : Msg) (s : Session) (sessionType : Str) : Except PyErr Session :=
  if s.sessionType = sessionType then .ok s
  else if response.isOpenID1 && sessionType = t!"no-encryption" then .ok .plain
  else .error .protocolError

/-- openid/consumer/consumer.py:1379-1382: a malformed number is a protocol error -/
def asProtocolError {α : Type} : Except PyErr α → Except PyErr α
  | .ok a => .ok a
  | .error e => if e.isValueError then .error .protocolError else .error e

/-- openid/consumer/consumer.py:1348-1424 `_extractAssociation` at time `now` -/
def extractAssociation (W : World) (now : Int) (response : Msg) (s : Session) : Except PyErr Assoc := do
  let assocType ← response.getArgReq .openid t!"assoc_type"
  let handle ← response.getArgReq .openid t!"assoc_handle"
  let expires ← response.getArgReq .openid t!"expires_in"
  let expiresIn ← asProtocolError (parseInt W.digits expires)
  let sessionType ← replySessionType response
  let s ← sessionFor response s sessionType
  if s.allowedAssocTypes.contains assocType then do
    let secret ← asProtocolError (s.extractSecret W response)
    Assoc.fromExpiresIn now expiresIn handle secret assocType
  else throw .protocolError

/-- openid/consumer/consumer.py:1253-1262: an unusable reply is no association; other exceptions pass -/
def noAssociation : Except PyErr Assoc → Except Err (Option Assoc)
  | .ok a => .ok (some a)
  | .error e => if e.isKeyError || isProtocolError (.py e) then .ok none else .error (.py e)

/-- openid/consumer/consumer.py:1235-1262 `_requestAssociation` -/
def requestAssociation (W : World) (E : Env) (priv : Nat) (e : Endpoint) (assocType sessionType : Str) :
    Prog (Option Assoc) := do
  let (s, m) ← Prog.ofPy (createAssociateRequest W priv e assocType sessionType)
  (makeKVPost W m e.serverUrl).handle fun
    | .ok response => .done (noAssociation (extractAssociation W (E.seconds W) response s))
    | .error (.py .fetchingError) => .done (.ok none)
    | .error x => .raise x

/-- openid/consumer/consumer.py:1199-1233 `_extractSupportedAssociationType` -/
def extractSupportedAssociationType (n : Negotiator) (code : Option Str) (m : Msg) :
    Except PyErr (Option (Str × Str)) :=
  if code ≠ some t!"unsupported-type" || m.isOpenID1 then .ok none
  else do
    let a ← m.getArg .openid t!"assoc_type"
    let s ← m.getArg .openid t!"session_type"
    match a, s with
    | some a, some s => if n.isAllowed a s then return some (a, s) else return none
    | _, _ => return none

/-- openid/consumer/consumer.py:1180-1195: the second attempt -/
def retryAssociation (W : World) (E : Env) (e : Endpoint) : Option (Str × Str) → Prog (Option Assoc)
  | none => pure none
  | some (a, s) => (requestAssociation W E E.priv2 e a s).handle fun
    | .error (.server _ _) => .done (.ok none)
    | r => .done r

/-- openid/consumer/consumer.py:1162-1197 `_negotiateAssociation`.  With no allowed type both types are `None`, which
    `string_to_text` (line 1289) refuses. -/
def negotiateAssociation (W : World) (C : Conf) (E : Env) (e : Endpoint) : Prog (Option Assoc) :=
  match C.negotiator.getAllowedType with
  | none => .raise (.py .assertionError)
  | some (a, s) => (requestAssociation W E E.priv1 e a s).handle fun
    | .error (.server code m) => do
      let supported ← Prog.ofPy (extractSupportedAssociationType C.negotiator code m)
      retryAssociation W E e supported
    | r => .done r

/-- openid/consumer/consumer.py:1155: the association found is usable -/
def usable (W : World) (E : Env) : Option Assoc → Bool
  | some a => 0 < a.getExpiresIn (E.seconds W)
  | none => false

/-- openid/consumer/consumer.py:1156-1158: negotiate and store -/
def negotiateAndStore (W : World) (C : Conf) (E : Env) (e : Endpoint) : Prog (Option Assoc) := do
  let r ← negotiateAssociation W C E e
  match r with
  | some a => do
    putAssoc e.serverUrl a
    pure (some a)
  | none => pure none

/-- openid/consumer/consumer.py:1141-1160 `_getAssociation` -/
def getAssociation (W : World) (C : Conf) (E : Env) (e : Endpoint) : Prog (Option Assoc) := do
  let a ← fetchAssoc e.serverUrl none
  if usable W E a then pure a else negotiateAndStore W C E e

/-! ## Requests -/

/-- openid/consumer/consumer.py:1427-1451 `AuthRequest`; the value `None` can only be among `return_to_args` when an
    endpoint without a claimed identifier speaks OpenID 1 -/
structure AuthRequest where
  endpoint : Endpoint
  assoc : Option Assoc
  returnToArgs : Dict Str (Option Str)
  message : Msg
  anonymous : Bool
  deriving DecidableEq, Repr

/-- openid/consumer/consumer.py:584 `openid1_nonce_query_arg_name` -/
def nonceArg : Str := t!"janrain_nonce"
/-- openid/consumer/consumer.py:589 `openid1_return_to_identifier_name` -/
def claimedIdArg : Str := t!"openid1_claimed_id"

/-- openid/consumer/consumer.py:1439-1451 `AuthRequest.__init__` -/
def AuthRequest.new (e : Endpoint) (a : Option Assoc) : Except PyErr AuthRequest := do
  let m ← Msg.new (some e.preferredNamespace)
  return ⟨e, a, [], m, false⟩

/-- openid/consumer/consumer.py:613-618: the arguments added to `return_to` -/
def AuthRequest.addReturnToArgs (W : World) (E : Env) (r : AuthRequest) : AuthRequest :=
  let args := r.returnToArgs.set nonceArg (some (Nonce.mkNonce (E.now / W.clock.tick) E.salt))
  { r with returnToArgs := if r.message.isOpenID1 then args.set claimedIdArg r.endpoint.claimedId else args }

/-- openid/consumer/consumer.py:608-611 -/
def associationFor (W : World) (C : Conf) (E : Env) (e : Endpoint) : Prog (Option Assoc) :=
  if C.hasStore then getAssociation W C E e else pure none

/-- openid/consumer/consumer.py:604-620 `GenericConsumer.begin` -/
def genericBegin (W : World) (C : Conf) (E : Env) (e : Endpoint) : Prog AuthRequest := do
  let a ← associationFor W C E e
  let r ← Prog.ofPy (AuthRequest.new e a)
  pure (r.addReturnToArgs W E)

/-- openid/consumer/consumer.py:1453-1469 `setAnonymous` -/
def AuthRequest.setAnonymous (r : AuthRequest) (anonymous : Bool) : Except PyErr AuthRequest :=
  if anonymous && r.message.isOpenID1 then .error .valueError else .ok { r with anonymous := anonymous }

/-- openid/consumer/consumer.py:1482-1505 `addExtensionArg` -/
def AuthRequest.addExtensionArg (r : AuthRequest) (ns : Ns) (key value : Str) : Except PyErr AuthRequest := do
  let m ← r.message.setArg ns key value
  return { r with message := m }

/-- the arguments as texts, or the refusal of `None` by openid/oidutil.py:95 -/
def textArgs (args : Dict Str (Option Str)) : Except PyErr (Dict Str Str) :=
  args.mapM fun p => match p.2 with
    | some v => .ok (p.1, v)
    | none => .error .assertionError

/-- openid/consumer/consumer.py:1535-1545: the value sent as `return_to`; `none` where `None` stays -/
def AuthRequest.returnToValue (r : AuthRequest) (returnTo : Option Str) (immediate : Bool) :
    Except PyErr (Option Str) :=
  if Server.truthy returnTo then do
    let args ← textArgs r.returnToArgs
    return some (Oidutil.appendArgs (returnTo.getD []) args)
  else if immediate then .error .valueError
  else if r.message.isOpenID1 then .error .valueError
  else if !r.returnToArgs.isEmpty then .error .valueError
  else .ok returnTo

/-- `message.setArg(ns, key, value)` where the value may be `None` (openid/message.py:515) -/
def setOpt (m : Msg) (ns : Ns) (key : Str) : Option Str → Except PyErr Msg
  | some v => m.setArg ns key v
  | none => .error .assertionError

/-- openid/consumer/consumer.py:1560-1561 `updateArgs` with the three arguments -/
def putBasics (m : Msg) (realm mode : Str) (returnTo : Option Str) : Except PyErr Msg := do
  let m ← m.setArg .openid (if m.isOpenID1 then t!"trust_root" else t!"realm") realm
  let m ← m.setArg .openid t!"mode" mode
  setOpt m .openid t!"return_to" returnTo

/-- openid/consumer/consumer.py:1561-1575: the identifiers -/
def AuthRequest.putIdentifiers (r : AuthRequest) (m : Msg) : Except PyErr Msg :=
  if r.anonymous then .ok m
  else do
    let m ← setOpt m .openid t!"identity"
      (if r.endpoint.isOPIdentifier then some IDENTIFIER_SELECT else r.endpoint.getLocalID)
    if m.isOpenID2 then
      setOpt m (.uri OPENID2_NS) t!"claimed_id"
        (if r.endpoint.isOPIdentifier then some IDENTIFIER_SELECT else r.endpoint.claimedId)
    else return m

/-- openid/consumer/consumer.py:1577-1578: the handle -/
def AuthRequest.putHandle (r : AuthRequest) (m : Msg) : Except PyErr Msg :=
  match r.assoc with
  | some a => m.setArg .openid t!"assoc_handle" a.handle
  | none => .ok m

/-- openid/consumer/consumer.py:1507-1585 `getMessage` -/
def AuthRequest.getMessage (r : AuthRequest) (realm : Str) (returnTo : Option Str) (immediate : Bool) :
    Except PyErr Msg := do
  let returnTo ← r.returnToValue returnTo immediate
  let m ← putBasics r.message realm (if immediate then t!"checkid_immediate" else t!"checkid_setup") returnTo
  let m ← r.putIdentifiers m
  r.putHandle m

/-- openid/consumer/consumer.py:1587-1624 `redirectURL` -/
def AuthRequest.redirectURL (r : AuthRequest) (realm : Str) (returnTo : Option Str) (immediate : Bool) :
    Except PyErr Str := do
  let m ← r.getMessage realm returnTo immediate
  return m.toURL r.endpoint.serverUrl

/-- openid/consumer/consumer.py:1626-1636 `formMarkup` -/
def AuthRequest.formMarkup (okName : Str → Bool) (r : AuthRequest) (realm : Str) (returnTo : Option Str) (immediate : Bool)
    (attrs : Dict Str Str) : Except PyErr Str := do
  let m ← r.getMessage realm returnTo immediate
  Form.toFormMarkup okName m r.endpoint.serverUrl attrs Form.defaultSubmit

/-- openid/consumer/consumer.py:1638-1646 `htmlMarkup` -/
def AuthRequest.htmlMarkup (okName : Str → Bool) (r : AuthRequest) (realm : Str) (returnTo : Option Str) (immediate : Bool)
    (attrs : Dict Str Str) : Except PyErr Str := do
  let form ← r.formMarkup okName realm returnTo immediate attrs
  return Form.autoSubmitHTML form Form.defaultTitle

/-- openid/consumer/consumer.py:1648-1654 `shouldSendRedirect` -/
def AuthRequest.shouldSendRedirect (r : AuthRequest) : Bool := r.endpoint.compatibilityMode

/-! ## Responses -/

/-- openid/consumer/consumer.py:1694-1875, the four kinds of response.  Of a failure the model keeps the provider's own
    error, contact and reference (`_complete_error`), not the texts made by this library. -/
inductive Response where
  | success (endpoint : Endpoint) (message : Msg) (signedFields : List Str)
  | cancel (endpoint : Option Endpoint)
  | failure (endpoint : Option Endpoint) (reported : Option (Option Str × Option Str × Option Str))
  | setupNeeded (endpoint : Option Endpoint) (userSetupUrl : Option Str)
  deriving DecidableEq, Repr

/-- openid/consumer/consumer.py:1667-1672, 1722 `identity_url` -/
def Response.identityUrl : Response → Option Str
  | .success e _ _ => e.claimedId
  | .cancel e => e.bind (·.claimedId)
  | .failure e _ => e.bind (·.claimedId)
  | .setupNeeded e _ => e.bind (·.claimedId)

/-- the `endpoint` of a response -/
def Response.endpoint : Response → Option Endpoint
  | .success e _ _ => some e
  | .cancel e | .failure e _ | .setupNeeded e _ => e

/-- openid/consumer/consumer.py:1673-1691 `getDisplayIdentifier` -/
def Response.getDisplayIdentifier (U : Url.Uni) (r : Response) : Except PyErr (Option Str) :=
  match r.endpoint with
  | some e => e.getDisplayIdentifier U
  | none => .ok none

/-- openid/consumer/consumer.py:1733-1737 `isSigned` of a successful response -/
def isSigned (m : Msg) (signedFields : List Str) (ns : Ns) (key : Str) : Except PyErr Bool := do
  let k ← m.getKey ns key
  match k with
  | some k => return signedFields.contains k
  | none => return false

/-- openid/consumer/consumer.py:1739-1746 `getSigned`; `none` stands for the default -/
def getSigned (m : Msg) (signedFields : List Str) (ns : Ns) (key : Str) : Except PyErr (Option Str) := do
  let b ← isSigned m signedFields ns key
  if b then m.getArg ns key else return none

/-- openid/consumer/consumer.py:1754-1758: are all of these keys signed? -/
def allSigned (m : Msg) (signedFields : List Str) (ns : Ns) : List Str → Except PyErr Bool
  | [] => .ok true
  | k :: rest => do
    let b ← isSigned m signedFields ns k
    if b then allSigned m signedFields ns rest else return false

/-- openid/consumer/consumer.py:1748-1760 `getSignedNS`; `none` stands for `None` -/
def getSignedNS (m : Msg) (signedFields : List Str) (ns : Ns) : Except PyErr (Option (Dict Str Str)) := do
  let args ← m.getArgs ns
  let b ← allSigned m signedFields ns args.keys
  if b then return some args else return none

/-- openid/consumer/consumer.py:1762-1777 `extensionResponse` -/
def extensionResponse (m : Msg) (signedFields : List Str) (ns : Ns) (requireSigned : Bool) :
    Except PyErr (Option (Dict Str Str)) :=
  if requireSigned then getSignedNS m signedFields ns
  else do return some (← m.getArgs ns)

/-- openid/consumer/consumer.py:1779-1791 `getReturnTo` -/
def getReturnTo (m : Msg) (signedFields : List Str) : Except PyErr (Option Str) :=
  getSigned m signedFields .openid t!"return_to"

/-! ## Checking a response -/

/-- openid/consumer/consumer.py:823-829: the fields that must be present -/
def requiredFields (ns : Str) : Except PyErr (List Str) :=
  if ns = OPENID2_NS then .ok [t!"return_to", t!"assoc_handle", t!"sig", t!"signed", t!"op_endpoint"]
  else if ns = OPENID1_NS then .ok [t!"return_to", t!"assoc_handle", t!"sig", t!"signed", t!"identity"]
  else .error .keyError

/-- openid/consumer/consumer.py:831-834: the fields that must be signed if present -/
def requiredSigs (ns : Str) : Except PyErr (List Str) :=
  if ns = OPENID2_NS then
    .ok [t!"return_to", t!"identity", t!"response_nonce", t!"claimed_id", t!"assoc_handle", t!"op_endpoint"]
  else if ns = OPENID1_NS then .ok [t!"return_to", t!"identity"]
  else .error .keyError

/-- openid/consumer/consumer.py:836-838, for the remaining fields -/
def checkPresent (m : Msg) : List Str → Except PyErr Unit
  | [] => .ok ()
  | f :: rest => do
    let b ← m.hasKey .openid f
    if b then checkPresent m rest else throw .protocolError

/-- openid/consumer/consumer.py:843-846, for the remaining fields -/
def checkSigned (m : Msg) (signed : List Str) : List Str → Except PyErr Unit
  | [] => .ok ()
  | f :: rest => do
    let b ← m.hasKey .openid f
    if b && !signed.contains f then throw .protocolError else checkSigned m signed rest

/-- openid/consumer/consumer.py:816-846 `_idResCheckForFields` -/
def idResCheckForFields (m : Msg) : Except PyErr Unit := do
  let fields ← requiredFields (m.getOpenIDNamespace.getD [])
  checkPresent m fields
  let signed ← m.getArgReq .openid t!"signed"
  let sigs ← requiredSigs (m.getOpenIDNamespace.getD [])
  checkSigned m (splitOn ',' signed) sigs

/-- openid/consumer/consumer.py:861-871, for the remaining arguments of the URL -/
def checkReturnToArgs (query : Dict Str Str) : List (Str × Str) → Except PyErr Unit
  | [] => .ok ()
  | (k, v) :: rest =>
    if query.get? k = some v then checkReturnToArgs query rest else .error .protocolError

/-- openid/consumer/consumer.py:848-878 `_verifyReturnToArgs` -/
def verifyReturnToArgs (W : World) (query : Dict Str Str) : Except PyErr Unit := do
  let m ← fromPostArgs W.reg query
  let rt ← m.getArg .openid t!"return_to"
  match rt with
  | none => throw .protocolError
  | some rt => do
    let u ← Url.urlparse W.uni rt
    let args := Percent.parseQsl true u.query
    checkReturnToArgs query args
    let bare ← m.getArgs .bare
    if bare.all fun p => args.contains p then return () else throw .protocolError

/-- openid/consumer/consumer.py:682-694: scheme, authority and path agree -/
def sameBase (W : World) (app message : Str) : Except PyErr Bool := do
  let a ← Urinorm.urinorm W.uni app
  let a ← Url.urlparse W.uni a
  let b ← Urinorm.urinorm W.uni message
  let b ← Url.urlparse W.uni b
  return a.scheme = b.scheme && a.netloc = b.netloc && a.path = b.path

/-- openid/consumer/consumer.py:668-696 `_checkReturnTo` -/
def checkReturnTo (W : World) (m : Msg) (returnTo : Str) : Except PyErr Bool :=
  match verifyReturnToArgs W m.toPostArgs with
  | .error e => if isProtocolError (.py e) then .ok false else .error e
  | .ok () => do
    let rt ← m.getArg .openid t!"return_to"
    sameBase W returnTo (rt.getD [])

/-- the endpoint made from a response to compare with, openid/consumer/consumer.py:897-904, 962-972 -/
structure ToMatch where
  typeUris : List Str
  claimedId : Option Str
  localId : Option Str
  serverUrl : Option Str
  deriving DecidableEq, Repr

/-- openid/consumer/consumer.py:1002-1004, for the remaining types -/
def checkTypes (e : Endpoint) : List Str → Except PyErr Unit
  | [] => .ok ()
  | t :: rest => if e.usesExtension t then checkTypes e rest else .error .typeURIMismatch

/-- openid/consumer/consumer.py:1008-1013: the claimed identifier without its fragment.  `urldefrag(None)` is the empty
    byte string, which equals no claimed identifier. -/
def checkClaimed (W : World) (e : Endpoint) : Option Str → Except PyErr Unit
  | none => .error .protocolError
  | some c => do
    let (d, _) ← Url.urldefrag W.uni c
    if e.claimedId = some d then return () else throw .protocolError

/-- openid/consumer/consumer.py:987-1033 `_verifyDiscoverySingle`; the assertion of line 1025 holds, as the only endpoints
    to match without a server URL have an OpenID 1 type -/
def verifyDiscoverySingle (W : World) (e : Endpoint) (m : ToMatch) : Except PyErr Unit := do
  checkTypes e m.typeUris
  checkClaimed W e m.claimedId
  if localIdOf m.claimedId m.localId none ≠ e.getLocalID then throw .protocolError
  else match m.serverUrl with
    | none => return ()
    | some u => if u = e.serverUrl then return () else throw .protocolError

/-- openid/consumer/consumer.py:1066-1075, one service against the remaining endpoints to match -/
def matchesAny (W : World) (e : Endpoint) : List ToMatch → Except PyErr Bool
  | [] => .ok false
  | m :: rest =>
    match verifyDiscoverySingle W e m with
    | .ok () => .ok true
    | .error x => if isProtocolError (.py x) then matchesAny W e rest else .error x

/-- openid/consumer/consumer.py:1058-1082 `_verifyDiscoveredServices`, for the remaining services -/
def verifyDiscoveredServices (W : World) (ms : List ToMatch) : List Endpoint → Except PyErr Endpoint
  | [] => .error .discoveryFailure
  | e :: rest => do
    let b ← matchesAny W e ms
    if b then return e else verifyDiscoveredServices W ms rest

/-- openid/consumer/consumer.py:1035-1056 `_discoverAndVerify`.  `discover(None)` fails with an AttributeError
    (openid/yadis/xri.py:22, called from openid/consumer/discover.py:466). -/
def discoverAndVerify (W : World) (ms : List ToMatch) : Option Str → Prog Endpoint
  | none => .raise (.py .attributeError)
  | some id => do
    let r ← runDiscover id
    Prog.ofPy (verifyDiscoveredServices W ms r.2)

/-- openid/consumer/consumer.py:930-939: the stored endpoint if it matches, otherwise discovery -/
def endpointFor2 (W : World) (m : ToMatch) : Option Endpoint → Prog Endpoint
  | none => discoverAndVerify W [m] m.claimedId
  | some e =>
    match verifyDiscoverySingle W e m with
    | .ok () => pure e
    | .error x => if isProtocolError (.py x) then discoverAndVerify W [m] m.claimedId else .raise (.py x)

/-- openid/consumer/consumer.py:896-946 `_verifyDiscoveryResultsOpenID2` -/
def verifyDiscoveryResults2 (W : World) (m : Msg) (endpoint : Option Endpoint) : Prog Endpoint := do
  let claimed ← Prog.ofPy (m.getArg (.uri OPENID2_NS) t!"claimed_id")
  let ident ← Prog.ofPy (m.getArg (.uri OPENID2_NS) t!"identity")
  let server ← Prog.ofPy (m.getArgReq (.uri OPENID2_NS) t!"op_endpoint")
  match claimed, ident with
  | none, some _ => .raise (.py .protocolError)
  | some _, none => .raise (.py .protocolError)
  | none, none => pure (Endpoint.fromOPEndpointURL server)
  | some c, some i => do
    let e ← endpointFor2 W ⟨[OPENID_2_0_TYPE], some c, some i, some server⟩ endpoint
    pure { e with claimedId := some c }

/-- openid/consumer/consumer.py:975-979: the stored endpoint matches, as OpenID 1.1 or 1.0 -/
def verifyStored1 (W : World) (e : Endpoint) (m11 m10 : ToMatch) : Except PyErr Unit :=
  match verifyDiscoverySingle W e m11 with
  | .error .typeURIMismatch => verifyDiscoverySingle W e m10
  | r => r

/-- openid/consumer/consumer.py:974-985: the stored endpoint if it matches, otherwise discovery -/
def endpointFor1 (W : World) (m11 m10 : ToMatch) (claimed : Option Str) : Option Endpoint → Prog Endpoint
  | none => discoverAndVerify W [m11, m10] claimed
  | some e =>
    match verifyStored1 W e m11 m10 with
    | .ok () => pure e
    | .error x => if isProtocolError (.py x) then discoverAndVerify W [m11, m10] claimed else .raise (.py x)

/-- openid/consumer/consumer.py:951-958: the claimed identifier, from `return_to` or the session -/
def claimedId1 (arg : Option Str) (endpoint : Option Endpoint) : Except PyErr (Option Str) :=
  match arg, endpoint with
  | some c, _ => .ok (some c)
  | none, some e => .ok e.claimedId
  | none, none => .error .runtimeError

/-- openid/consumer/consumer.py:948-985 `_verifyDiscoveryResultsOpenID1` -/
def verifyDiscoveryResults1 (W : World) (m : Msg) (endpoint : Option Endpoint) : Prog Endpoint := do
  let arg ← Prog.ofPy (m.getArg .bare claimedIdArg)
  let claimed ← Prog.ofPy (claimedId1 arg endpoint)
  let ident ← Prog.ofPy (m.getArg (.uri OPENID1_NS) t!"identity")
  match ident with
  | none => .raise (.py .protocolError)
  | some i =>
    endpointFor1 W ⟨[OPENID_1_1_TYPE], claimed, some i, none⟩ ⟨[OPENID_1_0_TYPE], claimed, some i, none⟩ claimed endpoint

/-- openid/consumer/consumer.py:880-894 `_verifyDiscoveryResults` -/
def verifyDiscoveryResults (W : World) (m : Msg) (endpoint : Option Endpoint) : Prog Endpoint :=
  if m.getOpenIDNamespace = some OPENID2_NS then verifyDiscoveryResults2 W m endpoint
  else verifyDiscoveryResults1 W m endpoint

/-- openid/consumer/consumer.py:1108-1115: every signed field has a value -/
def signedPresent (m : Msg) : List Str → Except PyErr Bool
  | [] => .ok true
  | k :: rest => do
    let v ← m.getAliasedArg k
    match v with
    | none => return false
    | some _ => signedPresent m rest

/-- openid/consumer/consumer.py:1106-1107: the names in the `signed` field -/
def signedNames : Option Str → List Str
  | none => []
  | some [] => []
  | some s => splitOn ',' s

/-- openid/consumer/consumer.py:1102-1119 `_createCheckAuthRequest` -/
def createCheckAuthRequest (m : Msg) : Except PyErr (Option Msg) := do
  let signed ← m.getArg .openid t!"signed"
  let b ← signedPresent m (signedNames signed)
  if b then do
    let r ← m.setArg .openid t!"mode" t!"check_authentication"
    return some r
  else return none

/-- openid/consumer/consumer.py:1126-1132: forget an association the provider calls invalid -/
def invalidate (C : Conf) (url : Str) : Option Str → Prog Unit
  | none => pure ()
  | some h => if C.hasStore then dropAssoc url h else pure ()

/-- openid/consumer/consumer.py:1121-1139 `_processCheckAuthResponse` -/
def processCheckAuthResponse (C : Conf) (response : Msg) (url : Str) : Prog Bool := do
  let valid ← Prog.ofPy (response.getArg .openid t!"is_valid")
  let inv ← Prog.ofPy (response.getArg .openid t!"invalidate_handle")
  invalidate C url inv
  pure (valid = some t!"true")

/-- openid/consumer/consumer.py:1093-1100: the request and its reply -/
def postCheckAuth (W : World) (C : Conf) (url : Str) : Option Msg → Prog Bool
  | none => pure false
  | some r => (makeKVPost W r url).handle fun
    | .ok response => processCheckAuthResponse C response url
    | .error (.py .fetchingError) => pure false
    | .error (.server _ _) => pure false
    | .error x => .raise x

/-- openid/consumer/consumer.py:1084-1100 `_checkAuth` -/
def checkAuth (W : World) (C : Conf) (m : Msg) (url : Str) : Prog Bool := do
  let r ← Prog.ofPy (createCheckAuthRequest m)
  postCheckAuth W C url r

/-- openid/consumer/consumer.py:790-793 -/
def storedAssoc (C : Conf) (url : Str) (handle : Option Str) : Prog (Option Assoc) :=
  if C.hasStore then fetchAssoc url handle else pure none

/-- openid/consumer/consumer.py:788-814 `_idResCheckSignature` -/
def idResCheckSignature (W : World) (C : Conf) (E : Env) (m : Msg) (url : Str) : Prog Unit := do
  let handle ← Prog.ofPy (m.getArg .openid t!"assoc_handle")
  let a ← storedAssoc C url handle
  match a with
  | some a =>
    if a.getExpiresIn (E.seconds W) ≤ 0 then .raise (.py .protocolError)
    else do
      let ok ← Prog.ofPy (a.checkMessageSignature W.mac m)
      if ok then pure () else .raise (.py .protocolError)
  | none => do
    let ok ← checkAuth W C m url
    if ok then pure () else .raise (.py .protocolError)

/-- openid/consumer/consumer.py:769-775: the nonce and the server it is kept under -/
def nonceOf (m : Msg) (e : Endpoint) : Except PyErr (Option Str × Str) :=
  if m.isOpenID1 then do
    let n ← m.getArg .bare nonceArg
    return (n, [])
  else do
    let n ← m.getArg (.uri OPENID2_NS) t!"response_nonce"
    return (n, e.serverUrl)

/-- openid/consumer/consumer.py:785-786 -/
def nonceFresh (C : Conf) (url : Str) (timestamp : Int) (salt : Str) : Prog Bool :=
  if C.hasStore then useNonce url timestamp salt else pure true

/-- openid/consumer/consumer.py:768-786 `_idResCheckNonce` -/
def idResCheckNonce (W : World) (C : Conf) (m : Msg) (e : Endpoint) : Prog Unit := do
  let (nonce, url) ← Prog.ofPy (nonceOf m e)
  match nonce with
  | none => .raise (.py .protocolError)
  | some nonce => do
    let (timestamp, salt) ← Prog.ofPy (asProtocolError (Nonce.split W.digits nonce))
    let ok ← nonceFresh C url timestamp salt
    if ok then pure () else .raise (.py .protocolError)

/-- openid/consumer/consumer.py:736-739 -/
def returnToMatches (W : World) (m : Msg) (returnTo : Str) : Except PyErr Unit := do
  let b ← checkReturnTo W m returnTo
  if b then return () else throw .protocolError

/-- openid/consumer/consumer.py:713-754 `_doIdRes` -/
def doIdRes (W : World) (C : Conf) (E : Env) (m : Msg) (endpoint : Option Endpoint) (returnTo : Str) :
    Prog Response := do
  Prog.ofPy (idResCheckForFields m)
  Prog.ofPy (returnToMatches W m returnTo)
  let e ← verifyDiscoveryResults W m endpoint
  idResCheckSignature W C E m e.serverUrl
  idResCheckNonce W C m e
  let signed ← Prog.ofPy (m.getArgReq .openid t!"signed")
  pure (.success e m ((splitOn ',' signed).map (t!"openid." ++ ·)))

/-- openid/consumer/consumer.py:700-711 `_checkSetupNeeded`: the URL of the error -/
def setupNeeded (m : Msg) : Except PyErr (Option Str) :=
  if m.isOpenID1 then m.getArg (.uri OPENID1_NS) t!"user_setup_url" else .ok none

/-- openid/consumer/consumer.py:658-661: the two caught exceptions -/
def asFailure (endpoint : Option Endpoint) : Except Err Response → Except Err Response
  | .ok r => .ok r
  | .error e => if isProtocolError e || e = .py .discoveryFailure then .ok (.failure endpoint none) else .error e

/-- openid/consumer/consumer.py:652-661 `_complete_id_res` -/
def completeIdRes (W : World) (C : Conf) (E : Env) (m : Msg) (endpoint : Option Endpoint) (returnTo : Str) :
    Prog Response := do
  let url ← Prog.ofPy (setupNeeded m)
  match url with
  | some url => pure (.setupNeeded endpoint (some url))
  | none => (doIdRes W C E m endpoint returnTo).handle fun r => .done (asFailure endpoint r)

/-- openid/consumer/consumer.py:636-643 `_complete_error` -/
def completeError (m : Msg) (endpoint : Option Endpoint) : Except PyErr Response := do
  let error ← m.getArg .openid t!"error"
  let contact ← m.getArg .openid t!"contact"
  let reference ← m.getArg .openid t!"reference"
  return .failure endpoint (some (error, contact, reference))

/-- openid/consumer/consumer.py:645-650 `_complete_setup_needed` -/
def completeSetupNeeded (m : Msg) (endpoint : Option Endpoint) : Except PyErr Response :=
  if m.isOpenID2 then do
    let url ← m.getArg (.uri OPENID2_NS) t!"user_setup_url"
    return .setupNeeded endpoint url
  else .ok (.failure endpoint none)

/-- openid/consumer/consumer.py:622-634, 663-666 `GenericConsumer.complete`.  The names that start with `_complete_` are
    those of the four methods below. -/
def genericComplete (W : World) (C : Conf) (E : Env) (m : Msg) (endpoint : Option Endpoint) (returnTo : Str) :
    Prog Response := do
  let mode ← Prog.ofPy (m.getArg .openid t!"mode")
  if mode = some t!"cancel" then pure (.cancel endpoint)
  else if mode = some t!"error" then Prog.ofPy (completeError m endpoint)
  else if mode = some t!"setup_needed" then Prog.ofPy (completeSetupNeeded m endpoint)
  else if mode = some t!"id_res" then completeIdRes W C E m endpoint returnTo
  else pure (.failure endpoint none)

/-! ## The `Consumer` class: discovery and the user's session -/

/-- The two entries of the user's session that are used: the endpoint of the last request, and the discovered services. -/
structure UserSession where
  token : Option Endpoint
  manager : Option (Manager.Manager Endpoint)
  deriving DecidableEq, Repr

/-- openid/yadis/manager.py:91-118 `getNextService`, with the session after it -/
def getNextService (s : UserSession) (url : Str) : Prog (UserSession × Except Err (Option Endpoint)) :=
  match Manager.beforeDiscovery s.manager url with
  | some (e, m) => pure ({ s with manager := m }, .ok e)
  | none => (runDiscover url).handle fun
    | .error x => pure ({ s with manager := Manager.dropEmpty s.manager url }, .error x)
    | .ok (yadisUrl, services) =>
      match Manager.afterDiscovery s.manager url yadisUrl services with
      | .ok (e, m) => pure ({ s with manager := m }, .ok e)
      | .error x => pure ({ s with manager := Manager.dropEmpty s.manager url }, .error (.py x))

/-- openid/consumer/consumer.py:376-384: what is left of `beginWithoutDiscovery` after the request is made -/
def anonymousOr (r : AuthRequest) (anonymous : Bool) : Except Err AuthRequest :=
  match r.setAnonymous anonymous with
  | .ok r => .ok r
  | .error e => if e.isValueError then .error (.py .protocolError) else .error (.py e)

/-- openid/consumer/consumer.py:355-384 `beginWithoutDiscovery`, with the session after it -/
def beginWithoutDiscovery (W : World) (C : Conf) (E : Env) (s : UserSession) (service : Endpoint) (anonymous : Bool) :
    Prog (UserSession × Except Err AuthRequest) :=
  (genericBegin W C E service).handle fun
    | .error x => pure (s, .error x)
    | .ok r => pure ({ s with token := some r.endpoint }, anonymousOr r anonymous)

/-- openid/consumer/consumer.py:344-347: an HTTP error is a failure of discovery -/
def fetchingAsFailure : Err → Err
  | .py .fetchingError => .py .discoveryFailure
  | x => x

/-- openid/consumer/consumer.py:344-353: what follows `getNextService` -/
def beginWith (W : World) (C : Conf) (E : Env) (anonymous : Bool) :
    UserSession × Except Err (Option Endpoint) → Prog (UserSession × Except Err AuthRequest)
  | (s, .error x) => pure (s, .error (fetchingAsFailure x))
  | (s, .ok none) => pure (s, .error (.py .discoveryFailure))
  | (s, .ok (some e)) => beginWithoutDiscovery W C E s e anonymous

/-- openid/consumer/consumer.py:307-353 `Consumer.begin`, with the session after it -/
def begin (W : World) (C : Conf) (E : Env) (s : UserSession) (userUrl : Str) (anonymous : Bool) :
    Prog (UserSession × Except Err AuthRequest) := do
  let r ← getNextService s userUrl
  beginWith W C E anonymous r

/-- openid/consumer/consumer.py:421-428: the services are discarded -/
def cleanup (s : UserSession) : Response → UserSession
  | .success e _ _ => match e.claimedId with
    | some u => { s with manager := (Manager.cleanup s.manager u true).2 }
    | none => s
  | .cancel (some e) => match e.claimedId with
    | some u => { s with manager := (Manager.cleanup s.manager u true).2 }
    | none => s
  | _ => s

/-- openid/consumer/consumer.py:386-430 `Consumer.complete`, with the session after it -/
def complete (W : World) (C : Conf) (E : Env) (s : UserSession) (query : Dict Str Str) (currentUrl : Str) :
    Prog (UserSession × Except Err Response) :=
  match fromPostArgs W.reg query with
  | .error e => pure (s, .error (.py e))
  | .ok m => (genericComplete W C E m s.token currentUrl).handle fun
    | .error x => pure (s, .error x)
    | .ok r => pure (cleanup { s with token := none } r, .ok r)

end Consumer
