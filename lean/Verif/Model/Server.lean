import Verif.Model.Association
import Verif.Model.DH
import Verif.Model.Form
import Verif.Model.Nonce
import Verif.Model.TrustRoot
import Verif.Spec.Store
/-! # Model of openid/server/server.py

Text only: bytes arguments (deprecated) are not modelled.  Requests and responses are values; where the code
copies (`deepcopy`, `Message.copy`) the model does nothing.  A method that uses the store is a program of store
calls (`Prog`); an exception of the store is never caught, so it ends the program.  The clock is read once per
call (`Env.now`, in ticks) and the random bytes are arguments.  The texts of protocol errors are kept as a reason
(`Reason`), not as text.  Deprecated attributes, warnings, logging, `__str__`/`__repr__` and subclasses of the
server classes are not modelled. -/

namespace Server
open Py Message Association Cryptutil DH Store

/-- `x or None` is a value: a text that is present and not empty -/
def truthy : Option Str → Bool
  | some (_ :: _) => true
  | _ => false

/-- `x or y` -/
def orElse (x y : Option Str) : Option Str := if truthy x then x else y

/-! ## Errors -/

/-- Which `ProtocolError` was raised.  openid/server/server.py:1654-1734 `ProtocolError`, 1813 `UntrustedReturnURL`,
    1829 `MalformedReturnURL`, 1837 `MalformedTrustRoot`; the texts are not modelled. -/
inductive Reason where
  | badOpenIDNamespace | badNamespace | noMode | unknownMode
  | missingField | dhParameters | noPublicKey | noSessionType | noAssocType | unknownSession | badSession
  | sessionMismatch | noReturnTo | noIdentity | identityOnly | claimedOnly | realmRequired | unsupported
  | malformedReturnURL | malformedTrustRoot
  | untrustedReturnURL
  deriving DecidableEq, Repr

/-- What server code raises. -/
inductive Err where
  | py (e : PyErr)
  /-- `ProtocolError` and its subclasses with the message they were given -/
  | protocol (why : Reason) (message : Option Msg)
  /-- openid/server/server.py:1778 `NoReturnToError` -/
  | noReturnTo
  /-- openid/server/server.py:1773 `VersionError` -/
  | version
  /-- openid/server/server.py:1785 `EncodingError` -/
  | encoding
  /-- openid/server/server.py:1809-1810 `AlreadySigned` -/
  | alreadySigned
  /-- `NotImplementedError` -/
  | notImplemented
  deriving DecidableEq, Repr

/-- an exception of a library function passes through -/
def lift {α : Type} : Except PyErr α → Except Err α
  | .ok a => .ok a
  | .error e => .error (.py e)

/-! ## Programs of store calls -/

/-- What a method does to the store: it returns (or raises), or calls the store and goes on with the answer. -/
inductive Prog (α : Type) where
  | done (r : Except Err α)
  | call (op : Store.Op) (k : Answer → Prog α)

namespace Prog

def bind {α β : Type} : Prog α → (α → Prog β) → Prog β
  | .done (.ok a), f => f a
  | .done (.error e), _ => .done (.error e)
  | .call op k, f => .call op fun a => bind (k a) f

instance : Monad Prog where
  pure a := .done (.ok a)
  bind := bind

def raise {α : Type} (e : Err) : Prog α := .done (.error e)

/-- run against a store, all of it at one instant -/
def run {α σ : Type} (step : σ → Event → σ × Outcome) (now : Nat) : σ → Prog α → σ × Except Err α
  | s, .done r => (s, r)
  | s, .call op k =>
    match step s (now, op) with
    | (s', .ok a) => run step now s' (k a)
    | (s', .error e) => (s', .error (.py e))

end Prog

/-- an answer that is not of the kind the call gives: no store does this -/
def badAnswer {α : Type} : Prog α := .raise (.py .typeError)

/-- `store.storeAssociation(url, assoc)` -/
def putAssoc (url : Str) (a : Assoc) : Prog Unit := .call (.storeAssociation url a) fun _ => pure ()

/-- `store.getAssociation(url, handle)` -/
def fetchAssoc (url handle : Str) : Prog (Option Assoc) :=
  .call (.getAssociation url (some handle)) fun
    | .assoc r => pure r
    | _ => badAnswer

/-- `store.removeAssociation(url, handle)` -/
def dropAssoc (url handle : Str) : Prog Unit := .call (.removeAssociation url handle) fun _ => pure ()

/-! ## Surroundings -/

/-- Everything outside the server that stays the same: the granularity of the clock, HMAC, the two hash functions,
    the `cryptography` package, Unicode tables, and the registered namespace aliases. -/
structure World where
  clock : Clock
  mac : Mac
  sha1 : Bytes → Bytes
  sha256 : Bytes → Bytes
  lib : Lib
  uni : Url.Uni
  reg : Dict Str Str

/-- What one call draws from outside: the time, and random bytes, of any length asked for, for the secret and for the
    unique part of the handle. -/
structure Env where
  now : Nat
  secret : Nat → Bytes
  uniq : Bytes
  /-- salt of `mkNonce` -/
  salt : Str
  /-- private Diffie-Hellman key -/
  priv : Nat

def Env.seconds (E : Env) (W : World) : Int := W.clock.seconds E.now

/-! ## Requests -/

/-- openid/server/server.py:287-409, the three session classes -/
inductive Session where
  | plain
  | dh (sha256 : Bool) (d : DiffieHellman) (consumerPublicKey : Str)
  deriving DecidableEq, Repr

/-- openid/server/server.py:300, 334, 407 `session_type` -/
def Session.sessionType : Session → Str
  | .plain => t!"no-encryption"
  | .dh false _ _ => t!"DH-SHA1"
  | .dh true _ _ => t!"DH-SHA256"

/-- openid/server/server.py:301, 337, 409 `allowed_assoc_types` -/
def Session.allowedAssocTypes : Session → List Str
  | .plain => [t!"HMAC-SHA1", t!"HMAC-SHA256"]
  | .dh false _ _ => [t!"HMAC-SHA1"]
  | .dh true _ _ => [t!"HMAC-SHA256"]

/-- openid/server/server.py:181-284 `CheckAuthRequest` -/
structure CheckAuthRequest where
  message : Msg
  assocHandle : Str
  signed : Msg
  invalidateHandle : Option Str
  deriving DecidableEq, Repr

/-- openid/server/server.py:412-445 `AssociateRequest` -/
structure AssociateRequest where
  message : Msg
  session : Session
  assocType : Str
  deriving DecidableEq, Repr

/-- openid/server/server.py:546-639 `CheckIDRequest` -/
structure CheckIDRequest where
  message : Msg
  identity : Option Str
  claimedId : Option Str
  returnTo : Option Str
  trustRoot : Option Str
  assocHandle : Option Str
  opEndpoint : Option Str
  immediate : Bool
  deriving DecidableEq, Repr

/-- openid/server/server.py:617-622 -/
def CheckIDRequest.mode (r : CheckIDRequest) : Str :=
  if r.immediate then t!"checkid_immediate" else t!"checkid_setup"

inductive Request where
  | checkAuth (r : CheckAuthRequest)
  | associate (r : AssociateRequest)
  | checkId (r : CheckIDRequest)
  deriving DecidableEq, Repr

def Request.message : Request → Msg
  | .checkAuth r => r.message
  | .associate r => r.message
  | .checkId r => r.message

/-- the `mode` attribute: openid/server/server.py:199, 429, 617-622 -/
def Request.mode : Request → Str
  | .checkAuth _ => t!"check_authentication"
  | .associate _ => t!"associate"
  | .checkId r => r.mode

/-- the attribute `assoc_handle`, which associate requests do not have -/
def Request.assocHandle : Request → Except Err (Option Str)
  | .checkAuth r => .ok (some r.assocHandle)
  | .associate _ => .error (.py .attributeError)
  | .checkId r => .ok r.assocHandle

/-- openid/server/server.py:978-1015 `OpenIDResponse` -/
structure Response where
  request : Request
  fields : Msg
  deriving DecidableEq, Repr

/-- openid/server/server.py:1000-1006 `OpenIDResponse.__init__` -/
def Response.new (r : Request) : Except Err Response := do
  let f ← lift (Msg.new r.message.getOpenIDNamespace)
  return ⟨r, f⟩

/-- `fields.setArg(OPENID_NS, ...)` -/
def Response.set (r : Response) (key value : Str) : Except Err Response := do
  let f ← lift (r.fields.setArg .openid key value)
  return { r with fields := f }

/-- `fields.updateArgs(OPENID_NS, ...)` -/
def Response.update (r : Response) (kvs : Dict Str Str) : Except Err Response := do
  let f ← lift (r.fields.updateArgs .openid kvs)
  return { r with fields := f }

/-! ## Signatory -/

/-- openid/server/server.py:1157 `SECRET_LIFETIME` -/
def secretLifetime : Int := 14 * 24 * 60 * 60

/-- openid/server/server.py:1163-1164 -/
def normalKey : Str := t!"http://localhost/|normal"
def dumbKey : Str := t!"http://localhost/|dumb"

/-- openid/server/server.py:1268-1271, 1298-1301, 1319-1322 -/
def storeKey (dumb : Bool) : Str := if dumb then dumbKey else normalKey

/-- one digit of `'%x'` -/
def hexChar (d : Nat) : Char := if d < 10 then Char.ofNat (48 + d) else Char.ofNat (87 + d)

/-- `'%x' % n` -/
def hexText (n : Nat) : Str := (hexDigits n).map hexChar

/-- openid/server/server.py:1263: the text of a handle -/
def handleText (assocType : Str) (seconds : Int) (uniq : Bytes) : Str :=
  '{' :: assocType ++ t!"}{" ++ hexText seconds.toNat ++ t!"}{" ++ toBase64 uniq ++ t!"}"

/-- openid/server/server.py:1261-1266: the new association -/
def newAssociation (W : World) (E : Env) (assocType : Str) : Except Err Assoc := do
  let n ← lift (getSecretSize assocType)
  lift (Assoc.fromExpiresIn (E.seconds W) secretLifetime (handleText assocType (E.seconds W) E.uniq) (E.secret n)
    assocType)

/-- openid/server/server.py:1246-1273 `createAssociation` -/
def createAssociation (W : World) (E : Env) (dumb : Bool) (assocType : Str) : Prog Assoc :=
  match newAssociation W E assocType with
  | .error e => .raise e
  | .ok a => do
    putAssoc (storeKey dumb) a
    return a

/-- openid/server/server.py:1303-1309: an expired association is dropped, if asked to -/
def keepOrDrop (W : World) (E : Env) (key handle : Str) (check : Bool) : Option Assoc → Prog (Option Assoc)
  | none => pure none
  | some a =>
    if a.getExpiresIn (E.seconds W) ≤ 0 then
      if check then do
        dropAssoc key handle
        return none
      else pure (some a)
    else pure (some a)

/-- openid/server/server.py:1275-1309 `getAssociation` -/
def getAssociation (W : World) (E : Env) (handle : Str) (dumb : Bool) (check : Bool) : Prog (Option Assoc) := do
  let a ← fetchAssoc (storeKey dumb) handle
  keepOrDrop W E (storeKey dumb) handle check a

/-- openid/server/server.py:1311-1325 `invalidate` -/
def invalidate (handle : Str) (dumb : Bool) : Prog Unit := dropAssoc (storeKey dumb) handle

/-- openid/server/server.py:1191-1200: check the signature; a ValueError means no -/
def checkWith (W : World) (message : Msg) : Option Assoc → Prog Bool
  | none => pure false
  | some a =>
    match a.checkMessageSignature W.mac message with
    | .ok b => pure b
    | .error e => if e.isValueError then pure false else .raise (.py e)

/-- openid/server/server.py:1175-1200 `verify` -/
def verify (W : World) (E : Env) (handle : Str) (message : Msg) : Prog Bool := do
  let a ← getAssociation W E handle true true
  checkWith W message a

/-- openid/server/server.py:1240-1244: sign the fields; a KVFormError becomes an EncodingError -/
def signWith (W : World) (r : Response) (a : Assoc) : Except Err Response :=
  match a.signMessage W.mac r.fields with
  | .ok f => .ok { r with fields := f }
  | .error e => if e = .kvFormError then .error .encoding else .error (.py e)

/-- openid/server/server.py:1228-1235: the association named cannot be used, make a private one -/
def fallBack (W : World) (E : Env) (r : Response) (handle : Str) (old : Option Assoc) : Prog Response := do
  let r' ← Prog.done (r.set t!"invalidate_handle" handle)
  match old with
  | none => do
    let a ← createAssociation W E true t!"HMAC-SHA1"
    Prog.done (signWith W r' a)
  | some o => do
    invalidate handle false
    let a ← createAssociation W E true (if o.assocType = [] then t!"HMAC-SHA1" else o.assocType)
    Prog.done (signWith W r' a)

/-- openid/server/server.py:1226: whether the association found can be used -/
def signFound (W : World) (E : Env) (r : Response) (handle : Str) : Option Assoc → Prog Response
  | none => fallBack W E r handle none
  | some a =>
    if a.getExpiresIn (E.seconds W) ≤ 0 then fallBack W E r handle (some a)
    else .done (signWith W r a)

/-- openid/server/server.py:1202-1244 `sign` -/
def sign (W : World) (E : Env) (r : Response) : Prog Response :=
  match r.request.assocHandle with
  | .error e => .raise e
  | .ok none => do
    let a ← createAssociation W E true t!"HMAC-SHA1"
    .done (signWith W r a)
  | .ok (some []) => do
    let a ← createAssociation W E true t!"HMAC-SHA1"
    .done (signWith W r a)
  | .ok (some handle) => do
    let a ← getAssociation W E handle false false
    signFound W E r handle a

/-! ## check_authentication -/

/-- openid/server/server.py:222-247 `CheckAuthRequest.fromMessage` -/
def CheckAuthRequest.fromMessage (m : Msg) : Except Err CheckAuthRequest := do
  let handle ← lift (m.getArg .openid t!"assoc_handle")
  let sig ← lift (m.getArg .openid t!"sig")
  let inv ← lift (m.getArg .openid t!"invalidate_handle")
  match handle, sig with
  | some h, some _ => do
    let hasMode ← lift (m.hasKey .openid t!"mode")
    let signed ← if hasMode then lift (m.setArg .openid t!"mode" t!"id_res") else .ok m
    return ⟨m, h, signed, inv⟩
  | _, _ => throw (.protocol .missingField (some m))

/-- openid/server/server.py:270-274: is the other handle still good? -/
def CheckAuthRequest.reportHandle (W : World) (E : Env) (resp : Response) : Option Str → Prog Response
  | some (c :: h) => do
    let a ← getAssociation W E (c :: h) false true
    match a with
    | some _ => return resp
    | none => Prog.done (resp.set t!"invalidate_handle" (c :: h))
  | _ => pure resp

/-- openid/server/server.py:249-275 `CheckAuthRequest.answer` -/
def CheckAuthRequest.answer (W : World) (E : Env) (r : CheckAuthRequest) : Prog Response := do
  let valid ← verify W E r.assocHandle r.signed
  invalidate r.assocHandle true
  let resp ← Prog.done (Response.new (.checkAuth r))
  let resp ← Prog.done (resp.set t!"is_valid" (if valid then t!"true" else t!"false"))
  CheckAuthRequest.reportHandle W E resp r.invalidateHandle

/-! ## associate -/

/-- openid/server/server.py:381-384: the parameters given, or the default ones -/
def dhFor (W : World) (E : Env) (modulus gen : Option Str) : Except PyErr DiffieHellman :=
  if truthy modulus || truthy gen then DiffieHellman.new W.lib (modulus.getD []) (gen.getD []) E.priv
  else DiffieHellman.fromDefaults W.lib E.priv

/-- openid/server/server.py:386-391, and the constructor, 339-349: the key must be there and in base64 -/
def dhWith (sha256 : Bool) (m : Msg) (d : DiffieHellman) : Option Str → Except Err Session
  | none => .error (.protocol .noPublicKey (some m))
  | some k =>
    match Base64.decode k with
    | .error e => .error (.py e)
    | .ok _ => .ok (.dh sha256 d k)

/-- openid/server/server.py:357-391 `DiffieHellmanSHA1ServerSession.fromMessage` -/
def dhSession (W : World) (E : Env) (sha256 : Bool) (m : Msg) : Except Err Session := do
  let modulus ← lift (m.getArg .openid t!"dh_modulus")
  let gen ← lift (m.getArg .openid t!"dh_gen")
  if modulus.isNone && gen.isSome || gen.isNone && modulus.isSome then throw (.protocol .dhParameters (some m))
  else do
    let d ← lift (dhFor W E modulus gen)
    let pub ← lift (m.getArg .openid t!"dh_consumer_public")
    dhWith sha256 m d pub

/-- openid/server/server.py:431-435 `session_classes` and the `fromMessage` of each class; `none`: no such class -/
def sessionFor (W : World) (E : Env) (m : Msg) (sessionType : Str) : Option (Except Err Session) :=
  if sessionType = t!"no-encryption" then some (.ok .plain)
  else if sessionType = t!"DH-SHA1" then some (dhSession W E false m)
  else if sessionType = t!"DH-SHA256" then some (dhSession W E true m)
  else none

/-- openid/server/server.py:456-476: session and association type named by the request -/
def AssociateRequest.types (m : Msg) : Except Err (Str × Str) :=
  if m.isOpenID1 then do
    let s ← lift (m.getArg .openid t!"session_type")
    let a ← lift (m.getArg .openid t!"assoc_type")
    return (if truthy s then s.getD [] else t!"no-encryption", a.getD t!"HMAC-SHA1")
  else do
    let s ← lift (m.getArg (.uri OPENID2_NS) t!"session_type")
    match s with
    | none => throw (.protocol .noSessionType (some m))
    | some s => do
      let a ← lift (m.getArg (.uri OPENID2_NS) t!"assoc_type")
      match a with
      | none => throw (.protocol .noAssocType (some m))
      | some a => return (s, a)

/-- openid/server/server.py:484-488: a ValueError while the session is made is a protocol error -/
def sessionOrError (m : Msg) : Except Err Session → Except Err Session
  | .ok s => .ok s
  | .error (.py e) => if e.isValueError then .error (.protocol .badSession (some m)) else .error (.py e)
  | .error e => .error e

/-- openid/server/server.py:448-495 `AssociateRequest.fromMessage` -/
def AssociateRequest.fromMessage (W : World) (E : Env) (m : Msg) : Except Err AssociateRequest := do
  let (sessionType, assocType) ← AssociateRequest.types m
  match sessionFor W E m sessionType with
  | none => throw (.protocol .unknownSession (some m))
  | some r => do
    let s ← sessionOrError m r
    if s.allowedAssocTypes.contains assocType then return ⟨m, s, assocType⟩
    else throw (.protocol .sessionMismatch (some m))

/-- openid/server/server.py:307-308, 393-403 `answer` of the sessions -/
def Session.answer (W : World) (secret : Bytes) : Session → Except Err (Dict Str Str)
  | .plain => .ok [(t!"mac_key", toBase64 secret)]
  | .dh sha256 d k => do
    let mac ← lift (d.xorSecret W.lib k (toBase64 secret) (if sha256 then W.sha256 else W.sha1))
    let pub ← lift d.publicKey
    return [(t!"dh_server_public", pub), (t!"enc_mac_key", mac)]

/-- openid/server/server.py:497-522 `AssociateRequest.answer` -/
def AssociateRequest.answer (W : World) (E : Env) (r : AssociateRequest) (a : Assoc) : Except Err Response := do
  let resp ← Response.new (.associate r)
  let resp ← resp.update [(t!"expires_in", intToStr (a.getExpiresIn (E.seconds W))), (t!"assoc_type", r.assocType),
    (t!"assoc_handle", a.handle)]
  let kvs ← r.session.answer W a.secret
  let resp ← resp.update kvs
  if r.session.sessionType = t!"no-encryption" ∧ r.message.isOpenID1 then return resp
  else resp.set t!"session_type" r.session.sessionType

/-- `if value: setArg(key, value)` -/
def Response.setTruthy (r : Response) (key : Str) (value : Option Str) : Except Err Response :=
  if truthy value then r.set key (value.getD []) else .ok r

/-- openid/server/server.py:524-543 `answerUnsupported` -/
def AssociateRequest.answerUnsupported (r : AssociateRequest) (text : Str) (assocType sessionType : Option Str) :
    Except Err Response :=
  if r.message.isOpenID1 then .error (.protocol .unsupported (some r.message))
  else do
    let resp ← Response.new (.associate r)
    let resp ← resp.set t!"error_code" t!"unsupported-type"
    let resp ← resp.set t!"error" text
    let resp ← resp.setTruthy t!"assoc_type" assocType
    resp.setTruthy t!"session_type" sessionType

/-- openid/server/server.py:1612-1613; `%r` of a text without quotes or escapes -/
def unsupportedText (assocType sessionType : Str) : Str :=
  t!"Association type '" ++ assocType ++ t!"' is not supported with session type '" ++ sessionType ++ t!"'"

/-- openid/server/server.py:1599-1618 `openid_associate` -/
def openidAssociate (W : World) (E : Env) (negotiator : Negotiator) (r : AssociateRequest) : Prog Response :=
  if negotiator.isAllowed r.assocType r.session.sessionType then do
    let a ← createAssociation W E false r.assocType
    Prog.done (r.answer W E a)
  else
    .done (r.answerUnsupported (unsupportedText r.assocType r.session.sessionType)
      (negotiator.getAllowedType.map (·.1)) (negotiator.getAllowedType.map (·.2)))

/-! ## checkid_setup and checkid_immediate -/

/-- openid/server/server.py:707-721 `trustRootValid` -/
def CheckIDRequest.trustRootValid (W : World) (r : CheckIDRequest) : Except Err Bool :=
  match r.trustRoot with
  | none => .ok true
  | some [] => .ok true
  | some (c :: tr) =>
    match TrustRoot.parse W.uni (c :: tr) with
    | .error e => .error (.py e)
    | .ok none => .error (.protocol .malformedTrustRoot (some r.message))
    | .ok (some realm) =>
      match r.returnTo with
      | none => .ok true
      | some u => lift (TrustRoot.validateURL W.uni realm u)

/-- openid/server/server.py:594-606: the identifiers that must and must not be there -/
def checkIdentifiers (m : Msg) (arg : Option Msg) (identity claimedId : Option Str) : Except Err Unit :=
  if m.isOpenID1 then
    if identity.isNone then .error (.protocol .noIdentity arg) else .ok ()
  else if identity.isSome && claimedId.isNone then .error (.protocol .identityOnly arg)
  else if identity.isNone && claimedId.isSome then .error (.protocol .claimedOnly arg)
  else .ok ()

/-- openid/server/server.py:630-631 -/
def checkReturnTo (W : World) (arg : Option Msg) : Option Str → Except Err Unit
  | none => .ok ()
  | some u =>
    match TrustRoot.parse W.uni u with
    | .error e => .error (.py e)
    | .ok none => .error (.protocol .malformedReturnURL arg)
    | .ok (some _) => .ok ()

/-- openid/server/server.py:166-171 `OpenIDRequest.__init__` -/
def requestMessage : Option Msg → Except Err Msg
  | some m => .ok m
  | none => lift (Msg.new (some OPENID2_NS))

/-- openid/server/server.py:581-639 `CheckIDRequest.__init__` -/
def CheckIDRequest.new (W : World) (identity returnTo trustRoot : Option Str) (immediate : Bool)
    (assocHandle opEndpoint claimedId : Option Str) (message : Option Msg) : Except Err CheckIDRequest := do
  let m ← requestMessage message
  checkIdentifiers m message identity claimedId
  let r : CheckIDRequest := ⟨m, identity, claimedId, returnTo, orElse trustRoot returnTo, assocHandle, opEndpoint,
    immediate⟩
  if m.isOpenID2 && opEndpoint.isNone then throw (.py .valueError)
  else do
    checkReturnTo W message returnTo
    let ok ← r.trustRootValid W
    if ok then return r else throw (.protocol .untrustedReturnURL message)

/-- openid/server/server.py:641-697 `CheckIDRequest.fromMessage` -/
def CheckIDRequest.fromMessage (W : World) (m : Msg) (opEndpoint : Option Str) : Except Err CheckIDRequest := do
  let mode ← lift (m.getArg .openid t!"mode")
  if mode ≠ some t!"checkid_immediate" ∧ mode ≠ some t!"checkid_setup" then throw (.py .assertionError)
  else do
    let returnTo ← lift (m.getArg .openid t!"return_to")
    if m.isOpenID1 && !truthy returnTo then throw (.protocol .noReturnTo (some m))
    else do
      let identity ← lift (m.getArg .openid t!"identity")
      let claimedId ← lift (m.getArg .openid t!"claimed_id")
      let realm ← lift (m.getArg .openid (if m.isOpenID1 then t!"trust_root" else t!"realm"))
      let trustRoot := orElse realm returnTo
      if !m.isOpenID1 && (returnTo.isNone && trustRoot.isNone) then throw (.protocol .realmRequired (some m))
      else do
        let assocHandle ← lift (m.getArg .openid t!"assoc_handle")
        CheckIDRequest.new W identity returnTo trustRoot (mode = some t!"checkid_immediate") assocHandle opEndpoint
          claimedId (some m)

/-- openid/server/server.py:699-705 `idSelect` -/
def CheckIDRequest.idSelect (r : CheckIDRequest) : Bool := r.identity = some IDENTIFIER_SELECT

/-- openid/server/server.py:723-751 `returnToVerified`; the values are texts (`None` is not modelled) -/
def CheckIDRequest.returnToVerified (W : World) (disc : TrustRoot.Discover) (r : CheckIDRequest) : Except Err Bool :=
  lift (TrustRoot.verifyReturnTo W.uni disc (r.trustRoot.getD []) (r.returnTo.getD []))

/-- `Message.toURL(base)`; a base of `None` fails the assertion of `string_to_text`, openid/oidutil.py:79, 160 -/
def toURL (m : Msg) : Option Str → Except Err Str
  | none => .error (.py .assertionError)
  | some u => .ok (m.toURL u)

/-- openid/server/server.py:931-937: the trust root and handle of the request, when there are any -/
def CheckIDRequest.optionalArgs (r : CheckIDRequest) : Dict Str Str :=
  (if truthy r.trustRoot then
    [(if r.message.isOpenID1 then t!"trust_root" else t!"realm", r.trustRoot.getD [])] else []) ++
  (if truthy r.assocHandle then [(t!"assoc_handle", r.assocHandle.getD [])] else [])

/-- openid/server/server.py:910-942 `CheckIDRequest.encodeToURL`.  `setArg` refuses `None` (message.py:515). -/
def CheckIDRequest.encodeToURL (r : CheckIDRequest) (serverUrl : Option Str) : Except Err Str :=
  match r.returnTo with
  | none => .error .noReturnTo
  | some [] => .error .noReturnTo
  | some (c :: u) => do
    let m ← lift (Msg.new r.message.getOpenIDNamespace)
    let _ ← lift (m.fixNS .openid)
    match r.identity, r.claimedId with
    | some i, some k => do
      let m ← lift (m.updateArgs .openid ([(t!"mode", r.mode), (t!"identity", i), (t!"claimed_id", k),
        (t!"return_to", c :: u)] ++ r.optionalArgs))
      toURL m serverUrl
    | _, _ => throw (.py .assertionError)

/-- openid/server/server.py:944-968 `getCancelURL` -/
def CheckIDRequest.getCancelURL (r : CheckIDRequest) : Except Err Str :=
  if !truthy r.returnTo then .error .noReturnTo
  else if r.immediate then .error (.py .valueError)
  else do
    let m ← lift (Msg.new r.message.getOpenIDNamespace)
    let m ← lift (m.setArg .openid t!"mode" t!"cancel")
    toURL m r.returnTo

/-- openid/server/server.py:818-829 -/
def CheckIDRequest.answerMode (r : CheckIDRequest) (allow : Bool) : Str :=
  if allow then t!"id_res"
  else if r.message.isOpenID1 then if r.immediate then t!"id_res" else t!"cancel"
  else if r.immediate then t!"setup_needed" else t!"cancel"

/-- openid/server/server.py:848-855: the identity given is the one asked for, up to normalisation -/
def sameIdentity (W : World) (asked given : Str) : Except Err Unit :=
  if asked = given then .ok ()
  else do
    let a ← lift (Urinorm.urinorm W.uni asked)
    let b ← lift (Urinorm.urinorm W.uni given)
    if a ≠ b then throw (.py .valueError) else return ()

/-- openid/server/server.py:838-867: identity and claimed identifier of a positive answer -/
def CheckIDRequest.answerIdentity (W : World) (r : CheckIDRequest) (identity claimedId : Option Str) :
    Except Err (Option Str × Option Str) :=
  if r.identity = some IDENTIFIER_SELECT then
    if truthy identity then .ok (identity, orElse claimedId identity) else .error (.py .valueError)
  else if truthy r.identity then
    if truthy identity then do
      sameIdentity W (r.identity.getD []) (identity.getD [])
      return (r.identity, r.claimedId)
    else .ok (r.identity, r.claimedId)
  else if truthy identity then .error (.py .valueError)
  else .ok (none, none)

/-- openid/server/server.py:881-889: the fields after mode, return_to and response_nonce -/
def CheckIDRequest.putIdentity (r : CheckIDRequest) (resp : Response) (serverUrl identity claimedId : Option Str) :
    Except Err Response := do
  let resp ← resp.setTruthy t!"op_endpoint" serverUrl
  match identity with
  | none => return resp
  | some i => do
    let resp ← resp.set t!"identity" i
    if r.message.isOpenID2 then
      match claimedId with
      | some c => resp.set t!"claimed_id" c
      | none => throw (.py .assertionError)
    else return resp

/-- openid/server/server.py:838-889: the positive answer -/
def CheckIDRequest.answerYes (W : World) (E : Env) (r : CheckIDRequest) (resp : Response)
    (returnTo : Str) (serverUrl identity claimedId : Option Str) : Except Err Response := do
  let (i, c) ← r.answerIdentity W identity claimedId
  if r.message.isOpenID1 && i.isNone then throw (.py .valueError)
  else do
    let resp ← resp.update [(t!"mode", t!"id_res"), (t!"return_to", returnTo),
      (t!"response_nonce", Nonce.mkNonce (E.seconds W).toNat E.salt)]
    r.putIdentity resp serverUrl i c

/-- openid/server/server.py:891-906: the negative answer.  The new request is made without a message, so it is checked
    as an OpenID 2 request (line 597). -/
def CheckIDRequest.answerNo (W : World) (r : CheckIDRequest) (resp : Response) (serverUrl : Option Str) :
    Except Err Response := do
  let resp ← resp.set t!"mode" (r.answerMode false)
  if r.immediate then
    if r.message.isOpenID1 && !truthy serverUrl then throw (.py .valueError)
    else do
      let setup ← CheckIDRequest.new W r.identity r.returnTo r.trustRoot false r.assocHandle r.opEndpoint r.claimedId none
      let url ← { setup with message := r.message }.encodeToURL serverUrl
      resp.set t!"user_setup_url" url
  else return resp

/-- openid/server/server.py:806-816: where this server is -/
def CheckIDRequest.serverUrl (r : CheckIDRequest) (serverUrl : Option Str) : Except Err (Option Str) :=
  if truthy serverUrl then .ok serverUrl
  else if !r.message.isOpenID1 && !truthy r.opEndpoint then .error (.py .runtimeError)
  else .ok r.opEndpoint

/-- openid/server/server.py:753-908 `CheckIDRequest.answer` -/
def CheckIDRequest.answer (W : World) (E : Env) (r : CheckIDRequest) (allow : Bool)
    (serverUrl identity claimedId : Option Str) : Except Err Response :=
  match r.returnTo with
  | none => .error .noReturnTo
  | some [] => .error .noReturnTo
  | some (ch :: u) => do
    let server ← r.serverUrl serverUrl
    let resp ← Response.new (.checkId r)
    if truthy claimedId && r.message.isOpenID1 then throw .version
    else if allow then r.answerYes W E resp (ch :: u) server identity claimedId
    else r.answerNo W resp server

/-! ## Encoding -/

inductive Encoding where
  | kvform | url | htmlForm
  deriving DecidableEq, Repr

/-- openid/server/server.py:1114-1141 `WebResponse`; `location` is the only header used -/
structure WebResponse where
  code : Nat
  location : Option Str
  body : Str
  deriving DecidableEq, Repr

/-- openid/server/server.py:146 `BROWSER_REQUEST_MODES` -/
def browserModes : List Str := [t!"checkid_setup", t!"checkid_immediate"]

/-- openid/server/server.py:1051-1056 `needsSigning` -/
def Response.needsSigning (r : Response) : Except Err Bool := do
  let m ← lift (r.fields.getArg .openid t!"mode")
  return m = some t!"id_res"

/-- the attribute `request.return_to`, which only checkid requests have -/
def Request.returnTo : Request → Except Err (Option Str)
  | .checkId r => .ok r.returnTo
  | _ => .error (.py .attributeError)

/-- openid/server/server.py:1077-1085 `OpenIDResponse.encodeToURL` -/
def Response.encodeToURL (r : Response) : Except Err Str := do
  let u ← r.request.returnTo
  toURL r.fields u

/-- openid/server/server.py:1060-1074 `OpenIDResponse.whichEncoding` -/
def Response.whichEncoding (r : Response) : Except Err Encoding :=
  if browserModes.contains r.request.mode then
    if r.fields.isOpenID2 then do
      let u ← r.encodeToURL
      return if u.length > OPENID1_URL_LIMIT then .htmlForm else .url
    else .ok .url
  else .ok .kvform

/-- `Message.toFormMarkup(action)`; an action of `None` fails its assertion (openid/message.py:358) -/
def formMarkup (okName : Str → Bool) (m : Msg) (attrs : Dict Str Str) : Option Str → Except Err Str
  | none => .error (.py .assertionError)
  | some u => lift (Form.toFormMarkup okName m u attrs Form.defaultSubmit)

/-- openid/server/server.py:1014-1027 `OpenIDResponse.toFormMarkup` -/
def Response.toFormMarkup (okName : Str → Bool) (r : Response) (attrs : Dict Str Str) : Except Err Str := do
  let u ← r.request.returnTo
  formMarkup okName r.fields attrs u

/-- openid/server/server.py:1029-1039 `OpenIDResponse.toHTML` -/
def Response.toHTML (okName : Str → Bool) (r : Response) (attrs : Dict Str Str) : Except Err Str := do
  let f ← r.toFormMarkup okName attrs
  return Form.autoSubmitHTML f Form.defaultTitle

/-- openid/server/server.py:1041-1049 `renderAsForm` -/
def Response.renderAsForm (r : Response) : Except Err Bool := do
  let e ← r.whichEncoding
  return e = .htmlForm

/-- no attributes are added to a form where the code makes the page itself -/
def noNames : Str → Bool := fun _ => false

/-- openid/server/server.py:1339-1361 `Encoder.encode` for a response -/
def encode (r : Response) : Except Err WebResponse := do
  let e ← r.whichEncoding
  match e with
  | .kvform => do
    let kv ← lift r.fields.toKVForm
    return ⟨200, none, kv⟩
  | .url => do
    let u ← r.encodeToURL
    return ⟨302, some u, []⟩
  | .htmlForm => do
    let page ← r.toHTML noNames []
    return ⟨200, none, page⟩

/-- openid/server/server.py:1376-1396 `SigningEncoder.encode` for a response.  The signatory is there (the server makes
    one, line 1541). -/
def signingEncode (W : World) (E : Env) (r : Response) : Prog WebResponse :=
  match r.needsSigning with
  | .error e => .raise e
  | .ok false => .done (encode r)
  | .ok true =>
    match r.fields.hasKey .openid t!"sig" with
    | .error e => .raise (.py e)
    | .ok true => .raise .alreadySigned
    | .ok false => do
      let signed ← sign W E r
      Prog.done (encode signed)

/-- openid/server/server.py:1654-1677 a `ProtocolError` and its attributes; `text` is `six.text_type(self)` -/
structure ProtocolError where
  message : Option Msg
  text : Str
  contact : Option Str
  reference : Option Str
  deriving DecidableEq, Repr

/-- openid/server/server.py:1679-1687 `getReturnTo` -/
def ProtocolError.getReturnTo (p : ProtocolError) : Except Err (Option Str) :=
  match p.message with
  | none => .ok none
  | some m => lift (m.getArg .openid t!"return_to")

/-- `if value is not None: setArg(key, value)` -/
def setSome (m : Msg) (key : Str) : Option Str → Except Err Msg
  | none => .ok m
  | some v => lift (m.setArg .openid key v)

/-- openid/server/server.py:1696-1711 `toMessage`; an AttributeError when there is no message -/
def ProtocolError.toMessage (p : ProtocolError) : Except Err Msg :=
  match p.message with
  | none => .error (.py .attributeError)
  | some m => do
    let r ← lift (Msg.new m.getOpenIDNamespace)
    let r ← lift (r.setArg .openid t!"mode" t!"error")
    let r ← lift (r.setArg .openid t!"error" p.text)
    let r ← setSome r t!"contact" p.contact
    setSome r t!"reference" p.reference

/-- openid/server/server.py:1715-1716 `encodeToURL` -/
def ProtocolError.encodeToURL (p : ProtocolError) : Except Err Str := do
  let m ← p.toMessage
  let u ← p.getReturnTo
  toURL m u

/-- openid/server/server.py:1751-1770: there is no return_to -/
def ProtocolError.whichDirect (p : ProtocolError) : Except Err (Option Encoding) :=
  match p.message with
  | none => .ok none
  | some m => do
    let mode ← lift (m.getArg .openid t!"mode")
    return if truthy mode && !browserModes.contains (mode.getD []) then some .kvform else none

/-- openid/server/server.py:1736-1770 `whichEncoding` -/
def ProtocolError.whichEncoding (p : ProtocolError) : Except Err (Option Encoding) := do
  let u ← p.getReturnTo
  match u, p.message with
  | some _, some m =>
    if m.isOpenID2 then do
      let url ← p.encodeToURL
      return if url.length > OPENID1_URL_LIMIT then some .htmlForm else some .url
    else return some .url
  | _, _ => p.whichDirect

/-- openid/server/server.py:1721-1726 `ProtocolError.toFormMarkup` -/
def ProtocolError.toFormMarkup (p : ProtocolError) : Except Err Str := do
  let m ← p.toMessage
  let u ← p.getReturnTo
  formMarkup noNames m [] u

/-- openid/server/server.py:1728-1734 `ProtocolError.toHTML` -/
def ProtocolError.toHTML (p : ProtocolError) : Except Err Str := do
  let f ← p.toFormMarkup
  return Form.autoSubmitHTML f Form.defaultTitle

/-- openid/server/server.py:1339-1361 `Encoder.encode` for a protocol error (the signing encoder leaves it alone,
    line 1388) -/
def encodeError (p : ProtocolError) : Except Err WebResponse := do
  let e ← p.whichEncoding
  match e with
  | none => throw .encoding
  | some .kvform => do
    let m ← p.toMessage
    let kv ← lift m.toKVForm
    return ⟨400, none, kv⟩
  | some .url => do
    let u ← p.encodeToURL
    return ⟨302, some u, []⟩
  | some .htmlForm => do
    let page ← p.toHTML
    return ⟨200, none, page⟩

/-! ## Decoding -/

/-- openid/server/server.py:1437-1453: the message in the query -/
def decodeMessage (W : World) (query : Dict Str Str) : Except Err Msg :=
  match fromPostArgs W.reg query with
  | .ok m => .ok m
  | .error .invalidOpenIDNamespace => do
    let m ← lift (fromPostArgs W.reg (query.set t!"openid.ns" OPENID2_NS))
    throw (.protocol .badOpenIDNamespace (some m))
  | .error .invalidNamespace => do
    let m ← lift (fromPostArgs W.reg (query.filter fun p => p.1.count '.' < 2))
    throw (.protocol .badNamespace (some m))
  | .error e => .error (.py e)

/-- openid/server/server.py:1403-1408 `_handlers`, 1463-1471 `defaultDecoder` -/
def dispatch (W : World) (E : Env) (opEndpoint : Option Str) (m : Msg) (mode : Str) : Except Err Request :=
  if mode = t!"checkid_setup" ∨ mode = t!"checkid_immediate" then
    (CheckIDRequest.fromMessage W m opEndpoint).map .checkId
  else if mode = t!"check_authentication" then (CheckAuthRequest.fromMessage m).map .checkAuth
  else if mode = t!"associate" then (AssociateRequest.fromMessage W E m).map .associate
  else .error (.protocol .unknownMode (some m))

/-- openid/server/server.py:1419-1461 `Decoder.decode` -/
def decode (W : World) (E : Env) (opEndpoint : Option Str) (query : Dict Str Str) : Except Err (Option Request) :=
  if query = [] then .ok none
  else do
    let m ← decodeMessage W query
    let mode ← lift (m.getArg .openid t!"mode")
    match mode with
    | none => throw (.protocol .noMode (some m))
    | some [] => throw (.protocol .noMode (some m))
    | some (c :: r) => do
      let q ← dispatch W E opEndpoint m (c :: r)
      return some q

/-! ## Server -/

/-- openid/server/server.py:1571-1590 `handleRequest`, `openid_check_authentication` -/
def handleRequest (W : World) (E : Env) (negotiator : Negotiator) : Request → Prog Response
  | .checkAuth r => r.answer W E
  | .associate r => openidAssociate W E negotiator r
  | .checkId _ => .raise .notImplemented

end Server
