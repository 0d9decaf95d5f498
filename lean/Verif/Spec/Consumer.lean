import Verif.Model.Consumer
import Verif.Spec.ServerAssociate
/-! # What a completed authentication must have checked -/

namespace Spec
open Py Message Association Cryptutil Store Discover Consumer

/-- the fields a positive assertion must have, all of the form `openid.<name>` -/
def neededFields (v1 : Bool) : List Str :=
  [t!"return_to", t!"assoc_handle", t!"sig", t!"signed"] ++ if v1 then [t!"identity"] else [t!"op_endpoint"]

/-- the fields that must be signed, where they are present -/
def neededSigned (v1 : Bool) : List Str :=
  [t!"return_to", t!"identity"] ++
    if v1 then [] else [t!"response_nonce", t!"claimed_id", t!"assoc_handle", t!"op_endpoint"]

/-- The current URL is the one to return to: scheme, authority and path are the same once normalised; the arguments of
    `return_to` arrived with their values, and no argument arrived outside OpenID that is not among them. -/
structure ReturnedTo (W : World) (q : Dict Str Str) (m : Msg) (current returnTo : Str) : Prop where
  base : ∃ a b x y, Urinorm.urinorm W.uni current = .ok a ∧ Urinorm.urinorm W.uni returnTo = .ok b ∧
    Url.urlparse W.uni a = .ok x ∧ Url.urlparse W.uni b = .ok y ∧
    x.scheme = y.scheme ∧ x.netloc = y.netloc ∧ x.path = y.path
  args : ∃ u, Url.urlparse W.uni returnTo = .ok u ∧
    (∀ k v, (k, v) ∈ Percent.parseQsl true u.query →
      m.toPostArgs.get? k = some v ∧ (startsWith k t!"openid." = false → q.get? k = some v)) ∧
    (∀ k v, q.get? k = some v → startsWith k t!"openid." = false → (k, v) ∈ Percent.parseQsl true u.query)

/-- the identifier an endpoint knows the user by: the local one, else the canonical one; if it has neither, the claimed
    one -/
def localIdentifier (d : Endpoint) : Option Str :=
  if d.localId = none ∧ d.canonicalID = none then d.claimedId else (given d.localId).or d.canonicalID

/-- What discovery found agrees with the assertion: a type of the right version, the claimed identifier up to its
    fragment, and the identity. -/
structure Agrees (W : World) (types : List Str) (d : Endpoint) (claimed identity : Str) : Prop where
  type : ∃ t ∈ types, t ∈ d.typeUris
  claimed : ∃ base fragment, Url.urldefrag W.uni claimed = .ok (base, fragment) ∧ d.claimedId = some base
  identity : localIdentifier d = given (some identity)

/-- The endpoint is the one the session kept from `begin`, or discovery on the claimed identifier found it during the
    call. -/
def Discovered (session : Option Endpoint) (evs : List Ev) (claimed : Str) (d : Endpoint) : Prop :=
  session = some d ∨ ∃ url found, .discover claimed (.ok (url, found)) ∈ evs ∧ d ∈ found

/-- The claimed identifier of an OpenID 1 assertion: the one carried in `return_to`, or else the session's. -/
def claimedIn (session : Option Endpoint) (q : Dict Str Str) : Option Str :=
  (q.get? t!"openid1_claimed_id").or (session.bind (·.claimedId))

/-- The assertion is about what was discovered.  `endpoint` is what the application is told. -/
def Confirmed (W : World) (session : Option Endpoint) (q : Dict Str Str) (evs : List Ev) (endpoint : Endpoint) : Prop :=
  if IsV1 q then
    ∃ claimed identity, claimedIn session q = some claimed ∧ arg q t!"identity" = some identity ∧
      Discovered session evs claimed endpoint ∧
      Agrees W [t!"http://openid.net/signon/1.1", t!"http://openid.net/signon/1.0"] endpoint claimed identity
  else
    (∃ claimed identity d, arg q t!"claimed_id" = some claimed ∧ arg q t!"identity" = some identity ∧
      arg q t!"op_endpoint" = some d.serverUrl ∧ Discovered session evs claimed d ∧
      Agrees W [t!"http://specs.openid.net/auth/2.0/signon"] d claimed identity ∧
      endpoint = { d with claimedId := some claimed }) ∨
    (∃ server, arg q t!"claimed_id" = none ∧ arg q t!"identity" = none ∧ arg q t!"op_endpoint" = some server ∧
      endpoint = ⟨none, server, [t!"http://specs.openid.net/auth/2.0/server"], none, none, false, none⟩)

/-- The field `sig` is the MAC, under the secret of the association, of the fields listed in `signed`. -/
def SignedWith (H : Mac) (a : Assoc) (q : Dict Str Str) (m : Msg) : Prop :=
  ∃ sig signed kv, arg q t!"sig" = some sig ∧ arg q t!"signed" = some signed ∧
    KVForm.seqToKV false ((splitOn ',' signed).map fun f => (f, (m.toPostArgs.get? (t!"openid." ++ f)).getD [])) = .ok kv ∧
    sig = toBase64 (H a.assocType a.secret (Utf8.encode kv))

/-- a reply in key-value form, with an HTTP status that is not an error -/
def RepliedWith (o : Except PyErr Http) (key value : Str) : Prop :=
  ∃ r text d, o = .ok r ∧ (r.status = 200 ∨ r.status = 206) ∧ Utf8.decode r.body = .ok text ∧
    KVForm.kvToDict text = .ok d ∧ d.get? key = some value

/-- The signature was checked: with an association from the store that has not expired; or by asking the provider, which is
    only done if every field that is said to be signed is there.  (Fields of extensions, with a dot in their name, are left
    out here; `ns` may be left out by the sender.) -/
def SignatureChecked (W : World) (C : Conf) (E : Env) (q : Dict Str Str) (m : Msg) (server : Str) (evs : List Ev) : Prop :=
  (C.hasStore = true ∧ ∃ handle a, arg q t!"assoc_handle" = some handle ∧
    .store (.getAssociation server (some handle)) (.ok (.assoc (some a))) ∈ evs ∧
    ¬ expired (E.seconds W) a ∧ SignedWith W.mac a q m) ∨
  (∃ ask o, m.setArg .openid t!"mode" t!"check_authentication" = .ok ask ∧
    .post server ask.toURLEncoded o ∈ evs ∧ RepliedWith o t!"is_valid" t!"true" ∧
    ∀ l, arg q t!"signed" = some l → ∀ f ∈ splitOn ',' l, f ≠ [] → '.' ∉ f → f ≠ t!"ns" → ∃ v, arg q f = some v)

/-- The nonce of an assertion and the server it belongs to: of the provider in OpenID 2, the consumer's own in OpenID 1. -/
def nonceIn (q : Dict Str Str) (server : Str) : Option Str × Str :=
  if IsV1 q then (q.get? t!"janrain_nonce", []) else (arg q t!"response_nonce", server)

/-- The nonce is well formed, and the store (if there is one) had not seen it. -/
def NonceFresh (W : World) (C : Conf) (q : Dict Str Str) (server : Str) (evs : List Ev) : Prop :=
  ∃ nonce timestamp salt, (nonceIn q server).1 = some nonce ∧ Nonce.split W.digits nonce = .ok (timestamp, salt) ∧
    (C.hasStore = true → .store (.useNonce (nonceIn q server).2 timestamp salt) (.ok (.bool true)) ∈ evs)

/-- Everything a successful completion has checked. -/
structure Verified (W : World) (C : Conf) (E : Env) (session : Option Endpoint) (q : Dict Str Str) (current : Str)
    (evs : List Ev) (endpoint : Endpoint) (m : Msg) (signedFields : List Str) : Prop where
  message : fromPostArgs W.reg q = .ok m
  mode : arg q t!"mode" = some t!"id_res"
  fields : ∀ f ∈ neededFields (decide (IsV1 q)), ∃ v, arg q f = some v
  signed : ∃ l, arg q t!"signed" = some l ∧ signedFields = (splitOn ',' l).map (t!"openid." ++ ·) ∧
    ∀ f ∈ neededSigned (decide (IsV1 q)), ∀ v, arg q f = some v → f ∈ splitOn ',' l
  returnTo : ∃ rt, arg q t!"return_to" = some rt ∧ ReturnedTo W q m current rt
  discovery : Confirmed W session q evs endpoint
  signature : SignatureChecked W C E q m endpoint.serverUrl evs
  nonce : NonceFresh W C q endpoint.serverUrl evs

/-- What the application is told where the response makes no assertion. -/
def told (session : Option Endpoint) (q : Dict Str Str) : Response :=
  if arg q t!"mode" = some t!"cancel" then .cancel session
  else if arg q t!"mode" = some t!"error" then
    .failure session (some (arg q t!"error", arg q t!"contact", arg q t!"reference"))
  else if arg q t!"mode" = some t!"setup_needed" ∧ ¬ IsV1 q then .setupNeeded session (arg q t!"user_setup_url")
  else .failure session none

end Spec
