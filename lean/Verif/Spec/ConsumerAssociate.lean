import Verif.Spec.Consumer
/-! # What a consumer may ask for and accept when it makes an association -/

namespace Spec
open Py Message Association Cryptutil Store Discover Consumer

/-- The body of a request gives the public key of `d`, for the default modulus and generator. -/
def Keyed (W : World) (body : Str) (d : DH.DiffieHellman) : Prop :=
  ∃ args priv pub, Dict.WF args ∧ body = Percent.urlencode args ∧ DH.DiffieHellman.fromDefaults W.lib priv = .ok d ∧
    d.publicKey = .ok pub ∧ arg args t!"dh_consumer_public" = some pub ∧ arg args t!"dh_modulus" = none ∧
    arg args t!"dh_gen" = none

/-- The body of a request: an OpenID association request for the two types, with nothing else but the public key if there is
    to be encryption.  In
    OpenID 1 the version is not declared, and the session without encryption is asked for by leaving the session type
    out. -/
structure AsksFor (W : World) (e : Endpoint) (body assocType sessionType : Str) : Prop where
  sent : ∃ args, Dict.WF args ∧ body = Percent.urlencode args ∧ arg args t!"mode" = some t!"associate" ∧
    arg args t!"assoc_type" = some assocType ∧
    (if e.compatibilityMode = true ∧ sessionType = t!"no-encryption" then arg args t!"session_type" = none
     else arg args t!"session_type" = some sessionType) ∧
    arg args t!"ns" = (if e.compatibilityMode = true then none else some t!"http://specs.openid.net/auth/2.0") ∧
    ∀ name v, (name, v) ∈ args → name ∈ [t!"openid.ns", t!"openid.mode", t!"openid.assoc_type", t!"openid.session_type",
      t!"openid.dh_consumer_public"]
  known : sessionType ∈ [t!"DH-SHA256", t!"DH-SHA1", t!"no-encryption"]
  keyed : sessionType ≠ t!"no-encryption" → ∃ d, Keyed W body d

/-- the association types that go with a session type -/
def assocTypesOf (sessionType : Str) : List Str :=
  if sessionType = t!"DH-SHA1" then [t!"HMAC-SHA1"]
  else if sessionType = t!"DH-SHA256" then [t!"HMAC-SHA256"]
  else if sessionType = t!"no-encryption" then [t!"HMAC-SHA1", t!"HMAC-SHA256"]
  else []

/-- A reply in key-value form that grants the association `a`, asked for with the given session type: the reply names the
    session type that was asked for, or is an OpenID 1 reply without encryption; the association type goes with it; and the
    secret is given in the clear, or comes out of the Diffie-Hellman exchange with the key in the body of the request.
    (The second namespace of OpenID 1 is a case of its own: the code looks for the session type in the first one.) -/
def Granted (W : World) (E : Env) (sessionType body : Str) (o : Except PyErr Http) (a : Assoc) : Prop :=
  ∃ r text d expires used, o = .ok r ∧ (r.status = 200 ∨ r.status = 206) ∧ Utf8.decode r.body = .ok text ∧
    KVForm.kvToDict text = .ok d ∧ d.get? t!"assoc_handle" = some a.handle ∧ d.get? t!"assoc_type" = some a.assocType ∧
    d.get? t!"expires_in" = some expires ∧ parseInt W.digits expires = .ok a.lifetime ∧ a.issued = E.seconds W ∧
    (used = sessionType ∧ (d.get? t!"session_type" = some used ∨ d.get? t!"ns" = some t!"http://openid.net/signon/1.1") ∨
     used = t!"no-encryption" ∧ ∀ u, d.get? t!"ns" = some u →
       u = t!"http://openid.net/signon/1.0" ∨ u = t!"http://openid.net/signon/1.1") ∧
    a.assocType ∈ assocTypesOf used ∧
    (used = t!"no-encryption" → ∃ key, d.get? t!"mac_key" = some key ∧ fromBase64 key = .ok a.secret) ∧
    (used ≠ t!"no-encryption" → ∃ dh pub enc, Keyed W body dh ∧ d.get? t!"dh_server_public" = some pub ∧
      d.get? t!"enc_mac_key" = some enc ∧
      dh.xorSecret W.lib pub enc (if used = t!"DH-SHA256" then W.sha256 else W.sha1) = .ok (toBase64 a.secret))

def isPost : Ev → Bool
  | .post _ _ _ => true
  | _ => false

def isStored : Ev → Bool
  | .store (.storeAssociation _ _) _ => true
  | _ => false

/-- What a consumer does to get an association for a request to the endpoint: at most two requests, each to that endpoint
    and for a pair its negotiator allows; and at most one association is stored, granted by the reply to one of them. -/
structure Negotiated (W : World) (C : Conf) (E : Env) (e : Endpoint) (evs : List Ev) : Prop where
  posts : (evs.filter isPost).length ≤ 2
  asked : ∀ url body o, .post url body o ∈ evs → url = e.serverUrl ∧ ∃ p ∈ C.negotiator, AsksFor W e body p.1 p.2
  stores : (evs.filter isStored).length ≤ 1
  stored : ∀ url a x, .store (.storeAssociation url a) x ∈ evs → url = e.serverUrl ∧
    ∃ body o, ∃ p ∈ C.negotiator, .post e.serverUrl body o ∈ evs ∧ AsksFor W e body p.1 p.2 ∧ Granted W E p.2 body o a

end Spec
