import Verif.Spec.Serve
import Verif.Spec.Associate
import Verif.Spec.Unfinished
/-! # A relying party, a provider and the web between them -/

namespace Spec
open Py Message Association Cryptutil Store Discover Consumer Server

/-- What a relying party needs of its store, beyond `Faithful`: without a handle it is given an association it holds, if
    any; and a nonce of the right time that was not used is accepted.  `used` is which nonces were.  A store may be unable to
    say which of a server's associations is the latest; `ranked` is when it can: it always can if there was no good one and
    then one was stored, and it loses that ability only when another is stored. -/
structure Keeps {σ : Type} (c : Clock) (step : σ → Event → σ × Outcome) (view : σ → AssocMap)
    (used : σ → Str → Int → Str → Prop) (ranked : σ → Str → Prop) : Prop where
  holds : Faithful c step view
  latest : ∀ s now url, ranked s url →
    Fades (c.seconds now) (view s) (view (step s (now, .getAssociation url none)).1) ∧
    ∃ r, (step s (now, .getAssociation url none)).2 = .ok (.assoc r) ∧ ∀ a, r = some a → ∃ h, view s url h = some a
  only : ∀ s now url r a, (step s (now, .getAssociation url none)).2 = .ok (.assoc r) →
    (∀ b, r = some b → expired (c.seconds now) b) → Usual (.storeAssociation url a) →
    ranked (step (step s (now, .getAssociation url none)).1 (now, .storeAssociation url a)).1 url
  stays : ∀ s e url, (∀ a, e.2 ≠ .storeAssociation url a) → ranked s url → ranked (step s e).1 url
  fresh : ∀ s now url t salt, c.within 18000 now t → ¬ used s url t salt →
    (step s (now, .useNonce url t salt)).2 = .ok (.bool true)
  others : ∀ s e url t salt, used (step s e).1 url t salt → used s url t salt ∨ e.2 = .useNonce url t salt

/-- A call of the relying party, made against its store, the web (`serve`, which may change with every request) and
    discovery: the store and the web after it, and what it returns or raises. -/
def live {σ τ α : Type} (step : σ → Event → σ × Outcome) (now : Nat) (serve : τ → Str → Str → τ × Except PyErr Http)
    (disc : Str → Except PyErr (Str × List Endpoint)) : Consumer.Prog α → σ → τ → (σ × τ) × Except Consumer.Err α
  | .done r, s, t => ((s, t), r)
  | .store op k, s, t => live step now serve disc (k (step s (now, op)).2) (step s (now, op)).1 t
  | .post url body k, s, t => live step now serve disc (k (serve t url body).2) s (serve t url body).1
  | .discover id k, s, t => live step now serve disc (k (disc id)) s t

/-- a page as an HTTP response; `pages` is what those look like that the library does not make -/
def asHttp (pages : Except Server.Err Server.Page → Except PyErr Http) : Except Server.Err Server.Page → Except PyErr Http
  | .ok (.web ⟨code, none, body⟩) => .ok ⟨code, Utf8.encode body⟩
  | o => pages o

/-- A web with the endpoint of a provider at one address; `elsewhere` is the rest of it. -/
def webOf {τ : Type} (V : Server.World) (E : Server.Env) (n : Negotiator) (text : Reason → Option Msg → Str) (url : Str)
    (step : τ → Event → τ × Outcome) (pages : Except Server.Err Server.Page → Except PyErr Http)
    (elsewhere : Str → Str → Except PyErr Http) (t : τ) (u body : Str) : τ × Except PyErr Http :=
  if u = url then
    let x := Server.Prog.run step E.now t
      (serverEndPoint V E (some url) n text (Dict.ofPairs (Percent.parseQsl true body)))
    (x.1, asHttp pages x.2)
  else (t, elsewhere u body)

/-- What may change in a store at the time `now`: associations that are over may go, and those that are `lost`; and what is
    there afterwards was there before or is `new`. -/
structure Changes (now : Int) (lost : Str → Str → Prop) (new : Str → Str → Assoc → Prop) (before after : AssocMap) : Prop where
  keeps : ∀ u h a, before u h = some a → after u h = some a ∨ expired now a ∨ lost u h
  adds : ∀ u h a, after u h = some a → before u h = some a ∨ new u h a

/-- an association that a provider's call made, and stored under `key` -/
def MadeBy (V : Server.World) (E : Server.Env) (key u h : Str) (a : Assoc) : Prop := u = key ∧ Makes V E a ∧ h = a.handle

/-- The relying party and the provider agree on what they have: what the relying party holds for this provider is usable, and
    if the provider has one of the same handle, that is the same association. -/
def InStep (url : Str) (held issued : AssocMap) : Prop :=
  ∀ h a, held url h = some a → a.handle = h ∧ Plain h ∧ strip h = h ∧
    (a.assocType = t!"HMAC-SHA1" ∨ a.assocType = t!"HMAC-SHA256") ∧
    ∀ b, issued t!"http://localhost/|normal" h = some b → SameAssociation a b

/-- The two sides can make associations with each other: the kind that the relying party asks for first is one the provider
    makes; the Diffie-Hellman implementation takes the default parameters and the public keys; random bytes and digests
    have the lengths they should have. -/
structure CanAssociate (W : Consumer.World) (V : Server.World) (C : Conf) (n : Negotiator) (E : Consumer.Env)
    (E' : Server.Env) : Prop where
  crypto : SameCrypto V W
  kind : ∃ assocType sessionType rest, C.negotiator = (assocType, sessionType) :: rest ∧ Permits n assocType sessionType
  params : ∀ p g, base64ToLong DH.defaultModulus = .ok p → base64ToLong DH.defaultGenerator = .ok g → W.lib.okParams p g = true
  keys : Exchanges W.lib E'.priv E.priv1
  sized : Sized V E'

/-- While the user was with the provider, which answered at `Es`, nothing was lost that the answer needs, and not too much
    time went by.  The relying party holds `held` at `E2`; the provider held `before` when it had answered, and holds `after`
    when it is asked about the answer, at `E3`.  The association that the relying party chose (`chosen`) it still has, and it
    is still good; the handle that the provider gave to its private association is not one of the relying party's; the
    provider still has that association, and it has not brought one back that it no longer had. -/
structure Undisturbed (W : Consumer.World) (V : Server.World) (url : Str) (chosen : Option Assoc) (Es E3 : Server.Env)
    (E2 : Consumer.Env) (held before after : AssocMap) : Prop where
  still : ∀ a, chosen = some a → held url a.handle = some a ∧ ¬ expired (E2.seconds W) a
  apart : ∀ b, Makes V Es b → held url b.handle = none
  secret : ∀ h b, Makes V Es b → before t!"http://localhost/|dumb" h = some b → after t!"http://localhost/|dumb" h = some b
  gone : ∀ a b, chosen = some a → after t!"http://localhost/|normal" a.handle = some b →
    before t!"http://localhost/|normal" a.handle = some b
  soon : Es.seconds V ≤ E3.seconds V ∧ E3.seconds V < Es.seconds V + 1209600

/-- The nonce of an answer, which the relying party made itself in OpenID 1: it is recent, and was not used. -/
def Unused {σ : Type} (W : Consumer.World) (V : Server.World) (used : σ → Str → Int → Str → Prop) (e : Endpoint)
    (E0 : Consumer.Env) (Es : Server.Env) (E2 : Consumer.Env) (s : σ) : Prop :=
  if versionOf e = t!"http://openid.net/signon/1.0" then
    W.clock.within 18000 E2.now (E0.now / W.clock.tick : Nat) ∧ ¬ used s [] (E0.now / W.clock.tick : Nat) E0.salt
  else
    W.clock.within 18000 E2.now (V.clock.seconds Es.now).toNat ∧
      ¬ used s e.serverUrl (V.clock.seconds Es.now).toNat Es.salt

/-- the nonce of that answer -/
def IsNonce (W : Consumer.World) (V : Server.World) (e : Endpoint) (E0 : Consumer.Env) (Es : Server.Env) (url : Str) (t : Int)
    (salt : Str) : Prop :=
  if versionOf e = t!"http://openid.net/signon/1.0" then
    url = [] ∧ t = (E0.now / W.clock.tick : Nat) ∧ salt = E0.salt
  else url = e.serverUrl ∧ t = (V.clock.seconds Es.now).toNat ∧ salt = Es.salt

end Spec
