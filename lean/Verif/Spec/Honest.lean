import Verif.Spec.AuthRequest
import Verif.Props.Oidutil
/-! # A consumer and a provider that are honest with each other -/

namespace Spec
open Py Message Association Store Discover Consumer Server

/-- the parameters of a URL; of two with the same name, the last -/
def parameters (url : Str) : Dict Str Str := Dict.ofPairs (Percent.parseQsl true (Props.queryOf url))

/-- What the browser brings when it does what a web response tells it: the parameters of the URL it is redirected to; or
    those of the URL that the form of the page goes to, together with the fields of the form.  (Browsers write any line end
    in a field as CR LF; there are none in what follows, see `Line`.) -/
def Brings (w : WebResponse) (q : Dict Str Str) : Prop :=
  Dict.WF q ∧ match w.code, w.location, w.body with
  | 302, some url, _ => ∀ k, q.get? k = (parameters url).get? k
  | 200, none, page => ∃ url, ∃ fields : Dict Str Str, Posts page url fields ∧
      ∀ k, q.get? k = (fields.get? k).or ((parameters url).get? k)
  | _, _, _ => False

/-- text without line ends, or characters that no page can have -/
def Line (s : Str) : Prop := '\n' ∉ s ∧ Legible s ∧ '\r' ∉ s

instance : DecidablePred Line := fun s => inferInstanceAs (Decidable (_ ∧ _ ∧ _))

/-- An endpoint that can be asked about its user: where it is has no fragment and no arguments that look like OpenID's; it
    is of a known type, but not one where the user is to be chosen; and it has both identifiers. -/
structure Askable (e : Endpoint) : Prop where
  server : e.serverUrl ≠ [] ∧ '#' ∉ e.serverUrl ∧ Line e.serverUrl
  params : ∀ p ∈ Percent.parseQsl true (Props.queryOf e.serverUrl), startsWith p.1 t!"openid." = false
  type : t!"http://specs.openid.net/auth/2.0/server" ∉ e.typeUris ∧
    ∃ t ∈ [t!"http://specs.openid.net/auth/2.0/signon", t!"http://openid.net/signon/1.1", t!"http://openid.net/signon/1.0"],
      t ∈ e.typeUris
  claimed : ∃ c, e.claimedId = some c ∧ c ≠ [] ∧ '#' ∉ c ∧ Line c
  identity : ∃ i, localIdentifier e = some i ∧ i ≠ [] ∧ Line i ∧
    i ≠ t!"http://specs.openid.net/auth/2.0/identifier_select"

/-- An endpoint of a provider that is to choose the user: where it is as above; it is of that type, and not also that of a
    user. -/
structure Choosing (e : Endpoint) : Prop where
  server : e.serverUrl ≠ [] ∧ '#' ∉ e.serverUrl ∧ Line e.serverUrl
  params : ∀ p ∈ Percent.parseQsl true (Props.queryOf e.serverUrl), startsWith p.1 t!"openid." = false
  type : t!"http://specs.openid.net/auth/2.0/server" ∈ e.typeUris ∧ t!"http://specs.openid.net/auth/2.0/signon" ∉ e.typeUris

/-- A URL to return to: under the realm; without a fragment; its arguments have different names, none of which is taken by
    OpenID or by the consumer itself; and where the application says it is when the user comes back (`current`) is there,
    but for the arguments.  (`tidy` is about URLs that escape `#` or `?` in their host.) -/
structure Returnable (U : Url.Uni) (realm returnTo current : Str) : Prop where
  plain : '#' ∉ returnTo ∧ '\t' ∉ returnTo ∧ '\r' ∉ returnTo ∧ Line returnTo
  names : ((Percent.parseQsl true (Props.queryOf returnTo)).map (·.1)).Nodup
  free : ∀ p ∈ Percent.parseQsl true (Props.queryOf returnTo), startsWith p.1 t!"openid." = false ∧
    p.1 ≠ t!"janrain_nonce" ∧ p.1 ≠ t!"openid1_claimed_id"
  realm : ∃ L R, locate U realm = some L ∧ IsRealm L ∧ locate U returnTo = some R ∧ IsRealm R ∧ Covers L R
  here : ∃ a b x y, Urinorm.urinorm U current = .ok a ∧ Urinorm.urinorm U returnTo = .ok b ∧
    Url.urlparse U a = .ok x ∧ Url.urlparse U b = .ok y ∧ x.scheme = y.scheme ∧ x.netloc = y.netloc ∧ x.path = y.path
  tidy : ∀ n, Urinorm.urinorm U returnTo = .ok n → '#' ∉ n ∧
    ('?' ∈ n → ∃ p ∈ Percent.parseQsl true (Props.queryOf returnTo), p.2 ≠ [])

/-- two copies of one association; when they were issued and for how long may differ -/
structure SameAssociation (a b : Assoc) : Prop where
  handle : a.handle = b.handle
  secret : a.secret = b.secret
  type : a.assocType = b.assocType

/-- what can be written into a response as it is -/
def Plain (s : Str) : Prop := s ≠ [] ∧ Line s

instance : DecidablePred Plain := fun s => inferInstanceAs (Decidable (_ ∧ _))

/-- A call that does not ask for the latest association of a server; and what it stores is an association, whose type is
    one of the two that the class `Association` takes. -/
def Usual : Op → Prop
  | .getAssociation _ none => False
  | .storeAssociation _ a => a.assocType = t!"HMAC-SHA1" ∨ a.assocType = t!"HMAC-SHA256"
  | _ => True

/-- a store that does not fail, except perhaps to find the latest association of a server -/
def NeverFails {σ : Type} (step : σ → Event → σ × Outcome) : Prop :=
  ∀ s now op, Usual op → ∃ r, (step s (now, op)).2 = .ok r

/-- What the application is told in the end: the endpoint it asked about; or just of the provider, if it asked for no
    identity. -/
def toldOf (e : Endpoint) (anonymous : Bool) : Endpoint :=
  if anonymous then ⟨none, e.serverUrl, [t!"http://specs.openid.net/auth/2.0/server"], none, none, false, none⟩ else e

end Spec
