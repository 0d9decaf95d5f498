import Verif.Spec.Consumer
import Verif.Spec.ServerAnswer
/-! # What an authentication request asks for -/

namespace Spec
open Py Message Association Store Discover Consumer

/-- the version of OpenID an endpoint is spoken to in -/
def versionOf (e : Endpoint) : Str :=
  if t!"http://specs.openid.net/auth/2.0/server" ∈ e.typeUris ∨ t!"http://specs.openid.net/auth/2.0/signon" ∈ e.typeUris then
    t!"http://specs.openid.net/auth/2.0"
  else t!"http://openid.net/signon/1.0"

/-- The identity and the claimed identifier asked about: those of the endpoint, unless the provider is to choose. -/
def askedAbout (e : Endpoint) : Option Str × Option Str :=
  if t!"http://specs.openid.net/auth/2.0/server" ∈ e.typeUris then
    (some t!"http://specs.openid.net/auth/2.0/identifier_select", some t!"http://specs.openid.net/auth/2.0/identifier_select")
  else (localIdentifier e, e.claimedId)

/-- The consumer's own arguments in the return URL: its nonce, and for OpenID 1 the claimed identifier, which the protocol
    does not carry. -/
def ownArgs (e : Endpoint) (nonce : Str) : List (Str × Str) :=
  (t!"janrain_nonce", nonce) ::
    if versionOf e = t!"http://openid.net/signon/1.0" then [(t!"openid1_claimed_id", e.claimedId.getD [])] else []

/-- the arguments of an authentication request -/
def authArgs (e : Endpoint) (anonymous immediate : Bool) (realm returnTo : Str) (handle : Option Str) :
    List (Str × Option Str) :=
  [(if versionOf e = t!"http://openid.net/signon/1.0" then t!"trust_root" else t!"realm", some realm),
   (t!"mode", some (if immediate then t!"checkid_immediate" else t!"checkid_setup")),
   (t!"return_to", some returnTo),
   (t!"identity", if anonymous then none else (askedAbout e).1),
   (t!"claimed_id", if anonymous ∨ versionOf e = t!"http://openid.net/signon/1.0" then none else (askedAbout e).2),
   (t!"assoc_handle", handle)]

end Spec
