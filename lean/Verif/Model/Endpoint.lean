import Verif.Base.Url
import Verif.Model.Message
/-! # Model of openid/consumer/discover.py, class `OpenIDServiceEndpoint`

An endpoint always has a server URL: the three places that make one set it (discover.py:138-143, 183, 230).  The endpoint
made in openid/consumer/consumer.py to compare with is a type of its own, `ToMatch` in Model/Consumer. -/

namespace Discover
open Py Message

/-- openid/consumer/discover.py:33-36 -/
def OPENID_IDP_2_0_TYPE : Str := t!"http://specs.openid.net/auth/2.0/server"
def OPENID_2_0_TYPE : Str := t!"http://specs.openid.net/auth/2.0/signon"
def OPENID_1_1_TYPE : Str := t!"http://openid.net/signon/1.1"
def OPENID_1_0_TYPE : Str := t!"http://openid.net/signon/1.0"

/-- openid/consumer/discover.py:50-56 `openid_type_uris` -/
def openidTypeUris : List Str := [OPENID_IDP_2_0_TYPE, OPENID_2_0_TYPE, OPENID_1_1_TYPE, OPENID_1_0_TYPE]

/-- openid/consumer/discover.py:41-65 `OpenIDServiceEndpoint` -/
structure Endpoint where
  claimedId : Option Str
  serverUrl : Str
  typeUris : List Str
  localId : Option Str
  canonicalID : Option Str
  usedYadis : Bool
  displayIdentifier : Option Str
  deriving DecidableEq, Repr

/-- openid/consumer/discover.py:67-68 `usesExtension` -/
def Endpoint.usesExtension (e : Endpoint) (uri : Str) : Bool := e.typeUris.contains uri

/-- openid/consumer/discover.py:70-74 `preferredNamespace` -/
def Endpoint.preferredNamespace (e : Endpoint) : Str :=
  if e.typeUris.contains OPENID_IDP_2_0_TYPE || e.typeUris.contains OPENID_2_0_TYPE then OPENID2_NS else OPENID1_NS

/-- openid/consumer/discover.py:96-97 `isOPIdentifier` -/
def Endpoint.isOPIdentifier (e : Endpoint) : Bool := e.typeUris.contains OPENID_IDP_2_0_TYPE

/-- openid/consumer/discover.py:76-81 `supportsType` -/
def Endpoint.supportsType (e : Endpoint) (uri : Str) : Bool :=
  e.typeUris.contains uri || (uri = OPENID_2_0_TYPE && e.isOPIdentifier)

/-- openid/consumer/discover.py:83-91 `getDisplayIdentifier` -/
def Endpoint.getDisplayIdentifier (U : Url.Uni) (e : Endpoint) : Except PyErr (Option Str) :=
  match e.displayIdentifier, e.claimedId with
  | some d, _ => .ok (some d)
  | none, none => .ok none
  | none, some c => do
    let (u, _) ← Url.urldefrag U c
    return some u

/-- openid/consumer/discover.py:93-94 `compatibilityMode` -/
def Endpoint.compatibilityMode (e : Endpoint) : Bool := e.preferredNamespace ≠ OPENID2_NS

/-- openid/consumer/discover.py:115-125 `getLocalID`: `local_id or canonicalID` unless both are `None` -/
def localIdOf (claimedId localId canonicalID : Option Str) : Option Str :=
  match localId with
  | none => if canonicalID.isNone then claimedId else canonicalID
  | some [] => canonicalID
  | some l => some l

def Endpoint.getLocalID (e : Endpoint) : Option Str := localIdOf e.claimedId e.localId e.canonicalID

/-- openid/consumer/discover.py:221-232 `fromOPEndpointURL` -/
def Endpoint.fromOPEndpointURL (url : Str) : Endpoint :=
  ⟨none, url, [OPENID_IDP_2_0_TYPE], none, none, false, none⟩

end Discover
