import Verif.Spec.Consumer
import Verif.Spec.Discover
/-! # Who says that a provider speaks for a user

The user's own page, or for an XRI the resolver.  What is said here is about pages that were fetched; nothing in it
mentions the calls of the library that fetched them. -/

namespace Spec
open Py Xml Discover

open scoped Classical in
/-- The page says where its XRDS document is: it is one itself, or names the place in a header, or in its head. -/
def PointsTo (D : World) (page : Page) (loc : Str) : Prop :=
  if HasMediaType (Url.lower D.uni) (page.headers.get? t!"content-type") t!"application/xrds+xml" then loc = page.finalUrl
  else if ∃ l, page.headers.get? t!"x-xrds-location" = some l ∧ l ≠ [] then page.headers.get? t!"x-xrds-location" = some loc
  else
    (∃ text root, D.decodeBody (encodingOf ((page.headers.get? t!"content-type").getD [])) page.body = .ok text ∧
      D.htmlText text = some root ∧ NamesLocation (Url.lower D.uni) root loc) ∨
    (∃ root, D.decodeBody (encodingOf ((page.headers.get? t!"content-type").getD [])) page.body = .error .unicodeError ∧
      D.htmlBytes page.body = some root ∧ NamesLocation (Url.lower D.uni) root loc)

/-- The document is an XRDS document, and its last description has a service with such an endpoint for this user. -/
def ListsService (D : World) (claimed : Str) (body : Bytes) (e : Endpoint) : Prop :=
  ∃ root xrd service uri, D.xml body = some root ∧ root.tag = t!"{xri://$xrds}XRDS" ∧
    (root.children.filter fun c => c.tag = t!"{xri://$xrd*($v*2.0)}XRD").getLast? = some xrd ∧
    service ∈ xrd.children ∧ service.tag = t!"{xri://$xrd*($v*2.0)}Service" ∧ uri ∈ uriElems service ∧
    IsEndpoint claimed service uri e

/-- The page at the user's address names the provider: with links in its head, as an XRDS document, or by pointing to
    an XRDS document that does. -/
def PageNames (D : World) (web : List Get) (claimed : Str) (e : Endpoint) : Prop :=
  ∃ g ∈ web, ∃ page, Got g page ∧ page.finalUrl = claimed ∧
    ((∃ root, D.html page.body = some root ∧
      (IsHtmlEndpoint claimed root t!"http://specs.openid.net/auth/2.0/signon" t!"openid2.provider" t!"openid2.local_id" e ∨
       IsHtmlEndpoint claimed root t!"http://openid.net/signon/1.1" t!"openid.server" t!"openid.delegate" e)) ∨
     ListsService D claimed page.body e ∨
     ∃ loc, PointsTo D page loc ∧ ∃ g' ∈ web, g'.url = loc ∧ ∃ doc, Got g' doc ∧ ListsService D claimed doc.body e)

/-- The documents give this identifier for the name, each description having the authority to give the next. -/
def IdentifierOf (U : Url.Uni) (name : Str) (root : Elem) (cid : Str) : Prop :=
  ∃ authority texts, RootOf (bare name) authority ∧
    (root.children.filter fun c => c.tag = t!"{xri://$xrd*($v*2.0)}XRD").mapM
      (firstText · t!"{xri://$xrd*($v*2.0)}CanonicalID") = some texts ∧
    Delegates (t!"xri://" ++ authority) (texts.map fun t => Url.lower U (t!"xri://" ++ bare t)) ∧
    ∃ last, texts.getLast? = some last ∧ cid = t!"xri://" ++ bare last

/-- An answer of the resolver about that name. -/
def ResolverSaid (web : List Get) (name : Str) (page : Page) : Prop :=
  ∃ g ∈ web, (∃ type, Known type ∧ g.url = queryURL name type) ∧ Got g page

/-- The resolver gives this identifier for a name, and a provider for the name. -/
def ResolverNames (D : World) (web : List Get) (claimed : Str) (e : Endpoint) : Prop :=
  ∃ name, (∃ page root, ResolverSaid web name page ∧ D.xml page.body = some root ∧ IdentifierOf D.uni name root claimed) ∧
    e.canonicalID = some claimed ∧ e.displayIdentifier = some name ∧
    ∃ page xrd root service uri e', ResolverSaid web name page ∧ D.xml page.body = some root ∧
      (root.children.filter fun c => c.tag = t!"{xri://$xrd*($v*2.0)}XRD").getLast? = some xrd ∧
      service ∈ xrd.children ∧ service.tag = t!"{xri://$xrd*($v*2.0)}Service" ∧ uri ∈ uriElems service ∧
      IsEndpoint name service uri e' ∧ e.serverUrl = e'.serverUrl ∧ e.typeUris = e'.typeUris ∧ e.localId = e'.localId

/-- Who the user is at this endpoint is said by their own page, or by the resolver. -/
def OwnPage (D : World) (web : List Get) (claimed : Str) (e : Endpoint) : Prop :=
  e.claimedId = some claimed ∧ (PageNames D web claimed e ∨ ResolverNames D web claimed e)

/-- Discovery came to this by looking at these pages; the services and addresses of one priority may have come in any
    order. -/
def LookedUp (D : World) (web : List Get) (id : Str) (o : Except PyErr (Str × List Endpoint)) : Prop :=
  ∃ (services addresses : Nat → List Elem → List Elem) (gets : List Get),
    (∀ i l, (services i l).Perm l) ∧ (∀ i l, (addresses i l).Perm l) ∧ (∀ g ∈ gets, g ∈ web) ∧
    Gets (discover { D with shuffle := services, shuffleURIs := addresses } id) gets o

/-- The session of a user, after any number of calls of `begin`, `beginWithoutDiscovery` and `complete`: what was done
    outside, the endpoints the application gave, and the session. -/
inductive Session (W : Consumer.World) (C : Consumer.Conf) : List Consumer.Ev → List Endpoint → Consumer.UserSession → Prop
  | new : Session W C [] [] ⟨none, none⟩
  | begin {evs evs' given s s' E url anonymous r} : Session W C evs given s →
      Consumer.Runs (Consumer.begin W C E s url anonymous) evs' (.ok (s', r)) → Session W C (evs ++ evs') given s'
  | beginWithoutDiscovery {evs evs' given s s' E e anonymous r} : Session W C evs given s →
      Consumer.Runs (Consumer.beginWithoutDiscovery W C E s e anonymous) evs' (.ok (s', r)) →
      Session W C (evs ++ evs') (e :: given) s'
  | complete {evs evs' given s s' E q current r} : Session W C evs given s →
      Consumer.Runs (Consumer.complete W C E s q current) evs' (.ok (s', r)) → Session W C (evs ++ evs') given s'

end Spec
