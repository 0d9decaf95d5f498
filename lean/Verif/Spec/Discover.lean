import Verif.Model.Discover
import Verif.Spec.Yadis
/-! # What discovery does -/

namespace Spec
open Py Xml Discover

/-- a request with its `Accept` header and what came of it -/
structure Get where
  url : Str
  accept : Option Str
  result : Except PyErr Page

/-- The program can make these requests, in this order, and end this way. -/
def Gets {α : Type} : Prog α → List Get → Except PyErr α → Prop
  | .done r, gets, r' => gets = [] ∧ r = r'
  | .get u a k, gets, r' => ∃ o rest, gets = ⟨u, a, o⟩ :: rest ∧ Gets (k o) rest r'

/-- the request was answered with this page, and the page is there -/
def Got (g : Get) (p : Page) : Prop := g.result = .ok p ∧ (p.status = 200 ∨ p.status = 206)

/-- The word stands in the text, with spaces or the ends of the text around it. -/
def IsWord (w s : Str) : Prop := ∃ pre post, s = pre ++ w ++ post ∧ w ≠ [] ∧ (∀ c ∈ w, c ∉ t!" \t\n\r") ∧
  (pre = [] ∨ ∃ c ∈ t!" \t\n\r", pre.getLast? = some c) ∧ (post = [] ∨ ∃ c ∈ t!" \t\n\r", post.head? = some c)

/-- the URI children of a service -/
def uriElems (service : Elem) : List Elem := service.children.filter fun c => c.tag = t!"{xri://$xrd*($v*2.0)}URI"
/-- the types of a service -/
def typesOf (service : Elem) : List Str :=
  (service.children.filter fun c => c.tag = t!"{xri://$xrd*($v*2.0)}Type").filterMap (·.text)

/-- A type of service python-openid knows. -/
def Known (t : Str) : Prop := t ∈ [t!"http://specs.openid.net/auth/2.0/server", t!"http://specs.openid.net/auth/2.0/signon",
  t!"http://openid.net/signon/1.1", t!"http://openid.net/signon/1.0"]

/-- What identifies the user at the provider: the texts of the `openid:Delegate` children, if the service is of an OpenID 1
    type, then those of the `LocalID` children, if it is of the OpenID 2 type. -/
def localIds (service : Elem) : List (Option Str) :=
  (if t!"http://openid.net/signon/1.1" ∈ typesOf service ∨ t!"http://openid.net/signon/1.0" ∈ typesOf service
    then (service.children.filter fun c => c.tag = t!"{http://openid.net/xmlns/1.0}Delegate").map (·.text) else []) ++
  (if t!"http://specs.openid.net/auth/2.0/signon" ∈ typesOf service
    then (service.children.filter fun c => c.tag = t!"{xri://$xrd*($v*2.0)}LocalID").map (·.text) else [])

/-- The endpoint for one URI of a service: for the user at `claimed`, or, if the service is for users who choose their
    identifier there, for no user in particular. -/
def IsEndpoint (claimed : Str) (service uri : Elem) (e : Endpoint) : Prop :=
  uri.text = some e.serverUrl ∧ e.typeUris = typesOf service ∧ e.canonicalID = none ∧ e.displayIdentifier = none ∧
  e.usedYadis = true ∧
  if t!"http://specs.openid.net/auth/2.0/server" ∈ typesOf service then e.claimedId = none ∧ e.localId = none
  else e.claimedId = some claimed ∧ (∀ t ∈ localIds service, t = none ∨ t = e.localId) ∧
    (∀ t, e.localId = some t → some t ∈ localIds service)

/-- The lists are of one length and their members stand in the relation, one by one. -/
inductive Each {α β : Type} (R : α → β → Prop) : List α → List β → Prop
  | nil : Each R [] []
  | cons {a : α} {b : β} {as : List α} {bs : List β} : R a b → Each R as bs → Each R (a :: as) (b :: bs)

/-- The service has a type python-openid knows, and the URI a text. -/
def Usable (service uri : Elem) : Prop := (∃ t ∈ typesOf service, Known t) ∧ uri.text.isSome

/-- the children of that tag of the head of an HTML document -/
def headElems (root : Elem) (tag : Str) : List Elem :=
  if root.tag = t!"html" then (root.children.filter fun c => c.tag = t!"head").flatMap fun h => h.children.filter fun c => c.tag = tag
  else []

open scoped Classical in
/-- the first link in the head with that word in its `rel` -/
noncomputable def firstLink (root : Elem) (rel : Str) : Option Elem :=
  (headElems root t!"link").find? fun l => IsWord rel ((l.get t!"rel").getD [])

/-- The endpoint an HTML page names: the address is that of the first link of one kind, the local identifier that of the
    first link of another. -/
def IsHtmlEndpoint (claimed : Str) (root : Elem) (type server localId : Str) (e : Endpoint) : Prop :=
  (∃ link, firstLink root server = some link ∧ link.get t!"href" = some e.serverUrl) ∧ e.serverUrl ≠ [] ∧
  e.localId = (firstLink root localId).bind (·.get t!"href") ∧
  e.typeUris = [type] ∧ e.claimedId = some claimed ∧ e.canonicalID = none ∧ e.displayIdentifier = none ∧ e.usedYadis = false

/-- a media type, perhaps with parameters -/
def HasMediaType (lower : Str → Str) (header : Option Str) (type : Str) : Prop :=
  ∃ t rest, header = some (t ++ rest) ∧ ';' ∉ t ∧ (rest = [] ∨ rest.head? = some ';') ∧ lower t = type

/-- The page names the place of its XRDS document: in the first `meta` element of its head for that header. -/
def NamesLocation (lower : Str → Str) (root : Elem) (loc : Str) : Prop :=
  ∃ pre m post, headElems root t!"meta" = pre ++ m :: post ∧
    (∀ x ∈ pre, ∀ h, x.get t!"http-equiv" = some h → lower h ≠ t!"x-xrds-location") ∧
    (∃ h, m.get t!"http-equiv" = some h ∧ lower h = t!"x-xrds-location") ∧ m.get t!"content" = some loc

end Spec
