import Verif.Model.Endpoint
import Verif.Model.Etxrd
/-! # Model of discovery

openid/consumer/discover.py, openid/yadis/{discover,services,filters,parsehtml,xrires}.py.  HTTP GETs are the effects of a
program; the XML and HTML parsers, the codecs and `random.shuffle` come from outside.  Other filters than
the two the library uses are in `Model/Filters`; warnings and logging are not modelled. -/

namespace Discover
open Py Xml

/-- what `fetchers.fetch` returns -/
structure Page where
  finalUrl : Str
  status : Nat
  headers : Dict Str Str
  body : Bytes

/-- What discovery does outside: it returns (or raises), or gets a URL, with an `Accept` header or without, and goes on with
    what comes back. -/
inductive Prog (α : Type) where
  | done (r : Except PyErr α)
  | get (url : Str) (accept : Option Str) (k : Except PyErr Page → Prog α)

namespace Prog

/-- run a program and go on with its outcome, whether it returned or raised -/
def handle {α β : Type} : Prog α → (Except PyErr α → Prog β) → Prog β
  | .done r, f => f r
  | .get u a k, f => .get u a fun o => handle (k o) f

instance : Monad Prog where
  pure a := .done (.ok a)
  bind p f := handle p fun
    | .ok a => f a
    | .error e => .done (.error e)

def ofPy {α : Type} (r : Except PyErr α) : Prog α := .done r

end Prog

/-- `fetchers.fetch(url, headers={'Accept': accept})` -/
def fetch (url : Str) (accept : Option Str) : Prog Page := .get url accept .done

/-- Everything outside. -/
structure World where
  uni : Url.Uni
  digits : ExtraDigits
  /-- `etree.XML`, `none` for a syntax error -/
  xml : Bytes → Option Elem
  /-- `lxml.html.document_fromstring`, `none` for a syntax error -/
  html : Bytes → Option Elem
  /-- `etree.parse` with the HTML parser on text; `none` if it raises one of the exceptions caught or has no root -/
  htmlText : Str → Option Elem
  /-- the same on bytes -/
  htmlBytes : Bytes → Option Elem
  /-- `bytes.decode(encoding)` for encodings other than UTF-8 -/
  decode : Str → Bytes → Except PyErr Str
  /-- what the `i`-th call of `random.shuffle` on services makes of a list -/
  shuffle : Nat → List Elem → List Elem
  /-- the same for the URIs of the `i`-th service -/
  shuffleURIs : Nat → List Elem → List Elem

/-! ## Endpoints from documents -/

/-- openid/consumer/discover.py:32 `OPENID_1_0_NS`, 282 -/
def delegateTag : Str := t!"{http://openid.net/xmlns/1.0}Delegate"
/-- openid/consumer/discover.py:285 -/
def localIDTag : Str := Etxrd.xrdTag t!"LocalID"

/-- openid/consumer/discover.py:279-285: the tags that may hold the local identifier -/
def localIdTags (types : List Str) : List Str :=
  (if types.contains OPENID_1_1_TYPE || types.contains OPENID_1_0_TYPE then [delegateTag] else []) ++
  (if types.contains OPENID_2_0_TYPE then [localIDTag] else [])

/-- openid/consumer/discover.py:290-297: the text of each element in turn -/
def oneLocalId : Option Str → List (Option Str) → Except PyErr (Option Str)
  | acc, [] => .ok acc
  | none, t :: ts => oneLocalId t ts
  | some a, t :: ts => if some a ≠ t then .error .discoveryFailure else oneLocalId (some a) ts

/-- openid/consumer/discover.py:250-299 `findOPLocalIdentifier` -/
def findOPLocalIdentifier (service : Elem) (types : List Str) : Except PyErr (Option Str) :=
  oneLocalId none ((localIdTags types).flatMap fun tag => (service.findall tag).map (·.text))

/-- openid/consumer/discover.py:99-113 `parseService` on a new endpoint -/
def parseService (yadisUrl uri : Str) (types : List Str) (service : Elem) : Except PyErr Endpoint :=
  if types.contains OPENID_IDP_2_0_TYPE then .ok ⟨none, uri, types, none, none, true, none⟩
  else do
    let localId ← findOPLocalIdentifier service types
    return ⟨some yadisUrl, uri, types, localId, none, true, none⟩

/-- openid/yadis/filters.py:39-53 `matchTypes` -/
def matchTypes (own wanted : List Str) : List Str := wanted.filter fun u => own.contains u

/-- openid/consumer/discover.py:127-147 `fromBasicServiceEndpoint` -/
def fromBasicServiceEndpoint (yadisUrl : Str) (types : List Str) (service : Elem) :
    Option Str → Except PyErr (Option Endpoint)
  | some uri =>
    if (matchTypes types openidTypeUris).isEmpty then .ok none
    else do
      let e ← parseService yadisUrl uri types service
      return some e
  | none => .ok none

/-- openid/yadis/filters.py:102-119 `getServiceEndpoints` of the filter made from `OpenIDServiceEndpoint` -/
def getServiceEndpoints (W : World) (i : Nat) (yadisUrl : Str) (service : Elem) : Except PyErr (List Endpoint) := do
  let basic ← Etxrd.expandService W.digits (W.shuffleURIs i) service
  let found ← basic.mapM fun b => fromBasicServiceEndpoint yadisUrl b.1 service b.2
  return found.filterMap id

/-- openid/yadis/services.py:51-56, discover.py:421-423: the endpoints of each service in turn -/
def endpointsOf (W : World) (yadisUrl : Str) : Nat → List Elem → Except PyErr (List Endpoint)
  | _, [] => .ok []
  | i, s :: rest => do
    let here ← getServiceEndpoints W i yadisUrl s
    let more ← endpointsOf W yadisUrl (i + 1) rest
    return here ++ more

/-- openid/consumer/discover.py:191-200 `fromXRDS`, openid/yadis/services.py:37-56 `applyFilter` -/
def fromXRDS (W : World) (uri : Str) (body : Bytes) : Except PyErr (List Endpoint) := do
  let root ← Etxrd.parseXRDS (W.xml body)
  let services ← Etxrd.iterServices W.digits (W.shuffle 0) root
  endpointsOf W uri 0 services

/-- the whitespace of XPath -/
def isXmlSpace (c : Char) : Bool := c = ' ' || c = '\t' || c = '\n' || c = '\r'

/-- the words of a text, as `normalize-space` of XPath finds them -/
def xmlWords : Str → List Str
  | [] => []
  | c :: cs =>
    if isXmlSpace c then xmlWords cs
    else match cs with
      | [] => [[c]]
      | d :: _ => if isXmlSpace d then [c] :: xmlWords cs else
        match xmlWords cs with
        | w :: ws => (c :: w) :: ws
        | [] => [[c]]

/-- XPath `contains` -/
def hasInfix (needle : Str) : Str → Bool
  | [] => needle.isEmpty
  | c :: cs => startsWith (c :: cs) needle || hasInfix needle cs

/-- openid/consumer/discover.py:38 `contains(concat(' ', normalize-space(@rel), ' '), ' {} ')` -/
def relMatches (rel : Str) (link : Elem) : Bool :=
  hasInfix (t!" " ++ rel ++ t!" ") (t!" " ++ join t!" " (xmlWords ((link.get t!"rel").getD [])) ++ t!" ")

/-- the children of that tag of the head: XPath `/html/head/tag` -/
def inHead (tag : Str) (root : Elem) : List Elem :=
  if root.tag = t!"html" then (root.findall t!"head").flatMap (·.findall tag) else []

/-- openid/consumer/discover.py:38, 168, 175: the links of that `rel` -/
def links (root : Elem) (rel : Str) : List Elem := (inHead t!"link" root).filter (relMatches rel)

/-- openid/consumer/discover.py:166-186: one round of the loop -/
def fromLinks (uri : Str) (root : Elem) (typeUri opRel localRel : Str) : List Endpoint :=
  match (links root opRel).head? with
  | none => []
  | some op =>
    match op.get t!"href" with
    | none => []
    | some [] => []
    | some url => [⟨some uri, url, [typeUri], (links root localRel).head?.bind (·.get t!"href"), none, false, none⟩]

/-- openid/consumer/discover.py:149-188 `fromHTML` -/
def fromHTML (W : World) (uri : Str) (body : Bytes) : List Endpoint :=
  match W.html body with
  | none => []
  | some root =>
    fromLinks uri root OPENID_2_0_TYPE t!"openid2.provider" t!"openid2.local_id" ++
    fromLinks uri root OPENID_1_1_TYPE t!"openid.server" t!"openid.delegate"

/-! ## Order of the services -/

/-- openid/consumer/discover.py:324-338 `bestMatchingService` -/
def bestMatch : List Str → List Str → Nat
  | [], _ => 0
  | t :: ts, types => if types.contains t then 0 else bestMatch ts types + 1

/-- the order of the pairs sorted in openid/consumer/discover.py:342 (the indices differ) -/
def keyLe (a b : Nat × Nat) : Bool := a.1 < b.1 || (a.1 = b.1 && a.2 ≤ b.2)

/-- `enumerate` from `i` on -/
def enumFrom {α : Type} : Nat → List α → List (Nat × α)
  | _, [] => []
  | i, a :: as => (i, a) :: enumFrom (i + 1) as

/-- openid/consumer/discover.py:320-348 `arrangeByType` -/
def arrangeByType (services : List Endpoint) (preferred : List Str) : List Endpoint :=
  (sortBy (fun a b => keyLe a.1 b.1)
    ((enumFrom 0 services).map fun p => ((bestMatch preferred p.2.typeUris, p.1), p.2))).map (·.2)

/-- openid/consumer/discover.py:351-365 `getOPOrUserServices` -/
def getOPOrUserServices (services : List Endpoint) : List Endpoint :=
  let op := arrangeByType services [OPENID_IDP_2_0_TYPE]
  let user := arrangeByType services openidTypeUris
  if op.isEmpty then user else op

/-! ## The Yadis protocol -/

/-- openid/yadis/constants.py:8 `YADIS_CONTENT_TYPE` -/
def yadisContentType : Str := t!"application/xrds+xml"
/-- openid/yadis/constants.py:7 `YADIS_HEADER_NAME.lower()` -/
def yadisHeader : Str := t!"x-xrds-location"
/-- openid/yadis/constants.py:12-16 `YADIS_ACCEPT_HEADER` -/
def yadisAccept : Str := t!"text/html; q=0.3, application/xhtml+xml; q=0.5, application/xrds+xml"

/-- the status codes taken for success -/
def Page.ok (p : Page) : Bool := p.status = 200 || p.status = 206

/-- openid/yadis/parsehtml.py:20-53 `findHTMLMeta` on the parsed page; `none` for `MetaNotFound` -/
def findHTMLMeta (U : Url.Uni) : Option Elem → Option Str
  | none => none
  | some root =>
    match (inHead t!"meta" root).find? fun m => ((m.get t!"http-equiv").map (Url.lower U)) = some yadisHeader with
    | some m => m.get t!"content"
    | none => none

/-- openid/yadis/discover.py:132-137: the encoding of the page -/
def encodingOf (contentType : Str) : Str :=
  match rcut ';' contentType with
  | some (_, last) =>
    match cut '=' last with
    | some (_, v) => if startsWith (strip last) t!"charset=" then strip v else t!"UTF-8"
    | none => t!"UTF-8"
  | none => t!"UTF-8"

/-- `body.decode(encoding)` -/
def World.decodeBody (W : World) (encoding : Str) (body : Bytes) : Except PyErr Str :=
  if encoding = t!"UTF-8" then Utf8.decode body else W.decode encoding body

/-- openid/yadis/discover.py:139-151: the location in the page -/
def metaLocation (W : World) (contentType : Str) (body : Bytes) : Except PyErr (Option Str) :=
  match W.decodeBody (encodingOf contentType) body with
  | .ok text => .ok (findHTMLMeta W.uni (W.htmlText text))
  | .error .unicodeError => .ok (findHTMLMeta W.uni (W.htmlBytes body))
  | .error e => .error e

/-- openid/yadis/discover.py:118: the type without parameters -/
def isYadisType (U : Url.Uni) (contentType : Option Str) : Bool :=
  match contentType with
  | some t => t ≠ [] && Url.lower U ((splitOn ';' t).headD []) = yadisContentType
  | none => false

/-- openid/yadis/discover.py:102-153 `whereIsYadis` -/
def whereIsYadis (W : World) (p : Page) : Except PyErr (Option Str) :=
  let contentType := p.headers.get? t!"content-type"
  if isYadisType W.uni contentType then .ok (some p.finalUrl)
  else
    match p.headers.get? yadisHeader with
    | some (c :: cs) => .ok (some (c :: cs))
    | _ => metaLocation W (contentType.getD []) p.body

/-- openid/yadis/discover.py:21-55 `DiscoveryResult`, without `request_uri` -/
structure Result where
  normalizedUri : Str
  xrdsUri : Option Str
  contentType : Option Str
  body : Bytes

/-- openid/yadis/discover.py:47-51 `usedYadisLocation` -/
def Result.usedYadisLocation (r : Result) : Bool :=
  match r.xrdsUri with
  | none => false
  | some u => r.normalizedUri ≠ u

/-- openid/yadis/discover.py:53-55 `isXRDS` -/
def Result.isXRDS (r : Result) : Bool := r.usedYadisLocation || r.contentType = some yadisContentType

/-- openid/yadis/discover.py:88-98: the document is fetched from its location -/
def followLocation (p : Page) (r : Result) : Prog Result :=
  match r.xrdsUri with
  | some (c :: cs) =>
    if r.usedYadisLocation then do
      let q ← fetch (c :: cs) none
      if q.ok then return { r with contentType := q.headers.get? t!"content-type", body := q.body }
      else .done (.error .discoveryFailure)
    else return { r with body := p.body }
  | _ => return { r with body := p.body }

/-- openid/yadis/discover.py:58-99 `discover` -/
def yadisDiscover (W : World) (uri : Str) : Prog Result := do
  let p ← fetch uri (some yadisAccept)
  if p.ok then do
    let loc ← Prog.ofPy (whereIsYadis W p)
    followLocation p ⟨p.finalUrl, loc, p.headers.get? t!"content-type", []⟩
  else .done (.error .discoveryFailure)

/-! ## Identifiers -/

/-- openid/consumer/discover.py:438-448 `discoverNoYadis` -/
def discoverNoYadis (W : World) (uri : Str) : Prog (Str × List Endpoint) := do
  let p ← fetch uri none
  if p.ok then return (p.finalUrl, fromHTML W p.finalUrl p.body)
  else .done (.error .discoveryFailure)

/-- openid/consumer/discover.py:387-391: a document that is no XRDS has no services -/
def servicesOrNone : Except PyErr (List Endpoint) → Except PyErr (List Endpoint)
  | .error .xrdsError => .ok []
  | .error .xrdsFraud => .ok []
  | r => r

/-- openid/consumer/discover.py:368-408 `discoverYadis` -/
def discoverYadis (W : World) (uri : Str) : Prog (Str × List Endpoint) := do
  let r ← yadisDiscover W uri
  let services ← Prog.ofPy (servicesOrNone (fromXRDS W r.normalizedUri r.body))
  if !services.isEmpty then return (r.normalizedUri, getOPOrUserServices services)
  else if r.isXRDS then discoverNoYadis W uri
  else return (r.normalizedUri, getOPOrUserServices (fromHTML W r.normalizedUri r.body))

/-- openid/consumer/discover.py:302-310 `normalizeURL` -/
def normalizeURL (U : Url.Uni) (url : Str) : Except PyErr Str :=
  match Urinorm.urinorm U url with
  | .ok n => do
    let (u, _) ← Url.urldefrag U n
    return u
  | .error e => if e.isValueError then .error .discoveryFailure else .error e

/-- openid/consumer/discover.py:451-457: the URL of an identifier -/
def identifierURL (U : Url.Uni) (identifier : Str) : Except PyErr Str := do
  let p ← Url.urlparse U identifier
  if p.scheme ≠ [] ∧ p.netloc ≠ [] then
    if p.scheme = t!"http" ∨ p.scheme = t!"https" then return identifier else throw .discoveryFailure
  else return t!"http://" ++ identifier

/-- openid/consumer/discover.py:451-462 `discoverURI` -/
def discoverURI (W : World) (identifier : Str) : Prog (Str × List Endpoint) := do
  let url ← Prog.ofPy (identifierURL W.uni identifier)
  let uri ← Prog.ofPy (normalizeURL W.uni url)
  let (found, services) ← discoverYadis W uri
  let claimedId ← Prog.ofPy (normalizeURL W.uni found)
  return (claimedId, services)

/-! ## XRIs -/

/-- openid/yadis/xrires.py:12 `DEFAULT_PROXY` -/
def defaultProxy : Str := t!"http://proxy.xri.net/"

/-- `url.rstrip('?')` -/
def rstripMarks (s : Str) : Str := (s.reverse.dropWhile (· = '?')).reverse

/-- openid/yadis/xrires.py:103-125 `_appendArgs`, the arguments sorted -/
def appendArgs (url : Str) (args : List (Str × Str)) : Str :=
  if args.isEmpty then url
  else url ++ (if (rstripMarks url).contains '?' then t!"&" else t!"?") ++ Percent.urlencode args

/-- openid/yadis/xrires.py:22-55 `queryURL` (a service type is always given) -/
def queryURL (xri serviceType : Str) : Str :=
  appendArgs (defaultProxy ++ (Xri.toURINormal xri).drop 6)
    [(t!"_xrd_r", t!"application/xrds+xml"), (t!"_xrd_t", serviceType)]

/-- openid/yadis/xrires.py:93-95: what one reply of the resolver gives -/
def readXRDS (W : World) (i : Nat) (xri : Str) (body : Bytes) : Except PyErr (Option Str × List Elem) := do
  let root ← Etxrd.parseXRDS (W.xml body)
  let cid ← Etxrd.getCanonicalID W.uni xri root
  let services ← Etxrd.iterServices W.digits (W.shuffle i) root
  return (cid, services)

/-- openid/yadis/xrires.py:86-96: the loop of `query`, with the last CanonicalID and the services so far -/
def queryFrom (W : World) (xri : Str) : Nat → Option Str → List Elem → List Str → Prog (Option Str × List Elem)
  | _, cid, services, [] => return (cid, services)
  | i, cid, services, t :: ts => do
    let p ← fetch (queryURL xri t) none
    if p.ok then do
      let (cid', more) ← Prog.ofPy (readXRDS W i xri p.body)
      queryFrom W xri (i + 1) cid' (services ++ more) ts
    else queryFrom W xri (i + 1) cid services ts

/-- openid/yadis/xrires.py:57-100 `ProxyResolver.query` -/
def query (W : World) (xri : Str) (types : List Str) : Prog (Option Str × List Elem) := queryFrom W xri 0 none [] types

/-- openid/consumer/discover.py:313-317 `normalizeXRI` -/
def normalizeXRI (xri : Str) : Str := if startsWith xri t!"xri://" then xri.drop 6 else xri

/-- openid/consumer/discover.py:415-423: the CanonicalID and the endpoints -/
def endpointsXRI (W : World) (iname : Str) : Prog (Str × List Endpoint) := do
  let (cid, services) ← query W iname openidTypeUris
  match cid with
  | none => .done (.error .xrdsError)
  | some cid => do
    let endpoints ← Prog.ofPy (endpointsOf W iname 0 services)
    return (cid, endpoints)

/-- openid/consumer/discover.py:427-432 -/
def identify (iname cid : Str) (e : Endpoint) : Endpoint :=
  { e with canonicalID := some cid, claimedId := some cid, displayIdentifier := some iname }

/-- openid/consumer/discover.py:424-435: errors of the documents mean no services -/
def foundXRI (iname : Str) : Except PyErr (Str × List Endpoint) → Prog (Str × List Endpoint)
  | .ok (cid, endpoints) => return (iname, getOPOrUserServices (endpoints.map (identify iname cid)))
  | .error .xrdsError => return (iname, getOPOrUserServices [])
  | .error .xrdsFraud => return (iname, getOPOrUserServices [])
  | .error e => .done (.error e)

/-- openid/consumer/discover.py:411-435 `discoverXRI` -/
def discoverXRI (W : World) (identifier : Str) : Prog (Str × List Endpoint) :=
  let iname := normalizeXRI identifier
  (endpointsXRI W iname).handle (foundXRI iname)

/-- openid/consumer/discover.py:465-469 `discover` -/
def discover (W : World) (identifier : Str) : Prog (Str × List Endpoint) :=
  if Xri.isXRI identifier then discoverXRI W identifier else discoverURI W identifier

end Discover
