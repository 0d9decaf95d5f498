import Verif.Model.Urinorm
/-! # Model of openid/server/trustroot.py

Bytes arguments (deprecated) and `__repr__` are not modelled.  Discovery (openid/yadis/services.py) is a
parameter. -/

namespace TrustRoot
open Py

/-- openid/server/trustroot.py:33-64 `_top_level_domains` -/
def topLevelDomains : List Str :=
  [t!"ac", t!"ad", t!"ae", t!"aero", t!"af", t!"ag", t!"ai", t!"al", t!"am", t!"an", t!"ao", t!"aq",
   t!"ar", t!"arpa", t!"as", t!"asia", t!"at", t!"au", t!"aw", t!"ax", t!"az", t!"ba", t!"bb", t!"bd",
   t!"be", t!"bf", t!"bg", t!"bh", t!"bi", t!"biz", t!"bj", t!"bm", t!"bn", t!"bo", t!"br", t!"bs", t!"bt",
   t!"bv", t!"bw", t!"by", t!"bz", t!"ca", t!"cat", t!"cc", t!"cd", t!"cf", t!"cg", t!"ch", t!"ci", t!"ck",
   t!"cl", t!"cm", t!"cn", t!"co", t!"com", t!"coop", t!"cr", t!"cu", t!"cv", t!"cx", t!"cy", t!"cz",
   t!"de", t!"dj", t!"dk", t!"dm", t!"do", t!"dz", t!"ec", t!"edu", t!"ee", t!"eg", t!"er", t!"es", t!"et",
   t!"eu", t!"fi", t!"fj", t!"fk", t!"fm", t!"fo", t!"fr", t!"ga", t!"gb", t!"gd", t!"ge", t!"gf", t!"gg",
   t!"gh", t!"gi", t!"gl", t!"gm", t!"gn", t!"gov", t!"gp", t!"gq", t!"gr", t!"gs", t!"gt", t!"gu", t!"gw",
   t!"gy", t!"hk", t!"hm", t!"hn", t!"hr", t!"ht", t!"hu", t!"id", t!"ie", t!"il", t!"im", t!"in",
   t!"info", t!"int", t!"io", t!"iq", t!"ir", t!"is", t!"it", t!"je", t!"jm", t!"jo", t!"jobs", t!"jp",
   t!"ke", t!"kg", t!"kh", t!"ki", t!"km", t!"kn", t!"kp", t!"kr", t!"kw", t!"ky", t!"kz", t!"la", t!"lb",
   t!"lc", t!"li", t!"lk", t!"lr", t!"ls", t!"lt", t!"lu", t!"lv", t!"ly", t!"ma", t!"mc", t!"md", t!"me",
   t!"mg", t!"mh", t!"mil", t!"mk", t!"ml", t!"mm", t!"mn", t!"mo", t!"mobi", t!"mp", t!"mq", t!"mr",
   t!"ms", t!"mt", t!"mu", t!"museum", t!"mv", t!"mw", t!"mx", t!"my", t!"mz", t!"na", t!"name", t!"nc",
   t!"ne", t!"net", t!"nf", t!"ng", t!"ni", t!"nl", t!"no", t!"np", t!"nr", t!"nu", t!"nz", t!"om",
   t!"org", t!"pa", t!"pe", t!"pf", t!"pg", t!"ph", t!"pk", t!"pl", t!"pm", t!"pn", t!"pr", t!"pro",
   t!"ps", t!"pt", t!"pw", t!"py", t!"qa", t!"re", t!"ro", t!"rs", t!"ru", t!"rw", t!"sa", t!"sb", t!"sc",
   t!"sd", t!"se", t!"sg", t!"sh", t!"si", t!"sj", t!"sk", t!"sl", t!"sm", t!"sn", t!"so", t!"sr", t!"st",
   t!"su", t!"sv", t!"sy", t!"sz", t!"tc", t!"td", t!"tel", t!"tf", t!"tg", t!"th", t!"tj", t!"tk", t!"tl",
   t!"tm", t!"tn", t!"to", t!"tp", t!"tr", t!"travel", t!"tt", t!"tv", t!"tw", t!"tz", t!"ua", t!"ug",
   t!"uk", t!"us", t!"uy", t!"uz", t!"va", t!"vc", t!"ve", t!"vg", t!"vi", t!"vn", t!"vu", t!"wf", t!"ws",
   t!"xn--0zwm56d", t!"xn--11b5bs3a9aj6g", t!"xn--80akhbyknj4f", t!"xn--9t4b11yi5a", t!"xn--deba0ad",
   t!"xn--g6w251d", t!"xn--hgbk6aj7f53bba", t!"xn--hlcj6aya9esc7a", t!"xn--jxalpdlp", t!"xn--kgbechtv",
   t!"xn--zckzah", t!"ye", t!"yt", t!"yu", t!"za", t!"zm", t!"zw"]

/-- what `_parseURL` returns: scheme, hostname, port, path -/
structure Parts where
  proto : Str
  host : Option Str
  port : Option Nat
  path : Str
  deriving DecidableEq, Repr

/-- openid/server/trustroot.py:95-99, on the normalised URL -/
def splitParts (U : Url.Uni) (url : Str) : Except PyErr Parts := do
  let s ← Url.urlsplit U url
  let path := Url.urlunsplit ⟨[], [], if s.path = [] then ['/'] else s.path, s.query, s.fragment⟩
  let port ← Url.port s.netloc
  return ⟨s.scheme, Url.hostname U s.netloc, port, path⟩

/-- openid/server/trustroot.py:89-99 `_parseURL`: `none` when normalisation raises ValueError; the later calls may
    raise -/
def parseURL (U : Url.Uni) (url : Str) : Except PyErr (Option Parts) :=
  match Urinorm.urinorm U url with
  | .error e => if e.isValueError then .ok none else .error e
  | .ok url => (splitParts U url).map some

/-- openid/server/trustroot.py:102-120 `class TrustRoot` -/
structure Realm where
  unparsed : Str
  proto : Str
  wildcard : Bool
  host : Str
  port : Option Nat
  path : Str
  deriving DecidableEq, Repr

/-- openid/server/trustroot.py:258-275: the checks on the host -/
def parseHost (host : Str) : Option (Bool × Str) :=
  if '*' ∈ host.drop 1 then none
  else match host with
    | '*' :: r => if r ≠ [] ∧ r.head? ≠ some '.' then none else some (true, r)
    | h => some (false, h)

/-- openid/server/trustroot.py:252-280, after `_parseURL` -/
def parseParts (trustRoot : Str) (p : Parts) : Except PyErr (Option Realm) :=
  if '#' ∈ p.path then .ok none
  else match p.host with
    | none => .error .attributeError
    | some host => match parseHost host with
      | none => .ok none
      | some (wildcard, host) => .ok (some ⟨trustRoot, p.proto, wildcard, host, p.port, p.path⟩)

/-- openid/server/trustroot.py:233-280 `TrustRoot.parse` -/
def parse (U : Url.Uni) (trustRoot : Str) : Except PyErr (Option Realm) :=
  match parseURL U trustRoot with
  | .error e => .error e
  | .ok none => .ok none
  | .ok (some p) => parseParts trustRoot p

/-- openid/server/trustroot.py:143-145: the labels of the host, without the one before the dot of a wildcard -/
def wildParts (wildcard : Bool) (parts : List Str) : Except PyErr (List Str) :=
  if wildcard then if parts.head? = some [] then .ok (parts.drop 1) else .error .assertionError
  else .ok parts

/-- openid/server/trustroot.py:147-150: an empty label at the end is dropped -/
def dropRoot (parts : List Str) : List Str :=
  if parts ≠ [] ∧ parts.getLast? = some [] then parts.dropLast else parts

/-- openid/server/trustroot.py:152-174 -/
def saneParts (wildcard : Bool) (parts : List Str) : Bool :=
  if parts = [] then false
  else if [] ∈ parts then false
  else
    let tld := parts.getLast?.getD []
    if tld ∉ topLevelDomains then false
    else if parts.length = 1 then false
    else if wildcard ∧ tld.length = 2 ∧ (parts.dropLast.getLast?.getD []).length ≤ 3 then decide (parts.length > 2)
    else true

/-- openid/server/trustroot.py:122-174 `isSane` -/
def isSane (r : Realm) : Except PyErr Bool :=
  if r.host = t!"localhost" then .ok true
  else do
    let parts ← wildParts r.wildcard (splitOn '.' r.host)
    return saneParts r.wildcard (dropRoot parts)

/-- openid/server/trustroot.py:282-292 `checkSanity` -/
def checkSanity (U : Url.Uni) (trustRoot : Str) : Except PyErr Bool :=
  match parse U trustRoot with
  | .error e => .error e
  | .ok none => .ok false
  | .ok (some r) => isSane r

/-- openid/server/trustroot.py:206-210: the host -/
def hostOk (r : Realm) (host : Str) : Bool :=
  if !r.wildcard then host == r.host
  else endsWith host r.host || '.' :: host == r.host

/-- openid/server/trustroot.py:212-229: the path.  The index errors of the last line cannot happen: theorem
    `pathOk_some`. -/
def pathOk (realm path : Str) : Except PyErr Bool :=
  if path = realm then .ok true
  else if realm ≠ path.take realm.length then .ok false
  else
    let allowed := if '?' ∈ realm then t!"&" else t!"?/"
    match realm.getLast? with
    | none => .error .indexError
    | some c =>
      if c ∈ allowed then .ok true
      else match path[realm.length]? with
        | none => .error .indexError
        | some c => .ok (decide (c ∈ allowed))

/-- openid/server/trustroot.py:195-231, after `_parseURL` -/
def validateParts (r : Realm) (p : Parts) : Except PyErr Bool :=
  if p.proto ≠ r.proto then .ok false
  else if p.port ≠ r.port then .ok false
  else match p.host with
    | none => .error .typeError
    | some host =>
      if '*' ∈ host then .ok false
      else if !hostOk r host then .ok false
      else pathOk r.path p.path

/-- openid/server/trustroot.py:176-231 `validateURL` -/
def validateURL (U : Url.Uni) (r : Realm) (url : Str) : Except PyErr Bool :=
  match parseURL U url with
  | .error e => .error e
  | .ok none => .ok false
  | .ok (some p) => validateParts r p

/-- openid/server/trustroot.py:294-299 `checkURL` -/
def checkURL (U : Url.Uni) (trustRoot url : Str) : Except PyErr Bool :=
  match parse U trustRoot with
  | .error e => .error e
  | .ok none => .ok false
  | .ok (some r) => validateURL U r url

/-- openid/server/trustroot.py:316-319: the port as text -/
def portSuffix : Option Nat → Str
  | none => []
  | some p => if p = 0 then [] else ':' :: natToStr p

/-- openid/server/trustroot.py:301-324 `buildDiscoveryURL` -/
def buildDiscoveryURL (r : Realm) : Except PyErr Str :=
  if r.wildcard then
    if startsWith r.host t!"." then
      .ok (r.proto ++ t!"://" ++ t!"www" ++ r.host ++ portSuffix r.port ++ r.path)
    else .error .assertionError
  else .ok r.unparsed

/-- openid/server/trustroot.py:339 -/
def rpReturnToUrlType : Str := t!"http://specs.openid.net/auth/2.0/return_to"

/-- openid/yadis/filters.py:33-37: an endpoint found by discovery -/
structure Endpoint where
  types : List Str
  uri : Option Str
  deriving DecidableEq, Repr

/-- openid/server/trustroot.py:342-362 `_extractReturnURL`, with openid/yadis/filters.py:107-117: no value, no
    result -/
def extractReturnURL (e : Endpoint) : Option Str :=
  if rpReturnToUrlType ∈ e.types then e.uri else none

/-- openid/server/trustroot.py:372-390: one of the allowed URLs -/
def matchesOne (U : Url.Uni) (returnTo allowed : Str) : Except PyErr Bool :=
  match parse U allowed with
  | .error e => .error e
  | .ok none => .ok false
  | .ok (some r) => if r.wildcard then .ok false else validateURL U r returnTo

/-- openid/server/trustroot.py:365-392 `returnToMatches` -/
def returnToMatches (U : Url.Uni) (returnTo : Str) : List Str → Except PyErr Bool
  | [] => .ok false
  | a :: rest => do
    let b ← matchesOne U returnTo a
    if b then return true else returnToMatches U returnTo rest

/-- Yadis discovery (openid/yadis/services.py:9-35), a parameter: the URL after redirects and the endpoints found,
    or an exception -/
abbrev Discover := Str → Except PyErr (Str × List Endpoint)

/-- openid/server/trustroot.py:395-408 `getAllowedReturnURLs` -/
def getAllowedReturnURLs (U : Url.Uni) (disc : Discover) (url : Str) : Except PyErr (List Str) := do
  let (after, endpoints) ← disc url
  let a ← Urinorm.urinorm U after
  let b ← Urinorm.urinorm U url
  if a ≠ b then throw .realmRedirected
  return endpoints.filterMap extractReturnURL

/-- openid/server/trustroot.py:431-442: a redirect is not an error -/
def decideReturnTo (U : Url.Uni) (returnTo : Str) : Except PyErr (List Str) → Except PyErr Bool
  | .ok l => returnToMatches U returnTo l
  | .error e => if e = .realmRedirected then .ok false else .error e

/-- openid/server/trustroot.py:413-442 `verifyReturnTo` -/
def verifyReturnTo (U : Url.Uni) (disc : Discover) (realm returnTo : Str) : Except PyErr Bool :=
  match parse U realm with
  | .error e => .error e
  | .ok none => .ok false
  | .ok (some r) => do
    let url ← buildDiscoveryURL r
    decideReturnTo U returnTo (getAllowedReturnURLs U disc url)

end TrustRoot
