import Verif.Model.Discover
import Verif.Model.TrustRoot
/-! # Model of openid/yadis/filters.py, openid/yadis/services.py and of realm discovery (openid/server/trustroot.py) -/

namespace Filters
open Py Xml Discover

/-- openid/yadis/filters.py:20-37 `BasicServiceEndpoint` -/
structure Basic where
  yadisUrl : Str
  types : List Str
  uri : Option Str
  service : Elem

/-- an endpoint transformer: it makes an endpoint of a basic one, or `None`, or raises -/
abbrev Transform (α : Type) := Basic → Except PyErr (Option α)

/-- the method `getServiceEndpoints` of a filter that a user of the library wrote -/
abbrev Custom (α : Type) := Str → Elem → Except PyErr (List α)

/-- What can be given as a filter: a list, or an object that is not iterable, with those of the attributes
    `getServiceEndpoints`, `fromBasicServiceEndpoint` and `__call__` that it has. -/
inductive Part (α : Type) where
  | list (parts : List (Part α))
  | object (services : Option (Custom α)) (basic call : Option (Transform α))

/-- openid/yadis/filters.py:69-75, 78-100, 134-140: a filter: one that a user wrote, a `TransformFilterMaker` or a
    `CompoundFilter` -/
inductive Filter (α : Type) where
  | custom (f : Custom α)
  | transform (functions : List (Transform α))
  | compound (subfilters : List (Filter α))

/-- openid/yadis/filters.py:121-131 `applyFilters` -/
def applyFilters {α : Type} (b : Basic) : List (Transform α) → Except PyErr (Option α)
  | [] => .ok none
  | f :: rest => do
    let e ← f b
    match e with
    | some e => return some e
    | none => applyFilters b rest

/-- openid/yadis/filters.py:108-117: the rounds of the loop -/
def transformAll {α : Type} (fs : List (Transform α)) : List Basic → Except PyErr (List α)
  | [] => .ok []
  | b :: rest => do
    let e ← applyFilters b fs
    let more ← transformAll fs rest
    return e.toList ++ more

/-- openid/yadis/filters.py:102-119 `TransformFilterMaker.getServiceEndpoints`; the URIs are shuffled by `shuffle` -/
def transformEndpoints {α : Type} (X : ExtraDigits) (shuffle : List Elem → List Elem) (fs : List (Transform α)) (url : Str)
    (service : Elem) : Except PyErr (List α) := do
  let basic ← Etxrd.expandService X shuffle service
  transformAll fs (basic.map fun p => ⟨url, p.1, p.2, service⟩)

mutual
/-- how often the URIs of a service are shuffled by a filter -/
def Filter.shuffles {α : Type} : Filter α → Nat
  | .custom _ => 0
  | .transform _ => 1
  | .compound l => shufflesAll l
def shufflesAll {α : Type} : List (Filter α) → Nat
  | [] => 0
  | f :: rest => f.shuffles + shufflesAll rest
end

mutual
/-- `getServiceEndpoints` of a filter; shuffles are numbered from `i` -/
def Filter.get {α : Type} (X : ExtraDigits) (shuffle : Nat → List Elem → List Elem) (url : Str) (service : Elem) :
    Filter α → Nat → Except PyErr (List α)
  | .custom f, _ => f url service
  | .transform fs, i => transformEndpoints X (shuffle i) fs url service
  | .compound l, i => getAll X shuffle url service l i
/-- openid/yadis/filters.py:142-149 `CompoundFilter.getServiceEndpoints` -/
def getAll {α : Type} (X : ExtraDigits) (shuffle : Nat → List Elem → List Elem) (url : Str) (service : Elem) :
    List (Filter α) → Nat → Except PyErr (List α)
  | [], _ => .ok []
  | f :: rest, i => do
    let here ← f.get X shuffle url service i
    let more ← getAll X shuffle url service rest (i + f.shuffles)
    return here ++ more
end

/-- openid/yadis/filters.py:206-212: the end of `mkCompoundFilter` -/
def finish {α : Type} (filters : List (Filter α)) (transformers : List (Transform α)) : Filter α :=
  let filters := if transformers.isEmpty then filters else filters ++ [.transform transformers]
  match filters with
  | [f] => f
  | fs => .compound fs

mutual
/-- openid/yadis/filters.py:185-204: what one element of the list adds to the filters and to the transformers -/
def classify {α : Type} : Part α → Except PyErr (List (Filter α) × List (Transform α))
  | .list l => do
    let (filters, transformers) ← separate l
    return ([finish filters transformers], [])
  | .object (some f) _ _ => .ok ([.custom f], [])
  | .object none (some t) _ => .ok ([], [t])
  | .object none none (some t) => .ok ([], [t])
  | .object none none none => .error .typeError
/-- openid/yadis/filters.py:184-204: the loop -/
def separate {α : Type} : List (Part α) → Except PyErr (List (Filter α) × List (Transform α))
  | [] => .ok ([], [])
  | p :: rest => do
    let (fs, ts) ← classify p
    let (filters, transformers) ← separate rest
    return (fs ++ filters, ts ++ transformers)
end

/-- openid/yadis/filters.py:174-212 `mkCompoundFilter` -/
def mkCompoundFilter {α : Type} (parts : List (Part α)) : Except PyErr (Filter α) := do
  let (filters, transformers) ← separate parts
  return finish filters transformers

/-- openid/yadis/filters.py:157-171 `mkFilter`; for `None` see `anyService` -/
def mkFilter {α : Type} : Part α → Except PyErr (Filter α)
  | .list l => mkCompoundFilter l
  | .object s b c => mkCompoundFilter [.object s b c]

/-- openid/yadis/filters.py:163-164, 55-66: the class `BasicServiceEndpoint`, which stands for `None`; called with one
    argument it raises `TypeError` -/
def anyService : Part Basic := .object none (some fun b => .ok (some b)) (some fun _ => .error .typeError)

/-- openid/yadis/services.py:51-56: the loop over the services -/
def allEndpoints {α : Type} (W : World) (f : Filter α) (url : Str) : Nat → List Elem → Except PyErr (List α)
  | _, [] => .ok []
  | i, s :: rest => do
    let here ← f.get W.digits W.shuffleURIs url s i
    let more ← allEndpoints W f url (i + f.shuffles) rest
    return here ++ more

/-- openid/yadis/services.py:37-56 `applyFilter` -/
def applyFilter {α : Type} (W : World) (flt : Part α) (url : Str) (body : Bytes) : Except PyErr (List α) := do
  let f ← mkFilter flt
  let root ← Etxrd.parseXRDS (W.xml body)
  let services ← Etxrd.iterServices W.digits (W.shuffle 0) root
  allEndpoints W f url 0 services

/-- openid/yadis/services.py:29-33: `XRDSError` and its subclass `XRDSFraud` become `DiscoveryFailure` -/
def noDocument {α : Type} : Except PyErr α → Except PyErr α
  | .error .xrdsError => .error .discoveryFailure
  | .error .xrdsFraud => .error .discoveryFailure
  | r => r

/-- openid/yadis/services.py:9-34 `getServiceEndpoints` -/
def getServiceEndpoints {α : Type} (W : World) (url : Str) (flt : Part α) : Prog (Str × List α) := do
  let r ← yadisDiscover W url
  let endpoints ← Prog.ofPy (noDocument (applyFilter W flt r.normalizedUri r.body))
  return (r.normalizedUri, endpoints)

/-- openid/consumer/discover.py:191-200: the class `OpenIDServiceEndpoint` as a filter -/
def openidService : Part Endpoint :=
  .object none (some fun b => Discover.fromBasicServiceEndpoint b.yadisUrl b.types b.service b.uri) none

/-! ## Realm discovery -/

/-- openid/server/trustroot.py:342-362 `_extractReturnURL`, a function -/
def returnURLs : Part Str := .object none none (some fun b => .ok (TrustRoot.extractReturnURL ⟨b.types, b.uri⟩))

/-- openid/server/trustroot.py:395-408 `getAllowedReturnURLs` -/
def getAllowedReturnURLs (W : World) (url : Str) : Prog (List Str) := do
  let (after, urls) ← getServiceEndpoints W url returnURLs
  let a ← Prog.ofPy (Urinorm.urinorm W.uni after)
  let b ← Prog.ofPy (Urinorm.urinorm W.uni url)
  if a ≠ b then .done (.error .realmRedirected) else return urls

/-- openid/server/trustroot.py:413-442 `verifyReturnTo` -/
def verifyReturnTo (W : World) (realm returnTo : Str) : Prog Bool :=
  match TrustRoot.parse W.uni realm with
  | .error e => .done (.error e)
  | .ok none => .done (.ok false)
  | .ok (some r) =>
    match TrustRoot.buildDiscoveryURL r with
    | .error e => .done (.error e)
    | .ok url => (getAllowedReturnURLs W url).handle fun o => .done (TrustRoot.decideReturnTo W.uni returnTo o)

end Filters
