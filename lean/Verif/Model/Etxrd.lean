import Verif.Base.Xml
import Verif.Base.PyInt
import Verif.Model.Xri
import Verif.Model.Nonce
/-! # Model of openid/yadis/etxrd.py

Over element trees; `parseXRDS` (lines 47-69) is modelled from the parsed tree on.  `random.shuffle` is a function given from outside, one for each call. -/

namespace Etxrd
open Py Xml

/-- openid/yadis/etxrd.py:72, 76-77, 80-86 -/
def xrdTag (name : Str) : Str := t!"{xri://$xrd*($v*2.0)}" ++ name
/-- openid/yadis/etxrd.py:99 `root_tag` -/
def rootTag : Str := t!"{xri://$xrds}XRDS"
/-- openid/yadis/etxrd.py:100-107 -/
def serviceTag : Str := xrdTag t!"Service"
def xrdElemTag : Str := xrdTag t!"XRD"
def typeTag : Str := xrdTag t!"Type"
def uriTag : Str := xrdTag t!"URI"
def canonicalIDTag : Str := xrdTag t!"CanonicalID"
def expiresTag : Str := xrdTag t!"Expires"

/-- openid/yadis/etxrd.py:110-113 `isXRDS` -/
def isXRDS (root : Elem) : Bool := root.tag = rootTag

/-- openid/yadis/etxrd.py:47-69 `parseXRDS`, where parsing as XML gives `tree` (or fails) -/
def parseXRDS (tree : Option Elem) : Except PyErr Elem :=
  match tree with
  | some root => if isXRDS root then .ok root else .error .xrdsError
  | none => .error .xrdsError

/-- openid/yadis/etxrd.py:116-130 `getYadisXRD`: the last XRD -/
def getYadisXRD (root : Elem) : Except PyErr Elem :=
  match (root.findall xrdElemTag).getLast? with
  | some x => .ok x
  | none => .error .xrdsError

/-- `datetime(*t[0:6])`, for a time that `strptime` gave: `datetime` has no leap seconds -/
def toDatetime (t : Nonce.Tm) : Except PyErr Nonce.Tm := if t.sec ≤ 59 then .ok t else .error .valueError

/-- openid/yadis/etxrd.py:133-155 `getXRDExpiration`; the format is the one of nonces, and the text of an empty element
    is `None`, which `strptime` does not take -/
def getXRDExpiration (X : ExtraDigits) (xrd : Elem) (default : Option Nonce.Tm) : Except PyErr (Option Nonce.Tm) :=
  match (xrd.findall expiresTag).head? with
  | none => .ok default
  | some e => match e.text with
    | none => .error .typeError
    | some text => do
      let t ← Nonce.strptime X text
      let d ← toDatetime t
      return some d

/-- `xri.XRI(text)`, where the text may be `None` -/
def xriOf : Option Str → Except PyErr Str
  | some t => .ok (Xri.XRI t)
  | none => .error .attributeError

/-- openid/yadis/etxrd.py:180-187, for the remaining XRDs from the end on: the last child sought -/
def climb (U : Url.Uni) (childID : Str) : List Elem → Except PyErr Str
  | [] => .ok childID
  | xrd :: rest => do
    let sought ← Xri.parentOf childID
    let parent ← xriOf (xrd.findtext canonicalIDTag)
    if sought ≠ Url.lower U parent then .error .xrdsFraud else climb U sought rest

/-- openid/yadis/etxrd.py:178-193: the checks on a CanonicalID found in the last XRD -/
def verifyCanonicalID (U : Url.Uni) (iname canonicalID : Str) (rest : List Elem) : Except PyErr (Option Str) := do
  let top ← climb U (Url.lower U canonicalID) rest
  let root ← Xri.rootAuthority iname
  let ok ← Xri.providerIsAuthoritative root top
  if ok then return some canonicalID else throw .xrdsFraud

/-- openid/yadis/etxrd.py:158-193 `getCanonicalID` -/
def getCanonicalID (U : Url.Uni) (iname : Str) (root : Elem) : Except PyErr (Option Str) :=
  match (root.findall xrdElemTag).reverse with
  | [] => .ok none
  | xrd :: rest =>
    match xrd.findall canonicalIDTag with
    | [] => .ok none
    | c :: _ => do
      let canonicalID ← xriOf c.text
      verifyCanonicalID U iname canonicalID rest

/-- openid/yadis/etxrd.py:213-229 `getPriorityStrict`; `none` is `Max` -/
def getPriorityStrict (X : ExtraDigits) (e : Elem) : Except PyErr (Option Nat) :=
  match e.get t!"priority" with
  | none => .ok none
  | some s => do
    let n ← parseInt X s
    if 0 ≤ n then return some n.toNat else throw .valueError

/-- openid/yadis/etxrd.py:232-240 `getPriority` -/
def getPriority (X : ExtraDigits) (e : Elem) : Option Nat :=
  match getPriorityStrict X e with
  | .ok p => p
  | .error _ => none

/-- openid/yadis/etxrd.py:196-210: the order of priorities; `Max` is greater than every number -/
def prioLe : Option Nat → Option Nat → Bool
  | some a, some b => a ≤ b
  | some _, none => true
  | none, some _ => false
  | none, none => true

/-- openid/yadis/etxrd.py:243-251 `prioSort`; `sorted` is stable -/
def prioSort (X : ExtraDigits) (shuffle : List Elem → List Elem) (elements : List Elem) : List Elem :=
  ((sortBy (fun a b => prioLe a.1 b.1) ((shuffle elements).map fun e => (getPriority X e, e))).map (·.2))

/-- openid/yadis/etxrd.py:254-259 `iterServices` -/
def iterServices (X : ExtraDigits) (shuffle : List Elem → List Elem) (root : Elem) : Except PyErr (List Elem) := do
  let xrd ← getYadisXRD root
  return prioSort X shuffle (xrd.findall serviceTag)

/-- openid/yadis/etxrd.py:262-266 `sortedURIs` -/
def sortedURIs (X : ExtraDigits) (shuffle : List Elem → List Elem) (service : Elem) : List (Option Str) :=
  (prioSort X shuffle (service.findall uriTag)).map (·.text)

/-- openid/yadis/etxrd.py:269-281 `getTypeURIs`; an empty element has no text, and `None` has no `decode` -/
def getTypeURIs (service : Elem) : Except PyErr (List Str) :=
  (service.findall typeTag).mapM fun e => match e.text with
    | some t => .ok t
    | none => .error .attributeError

/-- openid/yadis/etxrd.py:284-297 `expandService` (the third component is the service itself) -/
def expandService (X : ExtraDigits) (shuffle : List Elem → List Elem) (service : Elem) :
    Except PyErr (List (List Str × Option Str)) :=
  let uris := sortedURIs X shuffle service
  let uris := if uris.isEmpty then [none] else uris
  uris.mapM fun u => do
    let types ← getTypeURIs service
    return (types, u)

/-- openid/yadis/etxrd.py:300-316 `expandServices`; each service with the shuffle of its URIs -/
def expandServices (X : ExtraDigits) : List (Elem × (List Elem → List Elem)) → Except PyErr (List (List Str × Option Str × Elem))
  | [] => .ok []
  | (e, shuffle) :: rest => do
    let l ← expandService X shuffle e
    let r ← expandServices X rest
    return l.map (fun p => (p.1, p.2, e)) ++ r

end Etxrd
