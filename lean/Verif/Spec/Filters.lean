import Verif.Model.Filters
import Verif.Spec.Discover
import Verif.Spec.TrustRoot
/-! # What filters give, and what a realm publishes -/

namespace Spec
open Py Xml Discover Filters

/-- Something in the filter is no list, no filter, no endpoint class and cannot be called. -/
inductive Unfit {α : Type} : Part α → Prop
  | object : Unfit (.object none none none)
  | list {p : Part α} {l : List (Part α)} : p ∈ l → Unfit p → Unfit (.list l)

/-- A part that is neither a list nor a filter of its own counts as a function from basic endpoints. -/
def functionOf {α : Type} : Part α → Option (Transform α)
  | .object none (some t) _ => some t
  | .object none none t => t
  | _ => none

/-- a filter a user wrote, or a list of functions of which the first that gives something counts -/
inductive Stage (α : Type) where
  | whole (f : Custom α)
  | first (functions : List (Transform α))

mutual
/-- the stages of a filter: of a list, those of its members in turn, and last its functions, all together -/
def stages {α : Type} : Part α → List (Stage α)
  | .list l => stagesIn l ++ (if l.filterMap functionOf = [] then [] else [.first (l.filterMap functionOf)])
  | .object (some f) _ _ => [.whole f]
  | .object none _ _ => []
def stagesIn {α : Type} : List (Part α) → List (Stage α)
  | [] => []
  | p :: rest => stages p ++ stagesIn rest
end

/-- The stages are run one after the other, and what they give is put together; the first exception ends it.  Each list of
    functions is run by `run`, with the number of those before it. -/
def runStages {α : Type} (whole : Custom α → Except PyErr (List α)) (run : Nat → List (Transform α) → Except PyErr (List α)) :
    Nat → List (Stage α) → Except PyErr (List α)
  | _, [] => .ok []
  | i, .whole f :: rest => do return (← whole f) ++ (← runStages whole run i rest)
  | i, .first fs :: rest => do return (← run i fs) ++ (← runStages whole run (i + 1) rest)

/-- What the first of the functions gives that gives something. -/
def FirstOf {α : Type} (fs : List (Transform α)) (b : Basic) (r : Option α) : Prop :=
  (r = none ∧ ∀ f ∈ fs, f b = .ok none) ∨
  ∃ pre f post e, r = some e ∧ fs = pre ++ f :: post ∧ (∀ g ∈ pre, g b = .ok none) ∧ f b = .ok (some e)

/-- The URIs of a service, by priority; a service without any has one that is `None`. -/
def UrisOf (X : ExtraDigits) (service : Elem) (uris : List (Option Str)) : Prop :=
  ∃ elems : List Elem, elems.Perm (uriElems service) ∧ elems.Pairwise (MayPrecede X) ∧
    uris = if elems = [] then [none] else elems.map (·.text)

/-- the services of a document: those of its last XRD -/
def ServicesOf (root : Elem) (services : List Elem) : Prop :=
  root.tag = t!"{xri://$xrds}XRDS" ∧
  ∃ xrd, (root.children.filter fun c => c.tag = t!"{xri://$xrd*($v*2.0)}XRD").getLast? = some xrd ∧
    services = xrd.children.filter fun c => c.tag = t!"{xri://$xrd*($v*2.0)}Service"

/-- The requests were one for the page at `url`, asking for an XRDS document, and, if the page is not that document and says
    where it is, one for the document; both were answered. -/
def Fetched (W : World) (gets : List Get) (url : Str) (page : Page) (document : Bytes) : Prop :=
  ∃ g rest, gets = g :: rest ∧ g.url = url ∧
    g.accept = some t!"text/html; q=0.3, application/xhtml+xml; q=0.5, application/xrds+xml" ∧ Got g page ∧
    ((rest = [] ∧ document = page.body ∧
        (whereIsYadis W page = .ok none ∨ whereIsYadis W page = .ok (some []) ∨ whereIsYadis W page = .ok (some page.finalUrl))) ∨
     ∃ g2 page2, rest = [g2] ∧ g2.accept = none ∧ whereIsYadis W page = .ok (some g2.url) ∧ g2.url ≠ page.finalUrl ∧
       Got g2 page2 ∧ document = page2.body)

/-- The document names the URL as one to which a provider may send users back. -/
def Publishes (W : World) (document : Bytes) (url : Str) : Prop :=
  ∃ root services, W.xml document = some root ∧ ServicesOf root services ∧
    ∃ s ∈ services, t!"http://specs.openid.net/auth/2.0/return_to" ∈ typesOf s ∧ ∃ u ∈ uriElems s, u.text = some url

end Spec
