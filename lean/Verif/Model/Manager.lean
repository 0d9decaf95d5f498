import Verif.Base.Py
/-! # Model of openid/yadis/manager.py

The services are values of any type.  The session is the one entry the class uses, `session[_yadis_services_<suffix>]`;
storing an object in it that the caller keeps changing is modelled as storing the changed value. -/

namespace Manager
open Py

/-- openid/yadis/manager.py:4-21 `YadisServiceManager` -/
structure Manager (σ : Type) where
  startingUrl : Str
  yadisUrl : Str
  services : List σ
  current : Option σ
  deriving DecidableEq, Repr

variable {σ : Type}

/-- openid/yadis/manager.py:49-50 `forURL` -/
def Manager.forURL (m : Manager σ) (url : Str) : Bool := url = m.startingUrl || url = m.yadisUrl

/-- openid/yadis/manager.py:23-25 `__len__`, the truth value of a manager -/
def Manager.truthy (m : Manager σ) : Bool := !m.services.isEmpty

/-- openid/yadis/manager.py:150-164 `getManager` -/
def getManager (session : Option (Manager σ)) (url : Str) (force : Bool) : Option (Manager σ) :=
  match session with
  | some m => if m.forURL url || force then some m else none
  | none => none

/-- openid/yadis/manager.py:186-198 `destroyManager`: the session after it -/
def destroyManager (session : Option (Manager σ)) (url : Str) (force : Bool) : Option (Manager σ) :=
  if (getManager session url force).isSome then none else session

/-- truth value of `None` or a manager -/
def truthyOpt : Option (Manager σ) → Bool
  | some m => m.truthy
  | none => false

/-- openid/yadis/manager.py:104-106: an exhausted manager is removed -/
def dropEmpty (session : Option (Manager σ)) (url : Str) : Option (Manager σ) :=
  match getManager session url false with
  | some m => if m.truthy then session else destroyManager session url false
  | none => session

/-- openid/yadis/manager.py:166-184 `createManager`: the new manager and the session after it -/
def createManager (session : Option (Manager σ)) (url yadisUrl : Str) (services : List σ) :
    Except PyErr (Option (Manager σ) × Option (Manager σ)) :=
  if truthyOpt (getManager session url false) then .error .keyError
  else if services.isEmpty then .ok (none, session)
  else .ok (some ⟨url, yadisUrl, services, none⟩, some ⟨url, yadisUrl, services, none⟩)

/-- openid/yadis/manager.py:30-40, 112-116: take the next service and store the manager -/
def takeNext (session : Option (Manager σ)) : Option (Manager σ) → Option σ × Option (Manager σ)
  | some m =>
    match m.services with
    | s :: rest => (some s, some { m with services := rest, current := some s })
    | [] => (none, session)
  | none => (none, session)

/-- openid/yadis/manager.py:91-118 `getNextService`, the part before discovery: either a manager to go on with, or
    discovery is needed (and the session left by then) -/
def beforeDiscovery (session : Option (Manager σ)) (url : Str) : Option (Option σ × Option (Manager σ)) :=
  match getManager session url false with
  | some m => if m.truthy then some (takeNext session (some m)) else none
  | none => none

/-- openid/yadis/manager.py:108-118, after discovery returned `(yadis_url, services)` -/
def afterDiscovery (session : Option (Manager σ)) (url yadisUrl : Str) (services : List σ) :
    Except PyErr (Option σ × Option (Manager σ)) := do
  let (m, s) ← createManager (dropEmpty session url) url yadisUrl services
  return takeNext s m

/-- What a call of `getNextService` did: whether it ran discovery, what it returned or raised, the session after it. -/
structure Next (σ : Type) where
  asked : Bool
  result : Except PyErr (Option σ)
  session : Option (Manager σ)

/-- openid/yadis/manager.py:91-118 `getNextService`, where discovery, if it is run, comes to `d` -/
def getNextService (session : Option (Manager σ)) (url : Str) (d : Except PyErr (Str × List σ)) : Next σ :=
  match beforeDiscovery session url with
  | some (e, m) => ⟨false, .ok e, m⟩
  | none =>
    match d with
    | .error x => ⟨true, .error x, dropEmpty session url⟩
    | .ok (yadisUrl, services) =>
      match afterDiscovery session url yadisUrl services with
      | .ok (e, m) => ⟨true, .ok e, m⟩
      | .error x => ⟨true, .error x, dropEmpty session url⟩

/-- openid/yadis/manager.py:120-138 `cleanup`: the current service and the session after it -/
def cleanup (session : Option (Manager σ)) (url : Str) (force : Bool) : Option σ × Option (Manager σ) :=
  match getManager session url force with
  | some m => (m.current, destroyManager session url force)
  | none => (none, session)

end Manager
