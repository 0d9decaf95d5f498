import Verif.Spec.Manager
import Verif.Model.Consumer
/-! # What happens in one user's session: calls of `begin` and `complete` -/

namespace Spec
open Py Discover Consumer

/-- A call with what it did and what came of it. -/
inductive Visit where
  | begin (env : Env) (url : Str) (anonymous : Bool) (evs : List Ev)
      (result : Except Err (UserSession × Except Err AuthRequest))
  | complete (env : Env) (query : Dict Str Str) (current : Str) (evs : List Ev)
      (result : Except Err (UserSession × Except Err Response))

/-- The calls can go this way, one after another in the same session. -/
def Visits (W : World) (C : Conf) : UserSession → List Visit → UserSession → Prop
  | s, [], s' => s = s'
  | s, .begin E url anonymous evs r :: rest, s' =>
    Runs (Consumer.begin W C E s url anonymous) evs r ∧ ∃ s1 o, r = .ok (s1, o) ∧ Visits W C s1 rest s'
  | s, .complete E query current evs r :: rest, s' =>
    Runs (Consumer.complete W C E s query current) evs r ∧ ∃ s1 o, r = .ok (s1, o) ∧ Visits W C s1 rest s'

/-- the discoveries among what was done -/
def discoveries (evs : List Ev) : List (Str × Except PyErr (Str × List Endpoint)) :=
  evs.filterMap fun
    | .discover id o => some (id, o)
    | _ => none

/-- What a call means for the discovered services.  `begin` takes the next one: what it discovers, it discovers for its URL;
    if it returns a request, the request is for the service taken; if there is none, or discovery raised, it raises.  A
    completion that succeeded or was cancelled, with an identifier, discards the services. -/
def Means : Visit → List (ServiceCall Endpoint) → Prop
  | .begin _ url _ evs r, calls => ∃ found handed, calls = [.next url found handed] ∧
      discoveries evs = (found.map fun d => (url, d)).toList ∧
      (∀ s q, r = .ok (s, .ok q) → handed = .ok (some q.endpoint)) ∧
      (∀ s o, r = .ok (s, o) → (∀ x, handed ≠ .ok (some x)) → ∃ e, o = .error e)
  | .complete _ _ _ _ r, calls => ∃ s o, r = .ok (s, o) ∧
      match o with
      | .ok resp@(.success ..) | .ok resp@(.cancel _) => match resp.identityUrl with
        | some u => ∃ current, calls = [.cleanup u true current]
        | none => calls = []
      | _ => calls = []

end Spec
