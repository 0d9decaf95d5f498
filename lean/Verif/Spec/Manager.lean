import Verif.Model.Manager
/-! # Histories of calls on the services kept in a session -/

namespace Spec
open Py

/-- A call: the next service for a URL, with what discovery came to if it was run, and the service returned or the
    exception; or a cleanup, with the service returned. -/
inductive ServiceCall (σ : Type) where
  | next (url : Str) (found : Option (Except PyErr (Str × List σ))) (handed : Except PyErr (Option σ))
  | cleanup (url : Str) (force : Bool) (current : Option σ)

variable {σ : Type}

/-- In a session with this entry the calls can go this way, and leave this entry. -/
def ServiceCalls : Option (Manager.Manager σ) → List (ServiceCall σ) → Option (Manager.Manager σ) → Prop
  | s, [], s' => s = s'
  | s, .next url found handed :: rest, s' => ∃ d,
    found = (if (Manager.getNextService s url d).asked then some d else none) ∧
    handed = (Manager.getNextService s url d).result ∧ ServiceCalls (Manager.getNextService s url d).session rest s'
  | s, .cleanup url force current :: rest, s' =>
    current = (Manager.cleanup s url force).1 ∧ ServiceCalls (Manager.cleanup s url force).2 rest s'

/-- the services returned, in order -/
def handedOut (calls : List (ServiceCall σ)) : List σ :=
  calls.filterMap fun
    | .next _ _ (.ok r) => r
    | _ => none

/-- discovery was run and found services -/
def FoundServices : ServiceCall σ → Prop
  | .next _ (some (.ok (_, _ :: _))) _ => True
  | _ => False

/-- the call discards services discovered for `url`, where discovery ended at `final` -/
def Discards (url final : Str) : ServiceCall σ → Prop
  | .cleanup u force _ => force = true ∨ u = url ∨ u = final
  | _ => False

/-- what a call returns that ran discovery: the first service found -/
def firstOf : Except PyErr (Str × List σ) → Except PyErr (Option σ)
  | .ok (_, services) => .ok services.head?
  | .error e => .error e

end Spec
