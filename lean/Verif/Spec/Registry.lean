import Verif.Model.Message
/-! # What a program registers for messages of OpenID 1 -/

namespace Spec
open Py Message

/-- one call of `registerNamespaceAlias` with a URI and an alias; one that raises leaves the table as it was -/
def regStep (reg : Dict Str Str) (p : Str × Str) : Dict Str Str := (registerNamespaceAlias reg p.1 p.2).getD reg

/-- the table after a program has called `registerNamespaceAlias` any number of times, starting with nothing registered -/
def registry (calls : List (Str × Str)) : Dict Str Str := calls.foldl regStep []

/-- Whether a call of `registerNamespaceAlias` takes effect, by the calls before it: no call that took effect has registered
    its URI or its alias. -/
def TookEffect (calls : List (Str × Str)) (i : Nat) : Prop :=
  ∃ p, calls[i]? = some p ∧ ∀ j, (h : j < i) → TookEffect calls j → ∀ p', calls[j]? = some p' → p'.1 ≠ p.1 ∧ p'.2 ≠ p.2
termination_by i

end Spec
