import Verif.Spec.ConsumerAssociate
import Verif.Spec.Completion
/-! # What the beginning of a login may ask for and change outside, whatever comes of it -/

namespace Spec
open Py Message Association Cryptutil Store Discover Consumer

/-- the services that a session still has for this identifier -/
def remaining (s : UserSession) (url : Str) : List Endpoint :=
  match s.manager with
  | some m => if url = m.startingUrl ∨ url = m.yadisUrl then m.services else []
  | none => []

/-- the services to be tried: those that the session still has, or else those just found -/
def Offered (s : UserSession) (url : Str) (found : List Ev) (services : List Endpoint) : Prop :=
  (found = [] ∧ remaining s url = services ∧ services ≠ []) ∨
  (remaining s url = [] ∧ ∃ yadisUrl, found = [.discover url (.ok (yadisUrl, services))])

/-- The four steps in which a beginning leads to calls: `found` is discovery, `looked` the search for an association, `asked` the
    requests for one, `kept` its storing. -/
structure Begun (W : World) (C : Conf) (E : Consumer.Env) (s : UserSession) (url server : Str)
    (found looked asked kept : List Ev) : Prop where
  /-- discovery is of the identifier given, if the session has no services left for it -/
  discovery : AtMostOne (fun ev => remaining s url = [] ∧ ∃ o, ev = .discover url o) found
  /-- the server of the further calls is that of the first service to be tried -/
  endpoint : looked ++ asked ++ kept = [] ∨ ∃ e rest, Offered s url found (e :: rest) ∧ e.serverUrl = server
  lookup : AtMostOne (fun ev => C.hasStore = true ∧ ∃ o, ev = .store (.getAssociation server none) o) looked
  requests : asked.length ≤ 2 ∧ ∀ ev ∈ asked, ∃ body o, ev = .post server body o
  /-- an association is asked for only if the store has none that can still be used -/
  needed : asked = [] ∨ ∃ a, looked = [.store (.getAssociation server none) (.ok (.assoc a))] ∧
    ∀ x, a = some x → ¬ 0 < x.getExpiresIn (E.seconds W)
  /-- what is stored was granted in a reply -/
  storing : AtMostOne (fun ev => ∃ a o, ev = .store (.storeAssociation server a) o ∧
    ∃ body reply p, .post server body reply ∈ asked ∧ p ∈ C.negotiator ∧ Granted W E p.2 body reply a) kept

end Spec
