import Verif.Spec.Consumer
/-! # Completions against one store -/

namespace Spec
open Py Message Store Discover Consumer

/-- A call of `complete`: what it was given, what it did and what came of it. -/
structure Completion where
  env : Consumer.Env
  session : UserSession
  query : Dict Str Str
  current : Str
  events : List Ev
  result : Except Err (UserSession × Except Err Consumer.Response)

/-- The call can go this way.  A query is a dictionary: no name occurs twice. -/
def Completion.Ran (W : World) (C : Conf) (x : Completion) : Prop :=
  Dict.WF x.query ∧ Consumer.Runs (complete W C x.env x.session x.query x.current) x.events x.result

/-- the endpoint of a successful response -/
def Completion.succeeded (x : Completion) : Option Endpoint :=
  match x.result with
  | .ok (_, .ok (.success e _ _)) => some e
  | _ => none

/-- the calls of the store among what was done -/
def storeCalls (evs : List Ev) : List (Op × Outcome) :=
  evs.filterMap fun
    | .store op o => some (op, o)
    | _ => none

/-- The call succeeded, with a nonce of this server, time and salt. -/
def Completion.acceptedWith (W : World) (server : Str) (timestamp : Int) (salt : Str) (x : Completion) : Bool :=
  match x.succeeded with
  | some e => match nonceIn x.query e.serverUrl with
    | (some nonce, server') => server' = server && decide (Nonce.split W.digits nonce = .ok (timestamp, salt))
    | _ => false
  | none => false

/-- No nonce is taken twice in these calls. -/
def OnceEach (calls : List (Op × Outcome)) : Prop :=
  ∀ url timestamp salt, calls.count (.useNonce url timestamp salt, .ok (.bool true)) ≤ 1

/-- The completions' calls of the store are among these, in whatever order and with whatever calls of others between. -/
def Among (runs : List Completion) (calls : List (Op × Outcome)) : Prop :=
  ∀ x, (runs.flatMap fun r => storeCalls r.events).count x ≤ calls.count x

end Spec
