import Verif.Model.Server
/-! # What the server's store does, and histories of server calls -/

namespace Store
open Py Association

/-- `m'` is `m`, except that associations that have expired may be gone -/
def Fades (seconds : Int) (m m' : AssocMap) : Prop :=
  ∀ url handle, m' url handle = m url handle ∨
    (m' url handle = none ∧ ∃ a, m url handle = some a ∧ expired seconds a)

/-- A store that keeps associations by server and handle.  Any call may raise, and then nothing is stored or
    removed.  Expired associations may be forgotten or withheld at any time.  `view` is what it holds. -/
structure Faithful {σ : Type} (c : Clock) (step : σ → Event → σ × Outcome) (view : σ → AssocMap) : Prop where
  put : ∀ s now url a,
    (∃ r, (step s (now, .storeAssociation url a)).2 = .ok r ∧
      view (step s (now, .storeAssociation url a)).1 =
        fun u h => if u = url ∧ h = a.handle then some a else view s u h) ∨
    (∃ e, (step s (now, .storeAssociation url a)).2 = .error e ∧
      view (step s (now, .storeAssociation url a)).1 = view s)
  get : ∀ s now url handle,
    Fades (c.seconds now) (view s) (view (step s (now, .getAssociation url (some handle))).1) ∧
    ((∃ e, (step s (now, .getAssociation url (some handle))).2 = .error e) ∨
     (∃ r, (step s (now, .getAssociation url (some handle))).2 = .ok (.assoc r) ∧
        (r = view s url handle ∨ r = none ∧ ∃ a, view s url handle = some a ∧ expired (c.seconds now) a)))
  remove : ∀ s now url handle,
    (∃ r, (step s (now, .removeAssociation url handle)).2 = .ok r ∧
      view (step s (now, .removeAssociation url handle)).1 =
        fun u h => if u = url ∧ h = handle then none else view s u h) ∨
    (∃ e, (step s (now, .removeAssociation url handle)).2 = .error e ∧
      view (step s (now, .removeAssociation url handle)).1 = view s)
  nonce : ∀ s now url t salt, view (step s (now, .useNonce url t salt)).1 = view s
  cleanNonces : ∀ s now, view (step s (now, .cleanupNonces)).1 = view s
  cleanAssocs : ∀ s now, Fades (c.seconds now) (view s) (view (step s (now, .cleanupAssociations)).1)

end Store

namespace Spec
open Py Message Association Store Server

/-- The calls a program can make on a server and its signatory, and housekeeping of the store. -/
inductive Call where
  /-- `Server.handleRequest` (or `openid_associate`) on an associate request, with the server's negotiator -/
  | associate (negotiator : Negotiator) (r : AssociateRequest)
  /-- `Server.handleRequest` on a check_authentication request -/
  | checkAuth (r : CheckAuthRequest)
  /-- `Signatory.sign` -/
  | sign (r : Response)
  | createAssociation (dumb : Bool) (assocType : Str)
  | verify (handle : Str) (m : Msg)
  | getAssociation (handle : Str) (dumb check : Bool)
  | invalidate (handle : Str) (dumb : Bool)
  | cleanupAssociations
  | cleanupNonces

/-- What a call returns. -/
inductive Reply where
  | response (r : Response)
  | assoc (a : Option Assoc)
  | bool (b : Bool)
  | nothing

/-- the model of each call -/
def Call.prog (W : World) (E : Env) : Call → Prog Reply
  | .associate n r => do return .response (← openidAssociate W E n r)
  | .checkAuth r => do return .response (← r.answer W E)
  | .sign r => do return .response (← Server.sign W E r)
  | .createAssociation dumb ty => do return .assoc (some (← Server.createAssociation W E dumb ty))
  | .verify handle m => do return .bool (← Server.verify W E handle m)
  | .getAssociation handle dumb check => do return .assoc (← Server.getAssociation W E handle dumb check)
  | .invalidate handle dumb => do
    Server.invalidate handle dumb
    return .nothing
  | .cleanupAssociations => .call .cleanupAssociations fun _ => pure .nothing
  | .cleanupNonces => .call .cleanupNonces fun _ => pure .nothing

/-- an observed call: what it drew from outside, the call, and what came back -/
structure Seen where
  env : Env
  call : Call
  reply : Except Err Reply

/-- one call after another on a server with this store: what is observed, and the store after -/
def serve {σ : Type} (W : World) (step : σ → Event → σ × Outcome) : σ → List (Env × Call) → List Seen × σ
  | s, [] => ([], s)
  | s, (E, c) :: rest =>
    let (s', reply) := Prog.run step E.now s (c.prog W E)
    let (seen, s'') := serve W step s' rest
    (⟨E, c, reply⟩ :: seen, s'')

/-- A call that makes private associations: signing a response, or creating one with `dumb=True`. -/
def Call.isPrivate : Call → Prop
  | .sign _ => True
  | .createAssociation dumb _ => dumb = true
  | _ => False

/-- A call after which a private handle must no longer verify: check_authentication on it, or invalidating it. -/
def Call.consumes (handle : Str) : Call → Prop
  | .checkAuth r => r.assocHandle = handle
  | .invalidate h dumb => h = handle ∧ dumb = true
  | _ => False

/-- The association a call makes from what it draws: of that type, issued now, for fourteen days, its secret the random
    bytes and its handle `{type}{time in hexadecimal}{four random bytes in base64}`. -/
def Makes (W : World) (E : Env) (a : Assoc) : Prop :=
  ∃ n, (a.assocType = t!"HMAC-SHA1" ∧ n = 20 ∨ a.assocType = t!"HMAC-SHA256" ∧ n = 32) ∧
    a.secret = E.secret n ∧ a.issued = W.clock.seconds E.now ∧ a.lifetime = 1209600 ∧
    a.handle = handleText a.assocType (W.clock.seconds E.now) E.uniq

/-- In the history the private association `a` was made, and its handle was not used up since. -/
def PrivateIn (W : World) (seen : List Seen) (a : Assoc) : Prop :=
  ∃ before x after, seen = before ++ x :: after ∧ x.call.isPrivate ∧ Makes W x.env a ∧
    ∀ y ∈ after, y.call.consumes a.handle → ∃ e, y.reply = .error e

/-- a response says `is_valid:true` -/
def SaysValid (r : Response) : Prop := r.fields.getArg .openid t!"is_valid" = .ok (some t!"true")

/-! ## Calls running at the same time

Any number of calls, each a process or thread of its own, on one store: an execution is the sequence of store
operations in the order they took effect, each with the call that made it and what the store answered. -/

/-- one store operation of an execution -/
structure Act where
  thread : Nat
  op : Op
  outcome : Outcome

/-- what is left of a program after these operations and their outcomes; `none` if it would not make them -/
def follow {α : Type} : Prog α → List (Op × Outcome) → Option (Prog α)
  | p, [] => some p
  | .done _, _ :: _ => none
  | .call op k, (op', o) :: rest =>
    if op = op' then
      match o with
      | .ok a => follow (k a) rest
      | .error e => follow (.done (.error (.py e))) rest
    else none

/-- the operations of one call -/
def own (i : Nat) (acts : List Act) : List (Op × Outcome) :=
  (acts.filter fun x => x.thread == i).map fun x => (x.op, x.outcome)

/-- every call does what its code says; it may have stopped anywhere -/
def Runs (W : World) (calls : Nat → Env × Call) (acts : List Act) : Prop :=
  ∀ i, (follow ((calls i).2.prog W (calls i).1) (own i acts)).isSome = true

/-- the call returned this (or raised it) -/
def Returned (W : World) (calls : Nat → Env × Call) (acts : List Act) (i : Nat) (r : Except Err Reply) : Prop :=
  follow ((calls i).2.prog W (calls i).1) (own i acts) = some (.done r)

/-- whatever the store returns under this name and a handle was stored before, under that name and with that handle -/
def TellsStored (url : Str) (acts : List Act) : Prop :=
  ∀ before x after handle a, acts = before ++ x :: after → x.op = .getAssociation url (some handle) →
    x.outcome = .ok (.assoc (some a)) → a.handle = handle ∧ ∃ y ∈ before, y.op = .storeAssociation url a

/-- an execution on one store, operation by operation -/
def OnStore {σ : Type} (step : σ → Event → σ × Outcome) (now : Nat) : σ → List Act → Prop
  | _, [] => True
  | s, x :: rest => (step s (now, x.op)).2 = x.outcome ∧ OnStore step now (step s (now, x.op)).1 rest

end Spec
