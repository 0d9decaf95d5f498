import Verif.Model.MemConc
/-! # What is asked of the memory store used by several threads at once -/

namespace MemConc
open Py Association Store MemStore

/-- operations that mind whether a time is within five hours of the clock -/
def Minds (t : Int) : Op → Prop
  | .useNonce _ t' _ => t' = t
  | .cleanupNonces => True
  | _ => False

instance (t : Int) (op : Op) : Decidable (Minds t op) := by
  cases op <;> unfold Minds <;> infer_instance

/-- The executions in which no thread is held up for long, for nonces of the time `t`: while a thread is in the
    middle of `useNonce` with that time or of `cleanupNonces`, the clock does not move into the five hours before and
    after `t` nor out of them.  Nothing else is asked of the schedule. -/
inductive Prompt (c : Clock) (t : Int) : Config → Prop where
  | init : Prompt c t Config.init
  | step {cfg cfg' : Config} (h : Prompt c t cfg) (h' : Step c (fun _ _ => True) cfg cfg')
      (hw : ∀ i cl, cfg.clients i = some cl → Minds t cl.op →
        (c.within 18000 cfg.clock t ↔ c.within 18000 cfg'.clock t)) : Prompt c t cfg'

/-- a call that used up a nonce -/
def Returned.Accepts (url : Str) (t : Int) (salt : Str) (x : Returned) : Prop :=
  x.op = .useNonce url t salt ∧ x.outcome = .ok (.bool true)

instance (url : Str) (t : Int) (salt : Str) (x : Returned) : Decidable (x.Accepts url t salt) :=
  inferInstanceAs (Decidable (_ ∧ _))

/-- the two calls were going on at the same time -/
def Returned.Overlaps (x y : Returned) : Prop := x.began < y.ended ∧ y.began < x.ended

/-- What a lookup may answer: an association somebody set out to store for that server, with the handle asked
    for. -/
def MayAnswer (started : List Op) (url : Str) (handle : Option Str) (a : Assoc) : Prop :=
  Op.storeAssociation url a ∈ started ∧ ∀ h, handle = some h → a.handle = h

/-- operations that change the association of a server and handle, other than cleanups -/
def Touches (url handle : Str) : Op → Prop
  | .storeAssociation u a => u = url ∧ a.handle = handle
  | .removeAssociation u h => u = url ∧ h = handle
  | _ => False

/-- The exceptions that may leave an operation. -/
def MayRaise : Op → PyErr → Prop
  | .getAssociation _ none, e => e = .runtimeError
  | .cleanupNonces, e => e = .runtimeError ∨ e = .keyError
  | .cleanupAssociations, e => e = .runtimeError ∨ e = .keyError
  | _, _ => False

/-- the store as one thread sees it -/
def State.view (s : State) : MemStore.State :=
  ⟨s.servers.items.map fun p => (p.1, (s.heap p.2).items), s.nonces.items⟩

/-- a program that nobody disturbs, from a state, at a time: what it gives and leaves -/
inductive Alone (clock : Nat) : Prog α → State → Except PyErr α → State → Prop where
  | done (r : Except PyErr α) (s : State) : Alone clock (.done r) s r s
  | call (q : Call) (k : Reply q → Prog α) (s : State) (r : Reply q) (s' : State) (x : Except PyErr α) (s'' : State)
      (h : Perform clock q s r s') (h' : Alone clock (k r) s' x s'') : Alone clock (.call q k) s x s''

end MemConc
