import Verif.Model.Association
/-! # What a store is supposed to do

The operations of openid/store/interface.py, a history of them, and two specifications that know nothing
of how a store keeps its data: the map of associations held after a history, and the nonces used in it. -/

namespace Store
open Py Association

/-- The operations a program may call on a store.  Timestamps are whole seconds. -/
inductive Op where
  | storeAssociation (url : Str) (a : Assoc)
  | getAssociation (url : Str) (handle : Option Str)
  | removeAssociation (url handle : Str)
  | useNonce (url : Str) (timestamp : Int) (salt : Str)
  | cleanupNonces
  | cleanupAssociations
  deriving DecidableEq

/-- What an operation answers. -/
inductive Answer where
  | nothing
  | assoc (a : Option Assoc)
  | bool (b : Bool)
  | count (n : Nat)
  deriving DecidableEq

/-- The clock, `time.time()`: a number of ticks, `tick` of them to a second.  `int(time.time())` is the
    whole number of seconds. -/
structure Clock where
  tick : Nat
  pos : 0 < tick

/-- a point of a history: the time of the call and the operation -/
abbrev Event := Nat × Op

def Clock.seconds (c : Clock) (now : Nat) : Int := now / c.tick

/-- `timestamp` (in seconds) is within `skew` seconds of `now`, either way -/
def Clock.within (c : Clock) (skew : Int) (now : Nat) (timestamp : Int) : Prop :=
  now - skew * c.tick ≤ timestamp * c.tick ∧ timestamp * c.tick ≤ now + skew * c.tick

instance (c : Clock) (skew : Int) (now : Nat) (timestamp : Int) :
    Decidable (c.within skew now timestamp) := inferInstanceAs (Decidable (_ ∧ _))

/-- an association is expired when its lifetime has run out -/
def expired (seconds : Int) (a : Assoc) : Prop := a.issued + a.lifetime ≤ seconds

instance (s : Int) (a : Assoc) : Decidable (expired s a) := inferInstanceAs (Decidable (_ ≤ _))

/-- times never run backwards along the history -/
def Monotone (h : List Event) : Prop := h.Pairwise fun a b => a.1 ≤ b.1

instance (h : List Event) : Decidable (Monotone h) := inferInstanceAs (Decidable (List.Pairwise _ _))

/-- Associations by server and handle. -/
abbrev AssocMap := Str → Str → Option Assoc

/-- the effect of one operation on the associations held -/
def heldStep (c : Clock) (m : AssocMap) : Event → AssocMap
  | (_, .storeAssociation url a) => fun u h => if u = url ∧ h = a.handle then some a else m u h
  | (_, .removeAssociation url handle) => fun u h => if u = url ∧ h = handle then none else m u h
  | (now, .cleanupAssociations) => fun u h =>
      (m u h).filter fun a => ¬ expired (c.seconds now) a
  | _ => m

/-- The associations held after a history: the last one stored under a server and handle, unless it was
    removed or cleaned up since. -/
def held (c : Clock) (hist : List Event) : AssocMap := hist.foldl (heldStep c) fun _ _ => none

/-- all answers of a store, from its step function -/
def answers {σ : Type} (step : σ → Event → σ × Answer) : σ → List Event → List Answer
  | _, [] => []
  | s, e :: r => (step s e).2 :: answers step (step s e).1 r

/-- the state after a history -/
def after {σ : Type} (step : σ → Event → σ × Answer) (s : σ) (hist : List Event) : σ :=
  hist.foldl (fun s e => (step s e).1) s

/-- in the history, some call `useNonce(url, timestamp, salt)` answered `True` -/
def NonceTaken {σ : Type} (step : σ → Event → σ × Answer) (s : σ) (hist : List Event)
    (url : Str) (timestamp : Int) (salt : Str) : Prop :=
  ∃ pre now post, hist = pre ++ (now, .useNonce url timestamp salt) :: post ∧
    (step (after step s pre) (now, .useNonce url timestamp salt)).2 = .bool true

/-! ## Stores whose operations may fail

A trace is what an observer sees: the calls, their times, and what came back, an answer or an exception. -/

abbrev Outcome := Except PyErr Answer
abbrev Trace := List (Event × Outcome)

/-- the effect of one observed call on the associations last stored; a call that raised had none -/
def lastStep (m : AssocMap) : Event × Outcome → AssocMap
  | ((_, .storeAssociation url a), .ok _) => fun u h => if u = url ∧ h = a.handle then some a else m u h
  | ((_, .removeAssociation url handle), .ok _) => fun u h => if u = url ∧ h = handle then none else m u h
  | _ => m

/-- The association last stored under a server and handle and not removed since; expiry and cleanups
    play no part. -/
def lastStored (tr : Trace) : AssocMap := tr.foldl lastStep fun _ _ => none

/-- The rows an SQL store keeps: as `lastStored`, but a lookup deletes the expired rows it meets, and
    `cleanupAssociations` those whose lifetime ended before the current second. -/
def tableStep (c : Clock) (m : AssocMap) : Event × Outcome → AssocMap
  | (_, .error _) => m
  | ((_, .storeAssociation url a), .ok _) => fun u h => if u = url ∧ h = a.handle then some a else m u h
  | ((_, .removeAssociation url handle), .ok _) => fun u h => if u = url ∧ h = handle then none else m u h
  | ((now, .getAssociation url handle), .ok _) => fun u h =>
      if u = url ∧ (handle = none ∨ handle = some h)
      then (m u h).filter fun a => ¬ expired (c.seconds now) a else m u h
  | ((now, .cleanupAssociations), .ok _) => fun u h =>
      (m u h).filter fun a => ¬ a.issued + a.lifetime < c.seconds now
  | _ => m

def tableRows (c : Clock) (tr : Trace) : AssocMap := tr.foldl (tableStep c) fun _ _ => none

/-- what of a map is still alive at a time -/
def alive (c : Clock) (now : Nat) (m : AssocMap) : AssocMap := fun u h =>
  (m u h).filter fun a => ¬ expired (c.seconds now) a

/-- some observed call `useNonce(url, timestamp, salt)` answered `True` -/
def TakenIn (tr : Trace) (url : Str) (timestamp : Int) (salt : Str) : Prop :=
  ∃ now, ((now, Op.useNonce url timestamp salt), (Except.ok (Answer.bool true) : Outcome)) ∈ tr

/-- times never run backwards along the trace -/
def Trace.Monotone (tr : Trace) : Prop := tr.Pairwise fun a b => a.1.1 ≤ b.1.1

end Store
