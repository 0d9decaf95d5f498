import Verif.Model.SqlConc
/-! # What is asked of SQL stores used by several clients at once -/

namespace Spec
open Py Association Store SqlStore SqlConc

/-- The executions in which no client is held up for long, for nonces of the time `t`: while a client is in the middle
    of `useNonce` with that time, the clock does not move out of the five hours before and after `t`.  Nothing else is
    asked of the schedule. -/
inductive Prompt (D : Driver) (c : Clock) (t : Int) : Config → Prop where
  | init : Prompt D c t Config.init
  | step {cfg cfg' : Config} (h : Prompt D c t cfg) (h' : Step D c (fun _ _ => True) cfg cfg')
      (hw : ∀ i cl url salt, cfg.clients i = some cl → cl.op = .useNonce url t salt →
        c.within 18000 cfg.clock t → c.within 18000 cfg'.clock t) : Prompt D c t cfg'

/-- how often a call was accepted -/
def accepted (cfg : Config) (url : Str) (t : Int) (salt : Str) : Nat :=
  cfg.returned.countP fun x => decide (x.1 = Op.useNonce url t salt ∧ x.2.2 = .ok (.bool true))

/-- What a lookup called at time `since` may answer: an association somebody set out to store for that
    server, with the handle asked for, not expired at that time. -/
def MayAnswer (c : Clock) (started : List Op) (url : Str) (handle : Option Str) (since : Nat) (a : Assoc) : Prop :=
  Op.storeAssociation url a ∈ started ∧ (∀ h, handle = some h → a.handle = h) ∧ ¬ expired (c.seconds since) a

/-- operations on the association of a server and handle, other than lookups and cleanups -/
def Touches (B : Backend) (url handle : Str) : Op → Prop
  | .storeAssociation u a => B.urlKey u = B.urlKey url ∧ a.handle = handle
  | .removeAssociation u h => u = url ∧ h = handle
  | _ => False

end Spec
