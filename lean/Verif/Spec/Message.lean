import Verif.Model.Message
/-! # Specification of message arguments: a plain map from (namespace, key) to values -/

namespace Spec
open Py Message

/-- what a caller can do to a message -/
inductive MsgOp where
  | set (ns : Ns) (key value : Str)
  | del (ns : Ns) (key : Str)
  | update (ns : Ns) (kvs : Dict Str Str)

/-- run one operation on the model; a failing operation leaves the message as it was -/
def msgStep (m : Msg) : MsgOp → Msg
  | .set ns k v => (m.setArg ns k v).toOption.getD m
  | .del ns k => (m.delArg ns k).toOption.getD m
  | .update ns kvs => (m.updateArgs ns kvs).toOption.getD m

/-- which part of the map a namespace argument addresses, for a message whose OpenID namespace is
    `oid`; `none`: refused -/
def resolve (oid : Option Str) : Ns → Option NsKey
  | .openid => oid.map .uri
  | .bare => some .bare
  | .uri u => if u = t!"sreg" then some (.uri t!"http://openid.net/sreg/1.0") else some (.uri u)
  | .other => none

/-- the abstract arguments of a message -/
abbrev ArgMap := NsKey → Str → Option Str

def ArgMap.put (f : ArgMap) (n : NsKey) (k : Str) (v : Option Str) : ArgMap :=
  fun n' k' => if n' = n ∧ k' = k then v else f n' k'

/-- the abstract effect of an operation -/
def mapStep (oid : Option Str) (f : ArgMap) : MsgOp → ArgMap
  | .set ns k v => match resolve oid ns with
    | some n => f.put n k (some v)
    | none => f
  | .del ns k => match resolve oid ns with
    | some n => f.put n k none
    | none => f
  | .update ns kvs => match resolve oid ns with
    | some n => kvs.foldl (fun f p => f.put n p.1 (some p.2)) f
    | none => f

/-- Messages a program can hold: a new message, a parsed one, or one changed by any of the methods. -/
inductive Built (reg : Dict Str Str) : Msg → Prop where
  | new (u : Option Str) (i : Option Bool) (m : Msg) : Msg.new u i = .ok m → Built reg m
  | parsed (args : Dict Str Str) (m : Msg) : fromPostArgs reg args = .ok m → Built reg m
  | parsedOpenID (args : Dict Str Str) (m : Msg) : fromOpenIDArgs reg args = .ok m → Built reg m
  | step (m : Msg) (op : MsgOp) : Built reg m → Built reg (msgStep m op)
  | extended (m m' : Msg) (uri alias : Str) (args : Dict Str Str) : Built reg m →
      m.addExtension uri alias args = .ok m' → Built reg m'

/-- operations on a namespace map -/
inductive NsOp where
  | alias (uri : Str) (a : Alias) (implicit : Bool)
  | add (uri : Str)

def nsStep (m : NamespaceMap) : NsOp → NamespaceMap
  | .alias u a i => (m.addAlias u a i).toOption.getD m
  | .add u => (m.add u).toOption.getD m

end Spec
