import Verif.Model.MemStore
/-! # openid/store/memstore.py with several threads at once

The operations as programs that make one access to a shared dictionary after the other, and the system of any
number of threads doing so on one store, interleaved in any way.  One access (a lookup, an assignment, a
`del`, one turn of an iterator) happens at once: that is what the interpreter's lock gives for dictionaries
whose keys are texts and tuples of texts and numbers.  Time only moves forward. -/

namespace MemConc
open Py Association Store MemStore

/-- A dictionary object.  `stamp` counts the keys added and deleted; iterators notice by it. -/
structure Table (α β : Type) where
  items : Dict α β
  stamp : Nat

/-- An iterator over a dictionary: the dictionary's size and stamp when it was made, and the turns taken. -/
structure Iter where
  size : Nat
  stamp : Nat
  pos : Nat

def Iter.step (it : Iter) : Iter := { it with pos := it.pos + 1 }

namespace Table
variable {α β : Type} [DecidableEq α]

def empty : Table α β := ⟨[], 0⟩

def set (t : Table α β) (a : α) (v : β) : Table α β :=
  ⟨Dict.set t.items a v, if Dict.has t.items a then t.stamp else t.stamp + 1⟩

/-- `del`; without the key nothing happens (and the statement raises KeyError) -/
def del (t : Table α β) (a : α) : Table α β :=
  if Dict.has t.items a then ⟨Dict.del t.items a, t.stamp + 1⟩ else t

def iter (t : Table α β) : Iter := ⟨t.items.length, t.stamp, 0⟩

/-- The next turn of an iterator, as CPython's `dictiter_iternextitem`: the entries in order while no key came
    or went; RuntimeError if the size has changed; if keys came and went but the size is the same, any entry
    there is, or the end, or RuntimeError (that depends on how the dictionary is laid out). -/
inductive Next (t : Table α β) (it : Iter) : Except PyErr (Option (α × β)) → Prop where
  | same (h : t.stamp = it.stamp) : Next t it (.ok t.items[it.pos]?)
  | size (h : t.items.length ≠ it.size) : Next t it (.error .runtimeError)
  | other (r : Except PyErr (Option (α × β))) (h : t.stamp ≠ it.stamp) (h' : t.items.length = it.size)
      (hp : ∀ p, r = .ok (some p) → p ∈ t.items) (he : ∀ e, r = .error e → e = .runtimeError) : Next t it r

end Table

/-- openid/store/memstore.py:12-14, 61-63: the objects of a store.  `servers` refers to the `ServerAssocs`
    objects by number; `owner` says for which server such an object was made and is there for the statements
    only, no program reads it. -/
structure State where
  nonces : Table NonceKey Unit
  servers : Table Str Nat
  heap : Nat → Table Str Assoc
  next : Nat
  owner : Nat → Str

def State.init : State := ⟨.empty, .empty, fun _ => .empty, 0, fun _ => []⟩

/-- What a program asks of the outside: the time, and accesses to the dictionaries. -/
inductive Call where
  /-- nothing ever comes back -/
  | never
  | time
  | hasNonce (k : NonceKey)
  | setNonce (k : NonceKey)
  | delNonce (k : NonceKey)
  | iterNonces
  | nextNonce (it : Iter)
  | getServer (url : Str)
  /-- a new `ServerAssocs`, assigned to the server -/
  | newServer (url : Str)
  | delServer (url : Str)
  | iterServers
  | nextServer (it : Iter)
  | getAssoc (x : Nat) (handle : Str)
  | setAssoc (x : Nat) (a : Assoc)
  | delAssoc (x : Nat) (handle : Str)
  | iterAssocs (x : Nat)
  | nextAssoc (x : Nat) (it : Iter)
  | sizeAssocs (x : Nat)

/-- What comes back.  For `del`: whether the key was there.  For a new iterator: also a guess how many turns
    will be taken; a program whose guess is too low comes to `never`.  (Programs here are well-founded; any
    finite execution has a right guess.) -/
@[reducible] def Reply : Call → Type
  | .never => Empty
  | .time => Nat
  | .hasNonce _ => Bool
  | .setNonce _ => Unit
  | .delNonce _ => Bool
  | .iterNonces => Iter × Nat
  | .nextNonce _ => Except PyErr (Option (NonceKey × Unit))
  | .getServer _ => Option Nat
  | .newServer _ => Nat
  | .delServer _ => Bool
  | .iterServers => Iter × Nat
  | .nextServer _ => Except PyErr (Option (Str × Nat))
  | .getAssoc _ _ => Option Assoc
  | .setAssoc _ _ => Unit
  | .delAssoc _ _ => Bool
  | .iterAssocs _ => Iter × Nat
  | .nextAssoc _ _ => Except PyErr (Option (Str × Assoc))
  | .sizeAssocs _ => Nat

def State.putAssocs (s : State) (x : Nat) (t : Table Str Assoc) : State :=
  { s with heap := fun y => if y = x then t else s.heap y }

/-- an access: the reply and the state after it -/
def Perform (clock : Nat) : (c : Call) → State → Reply c → State → Prop
  | .never, _, _, _ => False
  | .time, s, r, s' => r = clock ∧ s' = s
  | .hasNonce k, s, r, s' => r = Dict.has s.nonces.items k ∧ s' = s
  | .setNonce k, s, _, s' => s' = { s with nonces := s.nonces.set k () }
  | .delNonce k, s, r, s' => r = Dict.has s.nonces.items k ∧ s' = { s with nonces := s.nonces.del k }
  | .iterNonces, s, r, s' => r.1 = s.nonces.iter ∧ s' = s
  | .nextNonce it, s, r, s' => s.nonces.Next it r ∧ s' = s
  | .getServer url, s, r, s' => r = Dict.get? s.servers.items url ∧ s' = s
  | .newServer url, s, r, s' => r = s.next ∧
      s' = { s with
        servers := s.servers.set url s.next
        heap := fun y => if y = s.next then .empty else s.heap y
        next := s.next + 1
        owner := fun y => if y = s.next then url else s.owner y }
  | .delServer url, s, r, s' => r = Dict.has s.servers.items url ∧ s' = { s with servers := s.servers.del url }
  | .iterServers, s, r, s' => r.1 = s.servers.iter ∧ s' = s
  | .nextServer it, s, r, s' => s.servers.Next it r ∧ s' = s
  | .getAssoc x h, s, r, s' => r = Dict.get? (s.heap x).items h ∧ s' = s
  | .setAssoc x a, s, _, s' => s' = s.putAssocs x ((s.heap x).set a.handle a)
  | .delAssoc x h, s, r, s' => r = Dict.has (s.heap x).items h ∧ s' = s.putAssocs x ((s.heap x).del h)
  | .iterAssocs x, s, r, s' => r.1 = (s.heap x).iter ∧ s' = s
  | .nextAssoc x it, s, r, s' => (s.heap x).Next it r ∧ s' = s
  | .sizeAssocs x, s, r, s' => r = (s.heap x).items.length ∧ s' = s

/-! ## The operations -/

inductive Prog (α : Type) where
  | done (r : Except PyErr α)
  | call (c : Call) (k : Reply c → Prog α)

def Prog.bind : Prog α → (α → Prog β) → Prog β
  | .done (.ok a), f => f a
  | .done (.error e), _ => .done (.error e)
  | .call c k, f => .call c fun r => (k r).bind f

instance : Monad Prog where
  pure a := .done (.ok a)
  bind := Prog.bind

def ask (c : Call) : Prog (Reply c) := .call c fun r => .done (.ok r)

/-- openid/store/memstore.py:65-70 `_getServerAssocs` -/
def getServerAssocs (url : Str) : Prog Nat :=
  .call (.getServer url) fun
    | some x => .done (.ok x)
    | none => ask (.newServer url)

/-- openid/store/memstore.py:72-74 and 16-17 -/
def storeAssociation (url : Str) (a : Assoc) : Prog Unit := do
  let x ← getServerAssocs url
  ask (.setAssoc x a)

/-- openid/store/memstore.py:36-38, the loop of `best` -/
def bestLoop (x : Nat) : Nat → Iter → Option Assoc → Prog (Option Assoc)
  | 0, _, _ => .call .never nofun
  | n + 1, it, b => .call (.nextAssoc x it) fun
    | .error e => .done (.error e)
    | .ok none => .done (.ok b)
    | .ok (some p) => bestLoop x n it.step (ServerAssocs.better b p.2)

/-- openid/store/memstore.py:76-81, 19-20 and 30-39 -/
def getAssociation (url : Str) (handle : Option Str) : Prog (Option Assoc) := do
  let x ← getServerAssocs url
  match handle with
  | none => .call (.iterAssocs x) fun r => bestLoop x r.2 r.1 none
  | some h => ask (.getAssoc x h)

/-- openid/store/memstore.py:83-85 and 22-28 -/
def removeAssociation (url handle : Str) : Prog Bool := do
  let x ← getServerAssocs url
  ask (.delAssoc x handle)

/-- openid/store/memstore.py:95-96 -/
def putNonce (k : NonceKey) : Prog Bool := .call (.setNonce k) fun _ => .done (.ok true)

/-- openid/store/memstore.py:92-96 -/
def checkNonce (k : NonceKey) : Prog Bool :=
  .call (.hasNonce k) fun b => if b then .done (.ok false) else putNonce k

/-- openid/store/memstore.py:87-96 -/
def useNonce (c : Clock) (url : Str) (timestamp : Int) (salt : Str) : Prog Bool :=
  .call .time fun now => if outside c now timestamp then .done (.ok false) else checkNonce (url, timestamp, salt)

/-- openid/store/memstore.py:101-104 -/
def staleLoop (c : Clock) (now : Nat) : Nat → Iter → Prog (List NonceKey)
  | 0, _ => .call .never nofun
  | n + 1, it => .call (.nextNonce it) fun
    | .error e => .done (.error e)
    | .ok none => .done (.ok [])
    | .ok (some p) => do
      let r ← staleLoop c now n it.step
      return if outside c now p.1.2.1 then p.1 :: r else r

/-- openid/store/memstore.py:106-107 -/
def delNonces : List NonceKey → Prog Unit
  | [] => .done (.ok ())
  | k :: r => .call (.delNonce k) fun b => if b then delNonces r else .done (.error .keyError)

/-- openid/store/memstore.py:98-108 -/
def cleanupNonces (c : Clock) : Prog Nat :=
  .call .time fun now => .call .iterNonces fun i => do
    let l ← staleLoop c now i.2 i.1
    delNonces l
    return l.length

/-- openid/store/memstore.py:47-49; `getExpiresIn` reads the clock each time -/
def expiredLoop (c : Clock) (x : Nat) : Nat → Iter → Prog (List Str)
  | 0, _ => .call .never nofun
  | n + 1, it => .call (.nextAssoc x it) fun
    | .error e => .done (.error e)
    | .ok none => .done (.ok [])
    | .ok (some p) => .call .time fun now => do
      let r ← expiredLoop c x n it.step
      return if p.2.getExpiresIn (c.seconds now) == 0 then p.1 :: r else r

/-- openid/store/memstore.py:50-51 -/
def delAssocs (x : Nat) : List Str → Prog Unit
  | [] => .done (.ok ())
  | h :: r => .call (.delAssoc x h) fun b => if b then delAssocs x r else .done (.error .keyError)

/-- openid/store/memstore.py:41-52 `cleanup` -/
def cleanup (c : Clock) (x : Nat) : Prog (Nat × Nat) :=
  .call (.iterAssocs x) fun i => do
    let l ← expiredLoop c x i.2 i.1
    delAssocs x l
    let n ← ask (.sizeAssocs x)
    return (l.length, n)

/-- openid/store/memstore.py:113-117: the servers to remove, and the number of associations removed -/
def serverLoop (c : Clock) : Nat → Iter → Prog (List Str × Nat)
  | 0, _ => .call .never nofun
  | n + 1, it => .call (.nextServer it) fun
    | .error e => .done (.error e)
    | .ok none => .done (.ok ([], 0))
    | .ok (some p) => do
      let m ← cleanup c p.2
      let r ← serverLoop c n it.step
      return (if m.2 = 0 then p.1 :: r.1 else r.1, m.1 + r.2)

/-- openid/store/memstore.py:120-121 -/
def delServers : List Str → Prog Unit
  | [] => .done (.ok ())
  | u :: r => .call (.delServer u) fun b => if b then delServers r else .done (.error .keyError)

/-- openid/store/memstore.py:110-122 -/
def cleanupAssociations (c : Clock) : Prog Nat :=
  .call .iterServers fun i => do
    let l ← serverLoop c i.2 i.1
    delServers l.1
    return l.2

/-- a whole call of an operation -/
def program (c : Clock) : Op → Prog Answer
  | .storeAssociation url a => do
    storeAssociation url a
    return .nothing
  | .getAssociation url h => do return .assoc (← getAssociation url h)
  | .removeAssociation url h => do return .bool (← removeAssociation url h)
  | .useNonce url t salt => do return .bool (← useNonce c url t salt)
  | .cleanupNonces => do return .count (← cleanupNonces c)
  | .cleanupAssociations => do return .count (← cleanupAssociations c)

/-! ## The system -/

/-- a thread in the middle of an operation: the operation, the number of its beginning, and what is left -/
structure Client where
  op : Op
  began : Nat
  todo : Prog Answer

/-- a call that returned, with the numbers of its beginning and its end -/
structure Returned where
  op : Op
  began : Nat
  ended : Nat
  outcome : Outcome
  deriving DecidableEq

/-- The whole system.  Beginnings and ends of calls are numbered in the order they happen. -/
structure Config where
  state : State
  clock : Nat
  clients : Nat → Option Client
  seq : Nat
  started : List Op
  returned : List Returned

def Config.init : Config := ⟨State.init, 0, fun _ => none, 0, [], []⟩

def Config.put (cfg : Config) (i : Nat) (x : Option Client) : Config :=
  { cfg with clients := fun j => if j = i then x else cfg.clients j }

/-- One step.  `allowed` restricts when a thread may go on; it is used to state an assumption on the
    schedule.  A thread may also never go on. -/
inductive Step (c : Clock) (allowed : Config → Client → Prop) : Config → Config → Prop where
  | tick (cfg : Config) (t : Nat) (h : cfg.clock ≤ t) : Step c allowed cfg { cfg with clock := t }
  | start (cfg : Config) (i : Nat) (op : Op) (h : cfg.clients i = none) :
      Step c allowed cfg
        { cfg.put i (some ⟨op, cfg.seq, program c op⟩) with seq := cfg.seq + 1, started := op :: cfg.started }
  | call (cfg : Config) (i : Nat) (op : Op) (b : Nat) (q : Call) (k : Reply q → Prog Answer) (r : Reply q)
      (s : State) (h : cfg.clients i = some ⟨op, b, .call q k⟩) (ha : allowed cfg ⟨op, b, .call q k⟩)
      (hp : Perform cfg.clock q cfg.state r s) :
      Step c allowed cfg { cfg.put i (some ⟨op, b, k r⟩) with state := s }
  | finish (cfg : Config) (i : Nat) (op : Op) (b : Nat) (r : Outcome)
      (h : cfg.clients i = some ⟨op, b, .done r⟩) :
      Step c allowed cfg
        { cfg.put i none with seq := cfg.seq + 1, returned := ⟨op, b, cfg.seq, r⟩ :: cfg.returned }

/-- from one configuration the system can get to another -/
inductive Steps (c : Clock) (allowed : Config → Client → Prop) (a : Config) : Config → Prop where
  | refl : Steps c allowed a a
  | step {b b' : Config} (h : Steps c allowed a b) (h' : Step c allowed b b') : Steps c allowed a b'

/-- the configurations the system can get into -/
abbrev Reachable (c : Clock) (allowed : Config → Client → Prop) (cfg : Config) : Prop :=
  Steps c allowed Config.init cfg

end MemConc
