import Verif.Model.Nonce
import Verif.Spec.Store
/-! # Model of openid/store/memstore.py

The clock is an argument.  `copy.deepcopy` is the identity because associations are values here; a caller
who changes an object the store returned is therefore outside the model.
One thread here; several are in `Verif/Model/MemConc.lean`. -/

namespace MemStore
open Py Association Store

/-- openid/store/memstore.py:12-14 `ServerAssocs` -/
abbrev ServerAssocs := Dict Str Assoc

namespace ServerAssocs

/-- openid/store/memstore.py:16-17 `set` -/
def set (d : ServerAssocs) (a : Assoc) : ServerAssocs := Dict.set d a.handle a

/-- openid/store/memstore.py:19-20 `get` -/
def get (d : ServerAssocs) (handle : Str) : Option Assoc := Dict.get? d handle

/-- openid/store/memstore.py:22-28 `remove` -/
def remove (d : ServerAssocs) (handle : Str) : ServerAssocs × Bool :=
  if Dict.has d handle then (Dict.del d handle, true) else (d, false)

/-- openid/store/memstore.py:37-38, one turn of the loop -/
def better : Option Assoc → Assoc → Option Assoc
  | none, a => some a
  | some b, a => if b.issued < a.issued then some a else some b

/-- openid/store/memstore.py:30-39 `best` -/
def best (d : ServerAssocs) : Option Assoc := d.foldl (fun b p => better b p.2) none

/-- openid/store/memstore.py:46-49 -/
def expiredHandles (seconds : Int) (d : ServerAssocs) : List Str :=
  (d.filter fun p => p.2.getExpiresIn seconds == 0).map (·.1)

/-- openid/store/memstore.py:41-52 `cleanup`: the rest and the number removed -/
def cleanup (seconds : Int) (d : ServerAssocs) : ServerAssocs × Nat :=
  ((expiredHandles seconds d).foldl Dict.del d, (expiredHandles seconds d).length)

end ServerAssocs

abbrev NonceKey := Str × Int × Str

/-- openid/store/memstore.py:61-63 `MemoryStore.__init__`; the values of `nonces` are all `None` -/
structure State where
  serverAssocs : Dict Str ServerAssocs
  nonces : Dict NonceKey Unit

def init : State := ⟨[], []⟩

/-- openid/store/memstore.py:65-70 `_getServerAssocs`: makes an empty entry when there is none -/
def getServerAssocs (s : State) (url : Str) : State × ServerAssocs :=
  match Dict.get? s.serverAssocs url with
  | some d => (s, d)
  | none => ({ s with serverAssocs := Dict.set s.serverAssocs url [] }, [])

/-- the mutable `ServerAssocs` object reached through the dictionary -/
def putServerAssocs (s : State) (url : Str) (d : ServerAssocs) : State :=
  { s with serverAssocs := Dict.set s.serverAssocs url d }

/-- openid/store/memstore.py:72-74 -/
def storeAssociation (s : State) (url : Str) (a : Assoc) : State :=
  let (s, d) := getServerAssocs s url
  putServerAssocs s url (d.set a)

/-- openid/store/memstore.py:76-81 -/
def getAssociation (s : State) (url : Str) (handle : Option Str) : State × Option Assoc :=
  let (s, d) := getServerAssocs s url
  match handle with
  | none => (s, d.best)
  | some h => (s, d.get h)

/-- openid/store/memstore.py:83-85 -/
def removeAssociation (s : State) (url handle : Str) : State × Bool :=
  let (s, d) := getServerAssocs s url
  let (d, r) := d.remove handle
  (putServerAssocs s url d, r)

/-- openid/store/memstore.py:88 and 102: `abs(timestamp - now) > SKEW`, in ticks -/
def outside (c : Clock) (now : Nat) (timestamp : Int) : Bool :=
  (timestamp * c.tick - now).natAbs > (Nonce.SKEW * c.tick).natAbs

/-- openid/store/memstore.py:87-96 -/
def useNonce (c : Clock) (now : Nat) (s : State) (url : Str) (timestamp : Int) (salt : Str) :
    State × Bool :=
  if outside c now timestamp then (s, false)
  else if Dict.has s.nonces (url, timestamp, salt) then (s, false)
  else ({ s with nonces := Dict.set s.nonces (url, timestamp, salt) () }, true)

/-- openid/store/memstore.py:99-104 -/
def expiredNonces (c : Clock) (now : Nat) (s : State) : List NonceKey :=
  (Dict.keys s.nonces).filter fun k => outside c now k.2.1

/-- openid/store/memstore.py:98-108 -/
def cleanupNonces (c : Clock) (now : Nat) (s : State) : State × Nat :=
  ({ s with nonces := (expiredNonces c now s).foldl Dict.del s.nonces }, (expiredNonces c now s).length)

/-- openid/store/memstore.py:113-117: every server's associations cleaned up, with the number removed -/
def cleanedServers (seconds : Int) (s : State) : List (Str × ServerAssocs × Nat) :=
  s.serverAssocs.map fun p => (p.1, p.2.cleanup seconds)

/-- openid/store/memstore.py:110-122 -/
def cleanupAssociations (c : Clock) (now : Nat) (s : State) : State × Nat :=
  let cleaned := cleanedServers (c.seconds now) s
  let dict := cleaned.map fun p => (p.1, p.2.1)
  let removeUrls := (cleaned.filter fun p => p.2.1.length == 0).map (·.1)
  ({ s with serverAssocs := removeUrls.foldl Dict.del dict }, (cleaned.map (·.2.2)).sum)

/-- one call, at a time -/
def step (c : Clock) (s : State) : Event → State × Answer
  | (_, .storeAssociation url a) => (storeAssociation s url a, .nothing)
  | (_, .getAssociation url h) => ((getAssociation s url h).1, .assoc (getAssociation s url h).2)
  | (_, .removeAssociation url h) => ((removeAssociation s url h).1, .bool (removeAssociation s url h).2)
  | (now, .useNonce url t salt) => ((useNonce c now s url t salt).1, .bool (useNonce c now s url t salt).2)
  | (now, .cleanupNonces) => ((cleanupNonces c now s).1, .count (cleanupNonces c now s).2)
  | (now, .cleanupAssociations) =>
    ((cleanupAssociations c now s).1, .count (cleanupAssociations c now s).2)

end MemStore
