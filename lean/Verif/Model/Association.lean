import Verif.Base.PyInt
import Verif.Model.Cryptutil
import Verif.Model.Message
/-! # Model of openid/association.py

The clock is an argument, in seconds.  HMAC is an arbitrary function `Mac` of the association type, the
secret and the text; nothing is assumed about it here. -/

namespace Association
open Py Message Cryptutil

/-- openid/association.py:49-52 -/
def allAssociationTypes : List Str := [t!"HMAC-SHA256", t!"HMAC-SHA1"]

/-- openid/association.py:54-59 -/
def defaultAssociationOrder : List (Str × Str) :=
  [(t!"HMAC-SHA256", t!"DH-SHA256"), (t!"HMAC-SHA256", t!"no-encryption"),
   (t!"HMAC-SHA1", t!"DH-SHA1"), (t!"HMAC-SHA1", t!"no-encryption")]

/-- openid/association.py:61-64 -/
def onlyEncryptedAssociationOrder : List (Str × Str) :=
  [(t!"HMAC-SHA256", t!"DH-SHA256"), (t!"HMAC-SHA1", t!"DH-SHA1")]

/-- openid/association.py:68-74 `getSessionTypes` -/
def getSessionTypes (assocType : Str) : List Str :=
  if assocType = t!"HMAC-SHA256" then [t!"DH-SHA256", t!"no-encryption"]
  else if assocType = t!"HMAC-SHA1" then [t!"DH-SHA1", t!"no-encryption"]
  else []

/-- openid/association.py:77-83 `checkSessionType`: does not raise -/
def sessionTypeOk (assocType sessionType : Str) : Bool :=
  (getSessionTypes assocType).contains sessionType

/-- openid/association.py:86 `SessionNegotiator`: its `allowed_types`.  The value `None` that line 163
    allows for is never assigned. -/
abbrev Negotiator := List (Str × Str)

namespace Negotiator

/-- openid/association.py:139-150 `setAllowedTypes` (and the constructor, line 136): the object is
    changed only after all pairs are checked -/
def setAllowedTypes (types : List (Str × Str)) : Except PyErr Negotiator :=
  if types.all (fun p => sessionTypeOk p.1 p.2) then .ok types else .error .valueError

/-- openid/association.py:152-170 `addAllowedType` -/
def addAllowedType (n : Negotiator) (assocType : Str) (sessionType : Option Str) :
    Except PyErr Negotiator :=
  match sessionType with
  | none =>
    if getSessionTypes assocType = [] then .error .valueError
    else .ok (n ++ (getSessionTypes assocType).map fun s => (assocType, s))
  | some s => if sessionTypeOk assocType s then .ok (n ++ [(assocType, s)]) else .error .valueError

/-- openid/association.py:172-176 `isAllowed` -/
def isAllowed (n : Negotiator) (assocType sessionType : Str) : Bool :=
  n.contains (assocType, sessionType) && sessionTypeOk assocType sessionType

/-- openid/association.py:178-184 `getAllowedType`; `none` stands for `(None, None)` -/
def getAllowedType (n : Negotiator) : Option (Str × Str) := n.head?

end Negotiator

/-- openid/association.py:191-197 `getSecretSize` -/
def getSecretSize (assocType : Str) : Except PyErr Nat :=
  if assocType = t!"HMAC-SHA1" then .ok 20
  else if assocType = t!"HMAC-SHA256" then .ok 32
  else .error .valueError

/-- openid/association.py:204 `Association` -/
structure Assoc where
  handle : Str
  secret : Bytes
  issued : Int
  lifetime : Int
  assocType : Str
  deriving DecidableEq, Repr

/-- openid/association.py:295-345 `Association.__init__` -/
def Assoc.new (handle : Str) (secret : Bytes) (issued lifetime : Int) (assocType : Str) :
    Except PyErr Assoc :=
  if allAssociationTypes.contains assocType then .ok ⟨handle, secret, issued, lifetime, assocType⟩
  else .error .valueError

/-- openid/association.py:263-293 `fromExpiresIn` at time `now` -/
def Assoc.fromExpiresIn (now : Int) (expiresIn : Int) (handle : Str) (secret : Bytes) (assocType : Str) :
    Except PyErr Assoc :=
  Assoc.new handle secret now expiresIn assocType

/-- openid/association.py:347-361 `getExpiresIn` at time `now` -/
def Assoc.getExpiresIn (a : Assoc) (now : Int) : Int := max 0 (a.issued + a.lifetime - now)

/-- openid/association.py:246-254 -/
def assocKeys : List Str :=
  [t!"version", t!"handle", t!"secret", t!"issued", t!"lifetime", t!"assoc_type"]

/-- openid/association.py:391-414 `serialize` -/
def Assoc.serialize (a : Assoc) : Except PyErr Str :=
  KVForm.seqToKV true
    [(t!"version", t!"2"), (t!"handle", a.handle), (t!"secret", toBase64 a.secret),
     (t!"issued", intToStr a.issued), (t!"lifetime", intToStr a.lifetime), (t!"assoc_type", a.assocType)]

/-- openid/association.py:437-446: from the six values -/
def fromValues (X : ExtraDigits) : List Str → Except PyErr Assoc
  | [version, handle, secret, issued, lifetime, assocType] =>
    if version ≠ t!"2" then .error .valueError
    else do
      let i ← parseInt X issued
      let l ← parseInt X lifetime
      let s ← fromBase64 secret
      Assoc.new handle s i l assocType
  | _ => .error .valueError

/-- openid/association.py:416-446 `deserialize` -/
def deserialize (X : ExtraDigits) (s : Str) : Except PyErr Assoc := do
  let pairs ← KVForm.kvToSeq true s
  if pairs.map (·.1) ≠ assocKeys then throw .valueError
  else fromValues X (pairs.map (·.2))

/-- HMAC (association type, secret, text), lines 251-254 and 470-471 -/
abbrev Mac := Str → Bytes → Bytes → Bytes

/-- openid/association.py:448-471 `sign` -/
def Assoc.sign (H : Mac) (a : Assoc) (pairs : List (Str × Str)) : Except PyErr Bytes := do
  let kv ← KVForm.seqToKV false pairs
  if allAssociationTypes.contains a.assocType then return H a.assocType a.secret (Utf8.encode kv)
  else throw .valueError

/-- openid/association.py:533-536: look up the signed fields -/
def pairsOf (data : Dict Str Str) (signed : Str) : List (Str × Str) :=
  (splitOn ',' signed).map fun f => (f, (data.get? (t!"openid." ++ f)).getD [])

/-- openid/association.py:526-536 `_makePairs` -/
def makePairs (m : Msg) : Except PyErr (List (Str × Str)) := do
  let signed ← m.getArg .openid t!"signed"
  match signed with
  | none => throw .valueError
  | some [] => throw .valueError
  | some s => return pairsOf m.toPostArgs s

/-- openid/association.py:473-486 `getMessageSignature` -/
def Assoc.getMessageSignature (H : Mac) (a : Assoc) (m : Msg) : Except PyErr Str := do
  let pairs ← makePairs m
  let sig ← a.sign H pairs
  return toBase64 sig

/-- openid/association.py:503-508: the value of the `signed` field -/
def signedList (m : Msg) : Str :=
  join [','] (sortBy strLe
    (((Dict.keys m.toPostArgs).filter (startsWith · t!"openid.")).map (·.drop 7) ++ [t!"signed"]))

/-- openid/association.py:498: `extant_handle and extant_handle != self.handle` -/
def Assoc.otherHandle (a : Assoc) (extant : Option Str) : Bool :=
  match extant with
  | some h => h != [] && h != a.handle
  | none => false

/-- openid/association.py:488-511 `signMessage`; the message is copied first, so the model returns a
    new one -/
def Assoc.signMessage (H : Mac) (a : Assoc) (m : Msg) : Except PyErr Msg := do
  let hasSig ← m.hasKey .openid t!"sig"
  let hasSigned ← m.hasKey .openid t!"signed"
  if hasSig || hasSigned then throw .valueError
  else do
    let extant ← m.getArg .openid t!"assoc_handle"
    if a.otherHandle extant then throw .valueError
    else do
      let m1 ← m.setArg .openid t!"assoc_handle" a.handle
      let m2 ← m1.setArg .openid t!"signed" (signedList m1)
      let sig ← a.getMessageSignature H m2
      m2.setArg .openid t!"sig" sig

/-- openid/association.py:513-524 `checkMessageSignature` -/
def Assoc.checkMessageSignature (H : Mac) (a : Assoc) (m : Msg) : Except PyErr Bool := do
  let messageSig ← m.getArg .openid t!"sig"
  match messageSig with
  | none => throw .valueError
  | some [] => throw .valueError
  | some s => do
    let calculated ← a.getMessageSignature H m
    return Utf8.encode calculated = Utf8.encode s

end Association
