import Verif.Spec.ServerCodec
import Verif.Spec.ServerAssociate
import Verif.Spec.ConsumerAssociate
/-! # A consumer and a server making an association with each other -/

namespace Spec
open Py Message Association Cryptutil Store Discover

/-- The two sides compute the same hashes, of the usual lengths, and use the same Diffie-Hellman implementation.  Clocks,
    registered namespace aliases and all else may differ. -/
structure SameCrypto (WS : Server.World) (WC : Consumer.World) : Prop where
  lib : WS.lib = WC.lib
  sha1 : WS.sha1 = WC.sha1
  sha256 : WS.sha256 = WC.sha256
  len1 : ∀ x, (WC.sha1 x).length = 20
  len256 : ∀ x, (WC.sha256 x).length = 32

/-- In the default group the implementation accepts the public keys of these two private keys, and does not write a shared
    element as no bytes at all. -/
def Exchanges (L : DH.Lib) (x y : Nat) : Prop :=
  ∀ p g, base64ToLong DH.defaultModulus = .ok p → base64ToLong DH.defaultGenerator = .ok g →
    L.okPub p g (g ^ x % p) = true ∧ L.okPub p g (g ^ y % p) = true ∧ ∀ z, L.sharedBytes p z ≠ []

/-- the association each side keeps is the same one; each side counts its lifetime on its own clock -/
structure Agree (a b : Assoc) : Prop where
  handle : a.handle = b.handle
  secret : a.secret = b.secret
  assocType : a.assocType = b.assocType
  lifetime : a.lifetime = b.lifetime

end Spec
