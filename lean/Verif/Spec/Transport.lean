import Verif.Model.Message
/-! # Specification of messages that can be sent -/

namespace Spec
open Py Message

/-- A message that says what it means to whoever parses it: an undeclared version is OpenID 1.0; no OpenID argument looks
    like an argument of an extension or the declaration of the version; no other argument looks like an OpenID argument;
    an undeclared extension with arguments is registered with the receiver, and the version is OpenID 1; and no
    namespace is the literal word `sreg`. -/
structure Sendable (reg : Dict Str Str) (m : Msg) (oid : Str) : Prop where
  version : m.getOpenIDNamespace = some oid
  undeclared : m.namespaces.isImplicit oid = true → oid = t!"http://openid.net/signon/1.0"
  plain : ∀ k v, m.getArg .openid k = .ok (some v) → '.' ∉ k ∧ k ≠ t!"ns"
  bare : ∀ k v, m.getArg .bare k = .ok (some v) → startsWith k t!"openid." = false
  implied : ∀ uri k v, uri ≠ oid → m.getArg (.uri uri) k = .ok (some v) → m.namespaces.isImplicit uri = true →
    m.isOpenID1 = true ∧ ∃ a, m.namespaces.getAlias uri = some (.name a) ∧ reg.get? a = some uri
  noSreg : m.namespaces.getAlias t!"sreg" = none

end Spec
