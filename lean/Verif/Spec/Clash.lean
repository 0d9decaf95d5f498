import Verif.Model.Message
/-! # Names of extensions that cannot go together in one message -/

namespace Spec
open Py Message

/-- the three versions of the protocol -/
def versions : List Str :=
  [t!"http://openid.net/signon/1.0", t!"http://openid.net/signon/1.1", t!"http://specs.openid.net/auth/2.0"]

/-- the names that no extension can have -/
def reserved : List Str :=
  [t!"ns", t!"mode", t!"error", t!"return_to", t!"contact", t!"reference", t!"signed", t!"assoc_type", t!"session_type",
   t!"dh_modulus", t!"dh_gen", t!"dh_consumer_public", t!"claimed_id", t!"identity", t!"realm", t!"invalidate_handle",
   t!"op_endpoint", t!"response_nonce", t!"sig", t!"assoc_handle", t!"trust_root", t!"openid"]

/-- the version that arguments are of, OpenID 1.0 if they don't tell -/
def versionIn (f : Str → Option Str) : Str := (f t!"ns").getD t!"http://openid.net/signon/1.0"

/-- `a` is the name of an extension in arguments of OpenID 1 without being declared there: there are arguments under it, and
    the program has registered it for `u`. -/
def Implied (reg : Dict Str Str) (version : Str) (f : Str → Option Str) (a u : Str) : Prop :=
  version ∈ [t!"http://openid.net/signon/1.0", t!"http://openid.net/signon/1.1"] ∧ '.' ∉ a ∧ a ≠ t!"ns" ∧
  (∃ k v, f (a ++ '.' :: k) = some v) ∧ f (t!"ns." ++ a) = none ∧ reg.get? a = some u

/-- Arguments whose extensions cannot go together, and the exception that is raised for it. -/
inductive Clash (reg : Dict Str Str) (version : Str) (f : Str → Option Str) : PyErr → Prop where
  /-- an extension is declared under a name that it cannot have -/
  | name (a u : Str) : f (t!"ns." ++ a) = some u → a ∈ reserved ∨ '.' ∈ a → Clash reg version f .assertionError
  /-- the protocol itself is declared as an extension -/
  | version (a : Str) : f (t!"ns." ++ a) = some version → Clash reg version f .invalidNamespace
  /-- an extension is declared twice -/
  | twice (a b u : Str) : a ≠ b → f (t!"ns." ++ a) = some u → f (t!"ns." ++ b) = some u →
      Clash reg version f .invalidNamespace
  /-- an extension is registered under a name that it cannot have -/
  | registered (a u : Str) : Implied reg version f a u → a ∈ reserved → Clash reg version f .assertionError
  /-- an extension that is not declared is also there under another name -/
  | implied (a u : Str) : Implied reg version f a u →
      (u = version ∨ (∃ b, b ≠ a ∧ (f (t!"ns." ++ b) = some u ∨ Implied reg version f b u)) ∨
        u = t!"http://openid.net/sreg/1.0" ∧ ∃ b, f (t!"ns." ++ b) = some t!"sreg" ∨ Implied reg version f b t!"sreg") →
      Clash reg version f .invalidNamespace

/-- Arguments that a provider cannot even answer with an error.  An extension that is there twice is answered; so is an
    unknown version, unless there is more to it once it is taken for OpenID 2. -/
def Misnamed (reg : Dict Str Str) (f : Str → Option Str) (e : PyErr) : Prop :=
  e = .assertionError ∧ Clash reg (versionIn f) f e ∨
  (∃ u, f t!"ns" = some u ∧ u ∉ versions) ∧ Clash reg t!"http://specs.openid.net/auth/2.0" f e

end Spec
