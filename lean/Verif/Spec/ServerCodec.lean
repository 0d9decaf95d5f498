import Verif.Spec.Server
import Verif.Spec.TrustRoot
/-! # OpenID requests as queries, and the answers to them -/

namespace Spec
open Py

/-- the argument `openid.<name>` of a query -/
def arg (q : Dict Str Str) (name : Str) : Option Str := q.get? (t!"openid." ++ name)

/-- a text that is there and not empty -/
def given : Option Str → Option Str
  | some (c :: s) => some (c :: s)
  | _ => none

/-- A query is of OpenID 1 unless it declares otherwise. -/
def IsV1 (q : Dict Str Str) : Prop :=
  ∀ u, arg q t!"ns" = some u → u = t!"http://openid.net/signon/1.0" ∨ u = t!"http://openid.net/signon/1.1"

instance (q : Dict Str Str) : Decidable (IsV1 q) :=
  match h : arg q t!"ns" with
  | none => isTrue (by simp [IsV1, h])
  | some u =>
    if hu : u = t!"http://openid.net/signon/1.0" ∨ u = t!"http://openid.net/signon/1.1" then
      isTrue (by intro v hv; rw [h] at hv; cases hv; exact hu)
    else isFalse (fun hv => hu (hv u h))

/-- the realm of a checkid query: the one given, or else where to return to -/
def realmOf (q : Dict Str Str) : Option Str :=
  (given (if IsV1 q then arg q t!"trust_root" else arg q t!"realm")).or (arg q t!"return_to")

/-- A checkid query as it should be.  OpenID 1 needs an identity and somewhere to return to; OpenID 2 has an identity
    just when it has a claimed identifier, and needs a realm or somewhere to return to.  The place to return to is a
    URL under the realm. -/
structure CheckidQuery (U : Url.Uni) (opEndpoint : Option Str) (q : Dict Str Str) : Prop where
  mode : arg q t!"mode" = some t!"checkid_setup" ∨ arg q t!"mode" = some t!"checkid_immediate"
  v1 : IsV1 q → (∃ i, arg q t!"identity" = some i) ∧ ∃ c u, arg q t!"return_to" = some (c :: u)
  v2 : ¬ IsV1 q → ((∃ i, arg q t!"identity" = some i) ↔ ∃ c, arg q t!"claimed_id" = some c) ∧
    (∃ e, opEndpoint = some e) ∧ ∃ t, realmOf q = some t
  url : ∀ u, arg q t!"return_to" = some u → ∃ R, locate U u = some R ∧ IsRealm R
  realm : ∀ t, given (realmOf q) = some t → ∃ L, locate U t = some L ∧ IsRealm L ∧
    ∀ u, arg q t!"return_to" = some u → ∃ R, locate U u = some R ∧ Covers L R

/-- a URL that has a normal form but no proper host or port (see C27) -/
def Broken (U : Url.Uni) (url : Str) : Prop := (∃ r, Urinorm.urinorm U url = .ok r) ∧ locate U url = none

end Spec

namespace Spec
open Py

/-- session and association type an associate query asks for; OpenID 1 has defaults -/
def SessionAsked (q : Dict Str Str) (session assoc : Str) : Prop :=
  if IsV1 q then session = (given (arg q t!"session_type")).getD t!"no-encryption" ∧
    assoc = (arg q t!"assoc_type").getD t!"HMAC-SHA1"
  else arg q t!"session_type" = some session ∧ arg q t!"assoc_type" = some assoc

/-- the combinations there are -/
def SessionFits (session assoc : Str) : Prop :=
  session = t!"no-encryption" ∧ (assoc = t!"HMAC-SHA1" ∨ assoc = t!"HMAC-SHA256") ∨
  session = t!"DH-SHA1" ∧ assoc = t!"HMAC-SHA1" ∨ session = t!"DH-SHA256" ∧ assoc = t!"HMAC-SHA256"

/-- the Diffie-Hellman parameters an associate query asks for, in base64: both given, or the default ones -/
def ParamsAsked (q : Dict Str Str) (modulus gen : Str) : Prop :=
  (arg q t!"dh_modulus" = some modulus ∧ arg q t!"dh_gen" = some gen ∧ (modulus ≠ [] ∨ gen ≠ [])) ∨
  (given (arg q t!"dh_modulus") = none ∧ given (arg q t!"dh_gen") = none ∧
    ((arg q t!"dh_modulus" = none) ↔ arg q t!"dh_gen" = none) ∧
    modulus = DH.defaultModulus ∧ gen = DH.defaultGenerator)

end Spec
