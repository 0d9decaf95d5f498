import Verif.Model.Serve
import Verif.Spec.Honest
import Verif.Spec.ServerAssociate
import Verif.Spec.Clash
/-! # What an endpoint replies to direct requests -/

namespace Spec
open Py Message Association Cryptutil DH Store Server

/-- What a relying party reads in the body of a reply: these fields, and the version if that is OpenID 2.  (Reading takes
    the spaces around a value away.) -/
def Tells (body : Str) (v1 : Prop) (fields : Str → Option Str) : Prop :=
  ∃ d : Dict Str Str, KVForm.kvToDict body = .ok d ∧ Dict.WF d ∧ ∀ k x, d.get? k = some x ↔
    ∃ y, x = strip y ∧ (fields k = some y ∨
      fields k = none ∧ k = t!"ns" ∧ ¬ v1 ∧ y = t!"http://specs.openid.net/auth/2.0")

/-- Random bytes and digests have the lengths they should have, and an element of the group is written in at least one
    byte. -/
structure Sized (W : World) (E : Env) : Prop where
  secret : ∀ n, (E.secret n).length = n
  sha1 : ∀ x, (W.sha1 x).length = 20
  sha256 : ∀ x, (W.sha256 x).length = 32
  shared : ∀ p z, W.lib.sharedBytes p z ≠ []

/-- The public key of a consumer that the cryptographic library takes. -/
def KeyOk (L : Lib) (d : DiffieHellman) (key : Str) : Prop :=
  ∃ b bs, Base64.decode key = .ok (b :: bs) ∧ ∀ y, bytesToInt (b :: bs) = .ok y → L.okPub d.p d.g y = true

/-- a key for the session, or none needed -/
def SessionOk (L : Lib) : Session → Prop
  | .plain => True
  | .dh _ d key => KeyOk L d key

/-- an association that the store holds and that is not too old -/
def Alive (W : World) (E : Env) (m : AssocMap) (server handle : Str) : Prop :=
  ∃ a, m server handle = some a ∧ ¬ expired (W.clock.seconds E.now) a

/-- a mode of direct communication, as far as errors are concerned: anything but the modes of the browser -/
def DirectMode (q : Dict Str Str) : Prop :=
  ∃ mode, given (arg q t!"mode") = some mode ∧ mode ≠ t!"checkid_setup" ∧ mode ≠ t!"checkid_immediate"

instance (q : Dict Str Str) : Decidable (DirectMode q) :=
  match h : given (arg q t!"mode") with
  | none => isFalse (by rintro ⟨m, hm, -⟩; rw [h] at hm; cases hm)
  | some m =>
    if hm : m ≠ t!"checkid_setup" ∧ m ≠ t!"checkid_immediate" then isTrue ⟨m, h, hm⟩
    else isFalse (by rintro ⟨m', h1, h2⟩; rw [h] at h1; cases h1; exact hm h2)

/-- When an exception leaves the endpoint, and which. -/
inductive Unanswered (W : World) (E : Env) (op : Option Str) (n : Negotiator) (text : Reason → Option Msg → Str)
    (q : Dict Str Str) : Err → Prop where
  /-- namespaces that cannot be -/
  | namespaces (p : PyErr) : Misnamed W.reg (arg q) p → Unanswered W E op n text q (.py p)
  /-- an OpenID 2 request through the browser, to a server that was not told its endpoint -/
  | endpoint : arg q t!"mode" = some t!"checkid_setup" ∨ arg q t!"mode" = some t!"checkid_immediate" →
      op = none → ¬ IsV1 q → Unanswered W E op n text q (.py .valueError)
  /-- a request through the browser with a broken URL -/
  | url (e : Err) : arg q t!"mode" = some t!"checkid_setup" ∨ arg q t!"mode" = some t!"checkid_immediate" →
      e = .py .valueError ∨ e = .py .attributeError ∨ e = .py .typeError →
      (∃ u, (arg q t!"return_to" = some u ∨ realmOf q = some u) ∧ Broken W.uni u) → Unanswered W E op n text q e
  /-- an error whose text has a line end, in reply to a direct request -/
  | text (why : Reason) (m : Option Msg) : DirectMode q → arg q t!"return_to" = none → '\n' ∈ text why m →
      Unanswered W E op n text q (.py .kvFormError)
  /-- an error too long for a redirect, with characters that no form can have -/
  | form (why : Reason) (m : Option Msg) (e : Msg) (oid url : Str) : arg q t!"return_to" = some url →
      Carries e oid (argsOf [(t!"mode", some t!"error"), (t!"error", some (text why m))]) → TooLong e url →
      ¬ Writable e url → Unanswered W E op n text q (.py .valueError)
  /-- a request to check a handle with a line end in it -/
  | handle (h : Str) : arg q t!"mode" = some t!"check_authentication" → arg q t!"invalidate_handle" = some h → '\n' ∈ h →
      Unanswered W E op n text q (.py .kvFormError)
  /-- a Diffie-Hellman request with a public key that the library does not take -/
  | key (modulus gen k : Str) (d : DiffieHellman) : arg q t!"mode" = some t!"associate" → ParamsAsked q modulus gen →
      DiffieHellman.new W.lib modulus gen E.priv = .ok d → arg q t!"dh_consumer_public" = some k → ¬ KeyOk W.lib d k →
      Unanswered W E op n text q (.py .valueError)
  /-- an OpenID 1 request for an association of a kind the server does not make -/
  | unsupported (m : Msg) (session assoc : Str) : arg q t!"mode" = some t!"associate" → IsV1 q →
      SessionAsked q session assoc → ¬ Permits n assoc session →
      Unanswered W E op n text q (.protocol .unsupported (some m))

end Spec
