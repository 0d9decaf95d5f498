import Verif.Spec.ServerAnswer
/-! # What an answer to an association request carries -/

namespace Spec
open Py Message Association Cryptutil DH Store Server

/-- The negotiator lists the pair, and it is a pair OpenID knows: SHA-1 goes with SHA-1 and SHA-256 with SHA-256. -/
def Permits (n : List (Str × Str)) (assocType sessionType : Str) : Prop :=
  (assocType, sessionType) ∈ n ∧
  (assocType = t!"HMAC-SHA1" ∧ (sessionType = t!"DH-SHA1" ∨ sessionType = t!"no-encryption") ∨
   assocType = t!"HMAC-SHA256" ∧ (sessionType = t!"DH-SHA256" ∨ sessionType = t!"no-encryption"))

/-- How the secret is sent: in base64, or encrypted with the Diffie-Hellman secret shared with the holder of the
    consumer's public key, along with the server's public key. -/
def SecretFor (W : World) (session : Session) (secret : Bytes) (kvs : List (Str × Option Str)) : Prop :=
  match session with
  | .plain => kvs = [(t!"mac_key", some (toBase64 secret))]
  | .dh sha256 d k => ∃ pub enc, d.publicKey = .ok pub ∧
      d.xorSecret W.lib k (toBase64 secret) (if sha256 then W.sha256 else W.sha1) = .ok enc ∧
      kvs = [(t!"dh_server_public", some pub), (t!"enc_mac_key", some enc)]

instance (m : Msg) : Decidable (MsgV1 m) := inferInstanceAs (Decidable (_ ∨ _))

end Spec
