import Verif.Spec.Replay
import Verif.Spec.Server
import Verif.Spec.ServerAnswer
import Verif.Spec.Message
/-! # What a provider said, and what a consumer was told -/

namespace Spec
open Py Message Association Cryptutil Store Discover Server

/-- A response that the provider signed: one that a call of `Signatory.sign` returned. -/
def Issued (seen : List Seen) (f : Msg) : Prop :=
  ∃ x ∈ seen, ∃ r resp, x.call = .sign r ∧ x.reply = .ok (.response resp) ∧ resp.fields = f

/-- The text that the signature of a message is about: the fields it lists, in that order, with their values. -/
def SignedText (f : Msg) (text : Str) : Prop :=
  ∃ l, f.getArg .openid t!"signed" = .ok (some l) ∧
    KVForm.seqToKV false ((splitOn ',' l).map fun k => (k, (f.toPostArgs.get? (t!"openid." ++ k)).getD [])) = .ok text

/-- What the consumer was told is what the response says: the list of signed fields is the same, and so is the value of
    every field of the protocol on it (missing and empty being the same), among them each field that must be signed. -/
structure Vouched (q : Dict Str Str) (f : Msg) : Prop where
  list : ∃ l, arg q t!"signed" = some l ∧ f.getArg .openid t!"signed" = .ok (some l) ∧
    ∀ k ∈ splitOn ',' l, '.' ∉ k → (arg q k).getD [] = (f.toPostArgs.get? (t!"openid." ++ k)).getD []
  needed : ∀ k ∈ neededSigned (decide (IsV1 q)), ∀ v, arg q k = some v → v ≠ [] →
    f.toPostArgs.get? (t!"openid." ++ k) = some v

/-- An association whose secret can make the consumer believe a response from this URL: one that its store returned for
    the handle in the query, or a private one that the provider made and gave that handle. -/
def Key (V : Server.World) (seen : List Seen) (url : Str) (evs : List Consumer.Ev) (q : Dict Str Str) (a : Assoc) : Prop :=
  ∃ handle, arg q t!"assoc_handle" = some handle ∧
    (.store (.getAssociation url (some handle)) (.ok (.assoc (some a))) ∈ evs ∨
     a.handle = handle ∧ ∃ x ∈ seen, x.call.isPrivate ∧ Makes V x.env a)

/-- The response says of which version it is: the version is among the signed fields, or (in OpenID 1, where it need not be
    written) there is an identity but no claimed identifier. -/
def PinsVersion (f : Msg) : Prop :=
  ∃ l, f.getArg .openid t!"signed" = .ok (some l) ∧
    (t!"ns" ∈ splitOn ',' l ∨
     t!"identity" ∈ splitOn ',' l ∧ (f.toPostArgs.get? t!"openid.identity").getD [] ≠ [] ∧ t!"claimed_id" ∉ splitOn ',' l)

/-- Every field that the response lists as signed, of extensions too, has the same value in the query. -/
def VouchedAll (q : Dict Str Str) (f : Msg) : Prop :=
  ∃ l, f.getArg .openid t!"signed" = .ok (some l) ∧ ∀ k ∈ splitOn ',' l,
    (arg q k).getD [] = (f.toPostArgs.get? (t!"openid." ++ k)).getD []

/-- No namespace is called `sreg`, which the library takes for another name of the extension. -/
def NoneSreg (reg reg' q : Dict Str Str) : Prop :=
  (∀ alias uri, reg.get? alias = some uri → uri ≠ t!"sreg") ∧ (∀ alias uri, reg'.get? alias = some uri → uri ≠ t!"sreg") ∧
    ∀ alias uri, arg q (t!"ns." ++ alias) = some uri → uri ≠ t!"sreg"

/-- The signature in the query is good for a text that the provider never signed, under the secret of this
    association. -/
def Forged (H : Mac) (seen : List Seen) (a : Assoc) (q : Dict Str Str) : Prop :=
  ∃ sig text, arg q t!"sig" = some sig ∧ sig = toBase64 (H a.assocType a.secret (Utf8.encode text)) ∧
    ∀ f, Issued seen f → ¬ SignedText f text

/-- Whoever says `is_valid:true` at this URL is the provider: it read what was posted as a request for
    check_authentication, answered it, and the reply is that answer as it was written. -/
def Reaches (V : Server.World) (seen : List Seen) (url : Str) (evs : List Consumer.Ev) : Prop :=
  ∀ body o, .post url body o ∈ evs → RepliedWith o t!"is_valid" t!"true" →
    ∃ (E E' : Server.Env) (op : Option Str) (q : Dict Str Str) (r : CheckAuthRequest) (resp : Server.Response) (kv : Str),
      Dict.WF q ∧ (∀ k, q.get? k = (Dict.ofPairs (Percent.parseQsl true body)).get? k) ∧
      decode V E' op q = .ok (some (.checkAuth r)) ∧
      ⟨E, .checkAuth r, .ok (.response resp)⟩ ∈ seen ∧
      encode resp = .ok ⟨200, none, kv⟩ ∧ o = .ok ⟨200, Utf8.encode kv⟩

/-- What the provider's application decided about a request: yes, for this user. -/
structure Decision where
  env : Server.Env
  request : CheckIDRequest
  serverUrl : Option Str
  identity : Option Str
  claimedId : Option Str

/-- The response is the positive answer that was decided, perhaps with extensions: what it sends of the protocol itself is
    what the answer sends, and no name has a comma. -/
structure Says (V : Server.World) (d : Decision) (r : Server.Response) : Prop where
  built : Built V.reg r.fields
  answer : ∃ r0, d.request.answer V d.env true d.serverUrl d.identity d.claimedId = .ok r0 ∧
    ∀ k, '.' ∉ k → r.fields.toPostArgs.get? (t!"openid." ++ k) = r0.fields.toPostArgs.get? (t!"openid." ++ k)
  names : ∀ k v, r.fields.toPostArgs.get? (t!"openid." ++ k) = some v → ',' ∉ k

/-- The query says what was decided: the version of the request, its return_to, the user that the answer is about, and in
    OpenID 2 the claimed identifier, the nonce and the provider. -/
structure Decided (V : Server.World) (d : Decision) (q : Dict Str Str) : Prop where
  version : IsV1 q ↔ MsgV1 d.request.message
  returnTo : arg q t!"return_to" = d.request.returnTo
  user : ∃ i c, Asserts V.uni d.request d.identity d.claimedId i c ∧ (arg q t!"identity").getD [] = i.getD [] ∧
    (¬ IsV1 q → (arg q t!"claimed_id").getD [] = c.getD [])
  nonce : ¬ IsV1 q → arg q t!"response_nonce" = some (Nonce.mkNonce (V.clock.seconds d.env.now).toNat d.env.salt)
  server : ¬ IsV1 q → arg q t!"op_endpoint" = (given d.serverUrl).or d.request.opEndpoint

end Spec
