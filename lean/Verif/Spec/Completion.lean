import Verif.Spec.Consumer
/-! # What a completion may ask for and change outside, whatever comes of it -/

namespace Spec
open Py Message Association Cryptutil Store Discover Consumer

/-- no call, or a single one of this kind -/
def AtMostOne (P : Ev → Prop) (evs : List Ev) : Prop := evs = [] ∨ ∃ ev, evs = [ev] ∧ P ev

/-- the claimed identifier that an assertion is about -/
def claimedOf (session : Option Endpoint) (q : Dict Str Str) : Option Str :=
  if IsV1 q then claimedIn session q else arg q t!"claimed_id"

/-- The five steps in which a positive assertion leads to calls: `found` is discovery, `looked` the search for an
    association, `asked` the question to the provider, `dropped` the removal of an association, `spent` the nonce. -/
structure Steps (W : World) (C : Conf) (E : Env) (session : Option Endpoint) (q : Dict Str Str) (m : Msg) (server : Str)
    (found looked asked dropped spent : List Ev) : Prop where
  /-- what is discovered is the claimed identifier -/
  discovery : AtMostOne (fun ev => ∃ c o, claimedOf session q = some c ∧ ev = .discover c o) found
  /-- the server of the further calls is that of the discovered endpoint -/
  endpoint : looked ++ asked ++ dropped ++ spent = [] ∨ ∃ e, Confirmed W session q found e ∧ e.serverUrl = server
  /-- the association looked for is the one named -/
  lookup : AtMostOne (fun ev => C.hasStore = true ∧
    ∃ o, ev = .store (.getAssociation server (arg q t!"assoc_handle")) o) looked
  /-- the provider is asked about this message, and only if there is no such association -/
  question : AtMostOne (fun ev => ∃ ask o, m.setArg .openid t!"mode" t!"check_authentication" = .ok ask ∧
    ev = .post server ask.toURLEncoded o ∧
    looked = if C.hasStore then [.store (.getAssociation server (arg q t!"assoc_handle")) (.ok (.assoc none))] else []) asked
  /-- an association is removed if the reply says so -/
  removal : AtMostOne (fun ev => C.hasStore = true ∧ ∃ h o body reply, ev = .store (.removeAssociation server h) o ∧
    asked = [.post server body reply] ∧ RepliedWith reply t!"invalidate_handle" h) dropped
  /-- the nonce is that of the message, and comes last, after the signature was found good -/
  nonce : AtMostOne (fun ev => C.hasStore = true ∧ SignatureChecked W C E q m server (looked ++ asked ++ dropped) ∧
    ∃ nonce t salt o, (nonceIn q server).1 = some nonce ∧ Nonce.split W.digits nonce = .ok (t, salt) ∧
      ev = .store (.useNonce (nonceIn q server).2 t salt) o) spent

end Spec
