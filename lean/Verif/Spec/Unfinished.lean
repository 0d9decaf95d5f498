import Verif.Spec.Consumer
import Verif.Spec.Clash
/-! # When an exception leaves a consumer -/

namespace Spec
open Py Message Association Cryptutil Store Discover Consumer

/-- A URL that cannot be taken apart, normalised or not. -/
def BadUrl (U : Url.Uni) (u : Str) : Prop :=
  Url.urlparse U u = .error .valueError ∨ Urinorm.urinorm U u = .error .valueError ∨
  ∃ v, Urinorm.urinorm U u = .ok v ∧ Url.urlparse U v = .error .valueError

/-- A reply that is not a message: not UTF-8, of an unknown version, or with extensions that cannot go together. -/
inductive BadReply (reg : Dict Str Str) (r : Http) : PyErr → Prop where
  | text (e : PyErr) : Utf8.decode r.body = .error e → BadReply reg r e
  | version (text : Str) (d : Dict Str Str) (u : Str) : Utf8.decode r.body = .ok text → KVForm.kvToDict text = .ok d →
      d.get? t!"ns" = some u → u ∉ versions → BadReply reg r .invalidOpenIDNamespace
  | names (text : Str) (d : Dict Str Str) (e : PyErr) : Utf8.decode r.body = .ok text → KVForm.kvToDict text = .ok d →
      Clash reg (versionIn d.get?) d.get? e → BadReply reg r e

/-- an answer of the store that is of another kind than the call asks for -/
def WrongKind : Store.Op → Answer → Prop
  | .getAssociation _ _, .assoc _ => False
  | .getAssociation _ _, _ => True
  | .useNonce _ _ _, .bool _ => False
  | .useNonce _ _ _, _ => True
  | _, _ => False

/-- What came back from outside was an exception, or something unusable. -/
inductive Outside (reg : Dict Str Str) (evs : List Ev) : PyErr → Prop where
  | store (op : Store.Op) (e : PyErr) : .store op (.error e) ∈ evs → Outside reg evs e
  | kind (op : Store.Op) (r : Answer) : .store op (.ok r) ∈ evs → WrongKind op r → Outside reg evs .typeError
  | discovery (id : Str) (e : PyErr) : .discover id (.error e) ∈ evs → Outside reg evs e
  | fetch (url body : Str) (e : PyErr) : .post url body (.error e) ∈ evs → e ≠ .fetchingError → Outside reg evs e
  | reply (url body : Str) (r : Http) (e : PyErr) : .post url body (.ok r) ∈ evs → BadReply reg r e → Outside reg evs e

/-- The signature cannot even be compared: it is empty, or the text to sign cannot be written, or the association is of an
    unknown type. -/
inductive Uncheckable (a : Assoc) (q : Dict Str Str) : PyErr → Prop where
  | empty : arg q t!"sig" = some [] → Uncheckable a q .valueError
  | name (l f : Str) : arg q t!"signed" = some l → f ∈ splitOn ',' l → ':' ∈ f ∨ '\n' ∈ f → Uncheckable a q .kvFormError
  | value (l f v : Str) : arg q t!"signed" = some l → f ∈ splitOn ',' l → arg q f = some v → '\n' ∈ v →
      Uncheckable a q .kvFormError
  | type : a.assocType ≠ t!"HMAC-SHA1" → a.assocType ≠ t!"HMAC-SHA256" → Uncheckable a q .valueError

/-- When an exception leaves `complete`, and which. -/
inductive Unfinished (W : World) (session : Option Endpoint) (q : Dict Str Str) (current : Str) (evs : List Ev) :
    PyErr → Prop where
  /-- an unknown version -/
  | version (u : Str) : q.get? t!"openid.ns" = some u → u ∉ versions →
      Unfinished W session q current evs .invalidOpenIDNamespace
  /-- extensions that cannot go together -/
  | names (e : PyErr) : Clash W.reg (versionIn (arg q)) (arg q) e →
      Unfinished W session q current evs e
  /-- an assertion that declares the word `sreg` as a namespace -/
  | literal (alias : Str) (e : PyErr) : arg q t!"mode" = some t!"id_res" →
      q.get? (t!"openid.ns." ++ alias) = some t!"sreg" →
      e = .assertionError ∨ e = .invalidNamespace ∨ e = .invalidOpenIDNamespace ∨ e = .kvFormError →
      Unfinished W session q current evs e
  /-- an assertion of the version in between -/
  | between : arg q t!"mode" = some t!"id_res" → arg q t!"ns" = some t!"http://openid.net/signon/1.1" →
      Unfinished W session q current evs .keyError
  /-- an assertion with a bad return URL, or brought to a bad one -/
  | url (u : Str) : arg q t!"mode" = some t!"id_res" → arg q t!"return_to" = some u ∨ u = current → BadUrl W.uni u →
      Unfinished W session q current evs .valueError
  /-- an assertion about a bad claimed identifier -/
  | claimed (c : Str) : arg q t!"mode" = some t!"id_res" →
      (if IsV1 q then claimedIn session q else arg q t!"claimed_id") = some c →
      Url.urldefrag W.uni c = .error .valueError → Unfinished W session q current evs .valueError
  /-- an OpenID 1 assertion about nobody: without a session, or with an endpoint that is for nobody -/
  | nobody (e : PyErr) : arg q t!"mode" = some t!"id_res" → IsV1 q → claimedIn session q = none →
      e = (if session = none then .runtimeError else .attributeError) → Unfinished W session q current evs e
  /-- what came back from outside -/
  | outside (e : PyErr) : arg q t!"mode" = some t!"id_res" → Outside W.reg evs e → Unfinished W session q current evs e
  /-- a signature that cannot be compared with the one of the association in the store -/
  | signature (url handle : Str) (a : Assoc) (e : PyErr) : arg q t!"mode" = some t!"id_res" →
      arg q t!"assoc_handle" = some handle →
      .store (.getAssociation url (some handle)) (.ok (.assoc (some a))) ∈ evs → Uncheckable a q e →
      Unfinished W session q current evs e

/-- When an exception leaves `begin`, and which; `token` is the request that is pending after it. -/
inductive NotBegun (W : World) (C : Conf) (anonymous : Bool) (token : Option Endpoint) (evs : List Ev) : PyErr → Prop where
  /-- discovery failed, or found nothing -/
  | nothing (id : Str) (o : Except PyErr (Str × List Endpoint)) : .discover id o ∈ evs →
      o = .error .discoveryFailure ∨ o = .error .fetchingError ∨ (∃ u, o = .ok (u, [])) →
      NotBegun W C anonymous token evs .discoveryFailure
  /-- OpenID 1 has no requests without an identifier -/
  | anonymous (e : Endpoint) : anonymous = true → token = some e →
      t!"http://specs.openid.net/auth/2.0/server" ∉ e.typeUris →
      t!"http://specs.openid.net/auth/2.0/signon" ∉ e.typeUris → NotBegun W C anonymous token evs .protocolError
  /-- no kind of association is allowed -/
  | noKind : C.hasStore = true → C.negotiator = [] → NotBegun W C anonymous token evs .assertionError
  /-- the first kind allowed is of an unknown session type, which the negotiator does not take -/
  | kind (a t : Str) (rest : List (Str × Str)) : C.hasStore = true → C.negotiator = (a, t) :: rest →
      t ∉ [t!"DH-SHA256", t!"DH-SHA1", t!"no-encryption"] → NotBegun W C anonymous token evs .keyError
  /-- the library refuses the default parameters -/
  | library (p g : Nat) : C.hasStore = true → base64ToLong DH.defaultModulus = .ok p →
      base64ToLong DH.defaultGenerator = .ok g → W.lib.okParams p g = false → NotBegun W C anonymous token evs .valueError
  /-- the library gives an empty shared secret -/
  | shared (p z : Nat) : C.hasStore = true → W.lib.sharedBytes p z = [] → NotBegun W C anonymous token evs .indexError
  /-- what came back from outside -/
  | outside (e : PyErr) : Outside W.reg evs e → NotBegun W C anonymous token evs e

end Spec
