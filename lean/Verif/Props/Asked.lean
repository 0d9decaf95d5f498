import Verif.Props.ConsumerSigned
import Verif.Props.ServerAnswer
import Verif.Props.TrustRoot
import Verif.Props.Shown
import Verif.Props.Sreg
/-! # Methods that ask a request or a response about itself -/

namespace Props
open Py Message Spec

/-- C08: `isDefined` and `in` say whether a URI has an alias. -/
theorem c08_defined (m : NamespaceMap) (uri : Str) : m.isDefined uri = true ↔ ∃ a, m.getAlias uri = some a := by
  rw [NamespaceMap.isDefined, Dict.has, NamespaceMap.getAlias, Option.isSome_iff_exists]

example : NamespaceMap.isDefined ([NsOp.add t!"http://x/"].foldl nsStep {}) t!"http://x/" = true := by decide

/-- C39: `getReturnTo` gives the return URL of the response exactly if that is signed. -/
theorem c39_getReturnTo {reg q : Dict Str Str} {m : Msg} (h : Arrived reg q m) (names : List Str) (v : Str) :
    Consumer.getReturnTo m (names.map (t!"openid." ++ ·)) = .ok (some v) ↔
      q.get? t!"openid.return_to" = some v ∧ t!"return_to" ∈ names := by
  obtain ⟨hH, hget⟩ := fromPostArgs_has h.wf h.parsed
  have hkey : m.getKey .openid t!"return_to" = .ok (some t!"openid.return_to") := by
    have := (hH.inv.ns.bij _ _).1 hH.ns
    simp [Msg.getKey, Msg.fixNS, Msg.getOpenIDNamespace, NamespaceMap.getNamespaceURI, hH.ns, Msg.keyOf,
      NamespaceMap.getAlias, this]
  have harg := hget t!"return_to" (by decide) (by decide)
  rw [Consumer.getReturnTo]
  constructor
  · intro hv
    obtain ⟨h1, f, h2, h3, h4, -⟩ := c39_getSigned h names .openid _ v hv
    rw [hkey] at h3
    have hf : t!"return_to" = f := List.append_cancel_left (as := t!"openid.") (by simpa using h3)
    rw [← hf] at h2 h4
    exact ⟨h4, h2⟩
  · rintro ⟨h1, h2⟩
    exact c39_getSigned_complete h names .openid _ v t!"return_to" (by rw [harg]; exact congrArg _ h1) hkey h2

/-- C46: `wereFieldsRequested` and `in` after any history of calls. -/
theorem c46_asked (policyUrl : Option Str) (nsUri : Str) (ops : List SregOp) :
    let r := ops.foldl sregStep { policyUrl := policyUrl, nsUri := nsUri }
    (∀ f, r.contains f = true ↔ (ops.foldl wantStep fun _ => none) f ≠ none) ∧
    (r.wereFieldsRequested = true ↔ ∃ f, (ops.foldl wantStep fun _ => none) f ≠ none) := by
  intro r
  obtain ⟨hp, hw⟩ := c46_history policyUrl nsUri ops
  have hm : ∀ f, wanted r f ≠ none ↔ f ∈ r.required ∨ f ∈ r.optional := by
    intro f
    simp only [wanted]
    split
    · simp [*]
    · split <;> simp [*]
  rw [← hw]
  constructor
  · intro f
    rw [hm f, Sreg.Request.contains]
    simp
  · rw [Sreg.Request.wereFieldsRequested, Sreg.Request.allRequestedFields]
    constructor
    · intro h
      cases hl : r.required ++ r.optional with
      | nil => rw [hl] at h; cases h
      | cons f l => exact ⟨f, (hm f).2 (by rw [← List.mem_append, hl]; simp)⟩
    · rintro ⟨f, hf⟩
      replace hf := (hm f).1 hf
      rw [← List.mem_append] at hf
      cases hl : r.required ++ r.optional with
      | nil => rw [hl] at hf; cases hf
      | cons f l => rfl

/-- C79: An endpoint supports simple registration exactly if it declares one of the two addresses of it. -/
theorem c79_supports_sreg (e : Discover.Endpoint) : Sreg.supportsSReg e = true ↔
    t!"http://openid.net/extensions/sreg/1.1" ∈ e.typeUris ∨ t!"http://openid.net/sreg/1.0" ∈ e.typeUris := by
  rw [Sreg.supportsSReg, Bool.or_eq_true, (c79_supports e _).2.1, (c79_supports e _).2.1]
  rfl

/-- C63: `addExtensionArg` sets one argument of one extension in the message of the request, and nothing else. -/
theorem c63_addExtensionArg (reg : Dict Str Str) (r : Consumer.AuthRequest) (hm : Built reg r.message) (uri key value : Str)
    (hs : uri ≠ t!"sreg") :
    ∃ r', r.addExtensionArg (.uri uri) key value = .ok r' ∧ r' = { r with message := r'.message } ∧
      r'.message.getOpenIDNamespace = r.message.getOpenIDNamespace ∧ r'.message.getArg (.uri uri) key = .ok (some value) ∧
      ∀ ns key', (resolve r.message.getOpenIDNamespace ns ≠ some (.uri uri) ∨ key' ≠ key) →
        r'.message.getArg ns key' = r.message.getArg ns key' := by
  obtain ⟨m', h1, h2, h3, h4⟩ := c09_set_isolated reg r.message hm (.uri uri) (.uri uri) (by simp [resolve, hs]) key value
  refine ⟨{ r with message := m' }, ?_, rfl, h2, h3, h4⟩
  rw [Consumer.AuthRequest.addExtensionArg, h1]; rfl

/-- C34: A request is to choose the identifier exactly if that is what `identity` says. -/
theorem c34_idSelect (W : Server.World) (E : Server.Env) (op : Option Str) (q : Dict Str Str) (hq : Dict.WF q)
    (r : Server.CheckIDRequest) (hd : Server.decode W E op q = .ok (some (.checkId r))) :
    r.idSelect = true ↔ arg q t!"identity" = some t!"http://specs.openid.net/auth/2.0/identifier_select" := by
  obtain ⟨-, m, -, hr⟩ := (c34_checkid W E op q hq r).1 hd
  rw [Server.CheckIDRequest.idSelect, hr]
  simp only [decide_eq_true_eq]
  exact Iff.rfl

/-- C35: A positive answer asserts an identifier that the program chose only if the request says so (`idSelect`). -/
theorem c35_idSelect (W : Server.World) (E : Server.Env) (r : Server.CheckIDRequest) (serverUrl identity claimedId : Option Str)
    (resp : Server.Response) (h : r.answer W E true serverUrl identity claimedId = .ok resp) (hs : r.idSelect = false) (i : Str)
    (hi : resp.fields.getArg .openid t!"identity" = .ok (some i)) : r.identity = some i := by
  obtain ⟨-, oid, url, j, c, -, -, -, ha, hc, -⟩ := c35_yes W E r serverUrl identity claimedId resp h
  have hj : j = some i := by
    have := hc.args t!"identity"
    rw [hi] at this
    exact (Except.ok.inj this).symm
  have hne : ¬ r.identity = some t!"http://specs.openid.net/auth/2.0/identifier_select" := by
    intro e
    rw [Server.CheckIDRequest.idSelect, e] at hs
    exact absurd hs (by decide)
  rw [Asserts, if_neg hne] at ha
  split at ha
  · next y hy =>
    rw [hj] at ha
    have e : i = y := Option.some.inj ha.1
    rw [e]
    revert hy
    cases r.identity with
    | none => simp [given]
    | some x => cases x <;> simp [given]
  · rw [hj] at ha
    cases ha.2.1

/-- C29: `returnToVerified` of a request that was decoded: if it says yes, the return URL of the request is published by its
    realm. -/
theorem c29_request_verified (W : Server.World) (E : Server.Env) (op : Option Str) (q : Dict Str Str) (hq : Dict.WF q)
    (r : Server.CheckIDRequest) (hd : Server.decode W E op q = .ok (some (.checkId r))) (disc : TrustRoot.Discover)
    (returnTo : Str) (hret : arg q t!"return_to" = some returnTo)
    (hv : r.returnToVerified W disc = .ok true) :
    ∃ realm L after found norm, realmOf q = some realm ∧ locate W.uni realm = some L ∧ IsRealm L ∧
      disc (discoveryURL realm L) = .ok (after, found) ∧
      Urinorm.urinorm W.uni after = .ok norm ∧ Urinorm.urinorm W.uni (discoveryURL realm L) = .ok norm ∧
      ∃ e ∈ found, ∃ a, e.uri = some a ∧ t!"http://specs.openid.net/auth/2.0/return_to" ∈ e.types ∧
        Listed W.uni [a] returnTo := by
  obtain ⟨-, m, -, hr⟩ := (c34_checkid W E op q hq r).1 hd
  rw [Server.CheckIDRequest.returnToVerified, hr] at hv
  simp only [hret, Option.getD_some] at hv
  have hv' : TrustRoot.verifyReturnTo W.uni disc ((realmOf q).getD []) returnTo = .ok true := by
    revert hv
    cases TrustRoot.verifyReturnTo W.uni disc ((realmOf q).getD []) returnTo <;> simp [Server.lift]
  obtain ⟨L, after, found, norm, h1, h2⟩ := c29_verify W.uni disc _ _ hv'
  cases hre : realmOf q with
  | none =>
    simp only [realmOf, hret, Option.or_eq_none_iff] at hre
    cases hre.2
  | some realm => rw [hre] at h1 h2; exact ⟨realm, L, after, found, norm, rfl, h1, h2⟩

/-- what a request decoded from a query says of itself: whether to choose, and whether its return URL is published -/
def askedBy0 (q : Dict Str Str) : Option (Bool × Except Server.Err Bool) :=
  match Server.decode sworld0 senv0 (some t!"http://op/") q with
  | .ok (some (.checkId r)) => some (r.idSelect, r.returnToVerified sworld0 disc0)
  | _ => none

def askQuery0 (returnTo identity : Str) : Dict Str Str :=
  [(t!"openid.ns", t!"http://specs.openid.net/auth/2.0"), (t!"openid.mode", t!"checkid_setup"),
   (t!"openid.identity", identity), (t!"openid.claimed_id", identity),
   (t!"openid.realm", t!"http://*.example.com/"), (t!"openid.return_to", returnTo)]

example : askedBy0 (askQuery0 t!"http://rp.example.com/return?x=y" t!"http://specs.openid.net/auth/2.0/identifier_select") =
      some (true, .ok true) ∧
    askedBy0 (askQuery0 t!"http://x.example.com/" t!"http://u.example/") = some (false, .ok false) := by decide +kernel

example : (fromPostArgs [] [(t!"openid.return_to", t!"http://rp/"), (t!"openid.signed", t!"return_to")]).bind (fun m =>
    Consumer.getReturnTo m [t!"openid.return_to"]) = .ok (some t!"http://rp/") := by decide +kernel

end Props
