import Verif.Props.Honest
/-! # Lemmas for C75: what comes back from a provider that says no -/

namespace Honest
open Py Message Association Store Discover Consumer Spec Oidutil

/-- an answer that is not signed takes nothing from the store -/
theorem unsigned {σ : Type} {V : Server.World} {Es : Server.Env} {resp : Server.Response} {r : Server.CheckIDRequest}
    {oid rt : Str} {l : List (Str × Option Str)} (hx : Server.Exactly resp.fields oid (argsOf l)) {mode : Str}
    (hm : argsOf l t!"mode" = some mode) (hne : mode ≠ t!"id_res") (hreq : resp.request = .checkId r)
    (hrt : r.returnTo = some rt) (hwr : Writable resp.fields rt) :
    ∃ w, (∀ (step : σ → Event → σ × Outcome) st, Server.Prog.run step Es.now st (Server.signingEncode V Es resp) = (st, .ok w)) ∧
      sentTo resp.fields rt w := by
  obtain ⟨w, he, hw⟩ : ∃ w, Server.encode resp = .ok w ∧ sentTo resp.fields rt w := by
    rcases Props.c52_browser resp r hreq rt hrt with ⟨-, h⟩ | ⟨-, h, -⟩
    · exact h
    · exact absurd hwr h
  refine ⟨w, fun step st => ?_, hw⟩
  have h1 : resp.needsSigning = .ok false := by
    rw [Server.Response.needsSigning, hx.getArg, hm]
    show Except.ok _ = _
    rw [decide_eq_false (by simpa using hne)]
  rw [Server.signingEncode, h1]
  simp only [Server.run_done, he]

theorem truthy_some {u : Str} (h : u ≠ []) : Server.truthy (some u) = true := by
  cases u with
  | nil => exact absurd rfl h
  | cons => rfl

/-- answering with no, as far as the parts -/
theorem answer_no {V : Server.World} {Es : Server.Env} {r : Server.CheckIDRequest} {rt sv : Str} {m0 : Msg}
    (h1 : r.returnTo = some rt) (h2 : rt ≠ []) (h3 : r.opEndpoint = some sv) (h4 : sv ≠ [])
    (h5 : Msg.new r.message.getOpenIDNamespace = .ok m0) :
    r.answer V Es false none none none = r.answerNo V ⟨.checkId r, m0⟩ (some sv) := by
  unfold Server.CheckIDRequest.answer
  rw [h1]
  cases rt with
  | nil => exact absurd rfl h2
  | cons ch u =>
    have hs : r.serverUrl none = .ok (some sv) := by
      rw [Server.CheckIDRequest.serverUrl, h3, truthy_some h4]
      simp [Server.truthy]
    have hn : Server.Response.new (.checkId r) = .ok ⟨.checkId r, m0⟩ := by
      rw [Server.Response.new]
      simp only [Server.Request.message, h5]
      rfl
    simp only [hs, hn, ok_bind]
    rw [if_neg (by simp [Server.truthy]), if_neg (by simp)]

/-- the request that the user is to be sent to the provider with -/
theorem setup_url {V : Server.World} {e : Endpoint} (hv : versionOf e = t!"http://specs.openid.net/auth/2.0")
    {mq : Msg} (hns : mq.getOpenIDNamespace = some (versionOf e)) {i c rt realm sv : Str} {handle op : Option Str}
    (hab : askedAbout e = (some i, some c)) {imm : Bool} (h2 : rt ≠ []) {L R : Location}
    (hL : locate V.uni realm = some L) (hL' : IsRealm L) (hR : locate V.uni rt = some R) (hR' : IsRealm R) (hc : Covers L R)
    (hop : op ≠ none) :
    ∃ setup m, Server.CheckIDRequest.new V (some i) (some rt) (some realm) false handle op (some c) none = .ok setup ∧
      { setup with message := mq }.encodeToURL (some sv) = .ok (m.toURL sv) ∧
      Server.Exactly m (versionOf e) (argsOf (authArgs e false false realm rt (given handle))) := by
  obtain ⟨m2, hm2⟩ : ∃ m, Server.requestMessage none = .ok m := ⟨_, rfl⟩
  have hrealm := realm_ne hL
  have horE : Server.orElse (some realm) (some rt) = some realm := by
    rw [Server.orElse, truthy_some hrealm]; rfl
  have hnew : Server.CheckIDRequest.new V (some i) (some rt) (some realm) false handle op (some c) none =
      .ok ⟨m2, some i, some c, some rt, some realm, handle, op, false⟩ := by
    rw [Server.CheckIDRequest.new, hm2]
    have k1 : Server.checkIdentifiers m2 none (some i) (some c) = .ok () := by
      rw [Server.checkIdentifiers]
      split <;> rfl
    have k2 : (m2.isOpenID2 && op.isNone) = false := by
      cases op with
      | none => exact absurd rfl hop
      | some _ => simp
    simp only [ok_bind, k1, k2, horE]
    rw [if_neg (by simp), Server.checkReturnTo_ok.2 (by rintro u ⟨⟩; exact ⟨R, hR, hR'⟩),
      Server.trustRootValid_ok.2 (by
        intro t ht
        have : t = realm := by
          cases realm with
          | nil => exact absurd rfl hrealm
          | cons => simpa [given] using ht.symm
        subst this
        refine ⟨L, hL, hL', fun u hu => ?_⟩
        cases hu
        exact ⟨R, hR, hc⟩)]
    rfl
  have h1 : mq.isOpenID1 = false := by
    rw [Msg.isOpenID1, hns, hv]; rfl
  obtain ⟨m0, hm0⟩ := Server.new_can (oid := versionOf e) (by rw [hv]; decide)
  have y0 : Server.Exactly m0 (versionOf e) (argsOf []) := (Server.new_exactly hm0).congr fun _ => rfl
  have hn : versionOf e ≠ t!"http://openid.net/signon/1.0" := by rw [hv]; decide
  have hargs : ∀ h k, argsOf [(t!"mode", some t!"checkid_setup"), (t!"identity", some i), (t!"claimed_id", some c),
      (t!"return_to", some rt), (t!"realm", some realm), (t!"assoc_handle", h)] k =
      argsOf (authArgs e false false realm rt h) k := by
    intro h k
    simp only [authArgs, hab, if_neg hn, Bool.false_eq_true, if_false, hn, or_self, argsOf]
    by_cases a1 : k = t!"mode"
    · subst a1; rfl
    by_cases a2 : k = t!"identity"
    · subst a2; rfl
    by_cases a3 : k = t!"claimed_id"
    · subst a3; rfl
    by_cases a4 : k = t!"return_to"
    · subst a4; rfl
    by_cases a5 : k = t!"realm"
    · subst a5; rfl
    simp only [a1, a2, a3, a4, a5, if_false]
  cases rt with
  | nil => exact absurd rfl h2
  | cons ch u =>
    have hfix : m0.fixNS .openid = .ok (.uri (versionOf e)) := by simp [Msg.fixNS, y0.ns]
    rcases hg : given handle with _ | x
    · have hf : Server.truthy handle = false := by
        rcases handle with _ | _ | ⟨a, b⟩
        · rfl
        · rfl
        · cases hg
      obtain ⟨m1, e1, y1⟩ := Server.Exactly.updateNew (l := []) y0 [(t!"mode", t!"checkid_setup"), (t!"identity", i),
        (t!"claimed_id", c), (t!"return_to", ch :: u), (t!"realm", realm)] (by simp [Dict.WF, Dict.keys]) (by simp)
      refine ⟨_, m1, hnew, ?_, (y1.skip (k := t!"assoc_handle") (by simp)).congr (hargs none)⟩
      unfold Server.CheckIDRequest.encodeToURL
      simp only [hns, hm0, Server.lift, ok_bind, hfix, Server.CheckIDRequest.optionalArgs, truthy_some hrealm, hf, h1,
        Server.CheckIDRequest.mode, Bool.false_eq_true, if_false, if_true, Option.getD_some, List.append_nil,
        List.cons_append, List.nil_append, e1, Server.toURL]
    · have hf : Server.truthy handle = true ∧ handle.getD [] = x := by
        rcases handle with _ | _ | ⟨a, b⟩
        · cases hg
        · cases hg
        · simp only [given] at hg; cases hg; exact ⟨rfl, rfl⟩
      obtain ⟨m1, e1, y1⟩ := Server.Exactly.updateNew (l := []) y0 [(t!"mode", t!"checkid_setup"), (t!"identity", i),
        (t!"claimed_id", c), (t!"return_to", ch :: u), (t!"realm", realm), (t!"assoc_handle", x)]
        (by simp [Dict.WF, Dict.keys]) (by simp)
      refine ⟨_, m1, hnew, ?_, y1.congr (hargs (some x))⟩
      unfold Server.CheckIDRequest.encodeToURL
      simp only [hns, hm0, Server.lift, ok_bind, hfix, Server.CheckIDRequest.optionalArgs, truthy_some hrealm, hf.1, hf.2, h1,
        Server.CheckIDRequest.mode, Bool.false_eq_true, if_false, if_true, Option.getD_some,
        List.cons_append, List.nil_append, e1, Server.toURL]

/-- what the consumer makes of an answer that asserts nothing -/
theorem refused_back {W : World} {C : Conf} {E : Consumer.Env} {s : UserSession} {cur : Str} {f : Msg} {e : Endpoint}
    {l : List (Str × Option Str)} (hx : Carries f (versionOf e) (argsOf l)) {mode : Str}
    (hl : ∀ p ∈ l, '.' ∉ p.1 ∧ p.1 ≠ t!"ns") (hm : argsOf l t!"mode" = some mode) (hne : mode ≠ t!"id_res")
    {realm rt current nonce : Str} (hr : Returnable W.uni realm rt current) {q : Dict Str Str} (hw : Dict.WF q)
    (hq : ∀ k, q.get? k = (f.toPostArgs.get? k).or ((parameters (appendArgsSeq rt (ownArgs e nonce))).get? k)) :
    (∃ s2, Runs (complete W C E s q cur) [] (.ok (s2, .ok (told s.token q))) ∧ s2.token = none) ∧
    (∀ k, '.' ∉ k → k ≠ t!"ns" → arg q k = argsOf l k) ∧ (IsV1 q ↔ versionOf e = t!"http://openid.net/signon/1.0") := by
  have hd : ∀ k v, argsOf l k = some v → '.' ∉ k ∧ k ≠ t!"ns" := fun k v h => hl _ (argsOf_mem h)
  have hwf : Dict.WF f.toPostArgs := by rw [toPostArgs_eq]; exact Dict.WF_ofPairs _
  have hopen : ∀ k v, q.get? (t!"openid." ++ k) = some v ↔
      (argsOf l k = some v ∨ k = t!"ns" ∧ v = versionOf e ∧ versionOf e ≠ t!"http://openid.net/signon/1.0") := by
    intro k v
    have h0 : q.get? (t!"openid." ++ k) = f.toPostArgs.get? (t!"openid." ++ k) := by
      rw [hq]
      cases hp : (parameters (appendArgsSeq rt (ownArgs e nonce))).get? (t!"openid." ++ k) with
      | none => simp
      | some v =>
        have h1 := return_free hr e nonce _ ((return_get hr.plain.1 (return_nodup hr e nonce) _ _).1 hp)
        rw [show startsWith (t!"openid." ++ k) t!"openid." = true from (startsWith_iff _ _).2 ⟨k, rfl⟩] at h1
        cases h1
    rw [h0]
    constructor
    · intro h
      obtain ⟨k', h1, h2⟩ := (hx.sent _ _).1 (Dict.get?_mem _ _ _ h)
      obtain rfl := List.append_cancel_left h1
      rcases h2 with h2 | ⟨-, h2, h3, h4, -⟩
      · exact .inl h2
      · exact .inr ⟨h2, h3, h4⟩
    · intro h
      refine Dict.get?_of_mem _ hwf _ _ ((hx.sent _ _).2 ⟨k, rfl, ?_⟩)
      rcases h with h | ⟨rfl, rfl, h⟩
      · exact .inl h
      · refine .inr ⟨?_, rfl, rfl, h, by rcases Props.version_cases e with h | h <;> rw [h] <;> decide⟩
        cases h' : argsOf l t!"ns" with
        | none => rfl
        | some v => exact absurd rfl (hd _ _ h').2
  have ha : ∀ k, '.' ∉ k → k ≠ t!"ns" → arg q k = argsOf l k := by
    intro k _ hk
    apply Option.ext
    intro v
    rw [arg, hopen]
    simp [hk]
  have hns : arg q t!"ns" = if versionOf e = t!"http://openid.net/signon/1.0" then none else some (versionOf e) := by
    apply Option.ext
    intro v
    rw [arg, hopen]
    split
    · next h =>
      simp only [h, ne_eq, not_true_eq_false, and_false, or_false]
      constructor
      · intro h'; exact absurd rfl (hd _ _ h').2
      · intro h'; cases h'
    · next h =>
      constructor
      · rintro (h' | ⟨-, rfl, -⟩)
        · exact absurd rfl (hd _ _ h').2
        · rfl
      · intro h'; cases h'; exact .inr ⟨rfl, rfl, h⟩
  obtain ⟨m, hp⟩ : ∃ m, fromPostArgs W.reg q = .ok m := by
    refine fromPostArgs_flat hw (fun k v h => ?_) ?_
    · rcases (hopen k v).1 h with h | ⟨rfl, -⟩
      · exact (hd k v h).1
      · decide
    · rw [hns]
      rcases Props.version_cases e with h | h <;> rw [h] <;> decide
  refine ⟨?_, ha, ?_⟩
  · have hk := Props.generic_told (C := C) (E := E) (token := s.token) (current := cur) hw hp (by
      rw [ha _ (by decide) (by decide), hm]; simpa using hne)
    have hrun : Runs (complete W C E s q cur) [] (.ok (cleanup { s with token := none } (told s.token q), .ok (told s.token q))) := by
      rw [complete, hp]
      simp only [hk, Prog.handle]
      exact ⟨rfl, rfl⟩
    exact ⟨_, hrun, (Props.c37_other_modes hw hp (by rw [ha _ (by decide) (by decide), hm]; simpa using hne) hrun).2.2⟩
  · rcases Props.version_cases e with h | h <;> rw [h] at hns ⊢
    · constructor
      · intro hv
        exact absurd (hv _ hns) (by decide)
      · intro h'; exact absurd h' (by decide)
    · refine ⟨fun _ => rfl, fun _ x hx => ?_⟩
      rw [if_pos (by decide)] at hns
      rw [hns] at hx
      cases hx

end Honest
