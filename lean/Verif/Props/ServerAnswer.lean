import Verif.Props.ServerEncode
/-! # C35: the answers to checkid requests -/

namespace Props
open Py Message Association Store Server Spec

theorem v1_iff (m : Msg) : m.isOpenID1 = true ↔ MsgV1 m := by
  unfold Msg.isOpenID1 MsgV1
  cases h : m.getOpenIDNamespace with
  | none => simp
  | some u =>
    simp only [OPENID1_NAMESPACES, List.contains_iff_mem, List.mem_cons, List.not_mem_nil, or_false, Option.some.injEq]
    simp only [OPENID1_NS, THE_OTHER_OPENID1_NS]

theorem sameIdentity_ok {W : World} {a b : Str} : sameIdentity W a b = .ok () ↔
    b = a ∨ ∃ n, Urinorm.urinorm W.uni b = .ok n ∧ Urinorm.urinorm W.uni a = .ok n := by
  unfold sameIdentity
  split
  · next h => subst h; simp
  · next h =>
    simp only [show ¬ b = a from fun e => h e.symm, false_or]
    constructor
    · intro hk
      obtain ⟨x, h1, hk⟩ := bind_eq_ok.1 hk
      obtain ⟨y, h2, hk⟩ := bind_eq_ok.1 hk
      split at hk
      · simp at hk
      · next hxy =>
        simp at hxy
        exact ⟨y, lift_ok.1 h2, by rw [lift_ok.1 h1, hxy]⟩
    · rintro ⟨n, h1, h2⟩
      simp [h1, h2, lift]

/-- identity and claimed identifier are as specified -/
theorem answerIdentity_ok {W : World} {r : CheckIDRequest} {identity claimedId i c : Option Str} :
    r.answerIdentity W identity claimedId = .ok (i, c) ↔ Asserts W.uni r identity claimedId i c := by
  unfold CheckIDRequest.answerIdentity Asserts
  have hs : IDENTIFIER_SELECT = t!"http://specs.openid.net/auth/2.0/identifier_select" := rfl
  rw [hs]
  split
  · rcases identity with _ | _ | ⟨ch, x⟩
    · simp [truthy, given]
    · simp [truthy, given]
    · simp only [truthy, given, if_true, Except.ok.injEq, Prod.mk.injEq, Option.some.injEq, exists_eq_left', orElse_eq]
      constructor <;> rintro ⟨rfl, rfl⟩ <;> exact ⟨rfl, rfl⟩
  · rcases hr : r.identity with _ | _ | ⟨ch, y⟩
    · rcases identity with _ | _ | ⟨ch', x⟩ <;> simp [truthy, given, eq_comm]
    · rcases identity with _ | _ | ⟨ch', x⟩ <;> simp [truthy, given, eq_comm]
    · simp only [truthy, given, if_true, Option.getD_some]
      rcases identity with _ | _ | ⟨ch', x⟩
      · simp [eq_comm]
      · simp [eq_comm]
      · simp only [if_true, Option.getD_some, Option.some.injEq, forall_eq']
        constructor
        · intro h
          obtain ⟨⟨⟩, h1, h2⟩ := bind_eq_ok.1 h
          simp only [pure_eq_ok, Except.ok.injEq, Prod.mk.injEq] at h2
          exact ⟨h2.1.symm, h2.2.symm, sameIdentity_ok.1 h1⟩
        · rintro ⟨rfl, rfl, h⟩
          rw [sameIdentity_ok.2 h]; rfl

/-- where the server is: as the application says, or as it was told at the start -/
def serverOf (r : CheckIDRequest) (serverUrl : Option Str) : Option Str := (given serverUrl).or r.opEndpoint

theorem serverUrl_ok {r : CheckIDRequest} {su x : Option Str} :
    r.serverUrl su = .ok x ↔ x = serverOf r su ∧ (MsgV1 r.message ∨ ∃ y, given (serverOf r su) = some y) := by
  unfold CheckIDRequest.serverUrl serverOf
  rcases su with _ | _ | ⟨c, u⟩
  all_goals simp only [truthy, given, Bool.false_eq_true, if_false, if_true, Option.none_or, Option.some_or]
  · by_cases h1 : r.message.isOpenID1 = true
    · simp [h1, (v1_iff _).1 h1, eq_comm]
    · have : ¬ MsgV1 r.message := fun h => h1 ((v1_iff _).2 h)
      rcases r.opEndpoint with _ | _ | ⟨c, u⟩ <;> simp [h1, this, truthy, given, eq_comm]
  · by_cases h1 : r.message.isOpenID1 = true
    · simp [h1, (v1_iff _).1 h1, eq_comm]
    · have : ¬ MsgV1 r.message := fun h => h1 ((v1_iff _).2 h)
      rcases r.opEndpoint with _ | _ | ⟨c, u⟩ <;> simp [h1, this, truthy, given, eq_comm]
  · simp [eq_comm]

theorem setTruthy_exactly {resp resp' : Response} {oid : Str} {l : List (Str × Option Str)}
    (h : Exactly resp.fields oid (argsOf l)) {k : Str} {v : Option Str} (hk : k ∉ l.map (·.1))
    (hs : resp.setTruthy k v = .ok resp') :
    resp'.request = resp.request ∧ Exactly resp'.fields oid (argsOf (l ++ [(k, given v)])) := by
  unfold Response.setTruthy at hs
  rcases v with _ | _ | ⟨c, u⟩
  · simp [truthy] at hs; subst hs
    exact ⟨rfl, h.skip hk⟩
  · simp [truthy] at hs; subst hs
    exact ⟨rfl, h.skip hk⟩
  · simp only [truthy, if_true, Option.getD_some] at hs
    obtain ⟨h1, h2⟩ := Response.set_ok hs
    exact ⟨h1, h.setNew hk h2⟩

theorem answer_exactly (W : World) (E : Env) (r : CheckIDRequest) (serverUrl identity claimedId : Option Str) (resp : Response)
    (h : r.answer W E true serverUrl identity claimedId = .ok resp) :
    resp.request = .checkId r ∧
    ∃ oid url i c, r.message.getOpenIDNamespace = some oid ∧ r.returnTo = some url ∧ url ≠ [] ∧
      Asserts W.uni r identity claimedId i c ∧
      Exactly resp.fields oid (argsOf [(t!"mode", some t!"id_res"), (t!"return_to", some url),
        (t!"response_nonce", some (Nonce.mkNonce (W.clock.seconds E.now).toNat E.salt)),
        (t!"op_endpoint", given (serverOf r serverUrl)), (t!"identity", i),
        (t!"claimed_id", if oid = t!"http://specs.openid.net/auth/2.0" then c else none)]) ∧
      (MsgV1 r.message → (∃ x, i = some x) ∧ given claimedId = none) ∧
      (¬ MsgV1 r.message → (∃ x, given (serverOf r serverUrl) = some x) ∧ ((∃ x, i = some x) → ∃ y, c = some y)) := by
  unfold CheckIDRequest.answer at h
  split at h
  · simp at h
  · simp at h
  · next ch u hu =>
    obtain ⟨server, h1, h⟩ := bind_eq_ok.1 h
    obtain ⟨resp0, h2, h⟩ := bind_eq_ok.1 h
    obtain ⟨hserver, hhave⟩ := serverUrl_ok.1 h1
    obtain ⟨hreq, hex, -⟩ := Response.new_ok h2
    split at h
    · simp at h
    · next hcl =>
      simp only [if_true] at h
      unfold CheckIDRequest.answerYes at h
      obtain ⟨⟨i, c⟩, h3, h⟩ := bind_eq_ok.1 h
      simp only at h
      have hA := answerIdentity_ok.1 h3
      split at h
      · simp at h
      · next hv1 =>
        obtain ⟨resp1, h4, h⟩ := bind_eq_ok.1 h
        obtain ⟨r1, u1⟩ := Response.update_ok h4
        cases ho : r.message.getOpenIDNamespace with
        | none =>
          have : resp0.fields = {} := (Response.new_ok h2).2.2 (by simpa [Request.message] using ho)
          rw [this] at u1
          simp [Msg.updateArgs, Msg.fixNS, Msg.getOpenIDNamespace, NamespaceMap.getNamespaceURI, Dict.get?] at u1
        | some oid =>
          have x0 := hex oid (by simpa [Request.message] using ho)
          obtain ⟨m1, e1, x1⟩ := Exactly.updateNew (l := []) x0 [(t!"mode", t!"id_res"), (t!"return_to", ch :: u),
            (t!"response_nonce", Nonce.mkNonce (E.seconds W).toNat E.salt)] (by simp [Dict.WF, Dict.keys]) (by simp)
          rw [e1] at u1; simp only [Except.ok.injEq] at u1; subst u1
          unfold CheckIDRequest.putIdentity at h
          obtain ⟨resp2, h5, h⟩ := bind_eq_ok.1 h
          obtain ⟨r2, x2⟩ := setTruthy_exactly x1 (by simp) h5
          have hv2 : r.message.isOpenID2 = decide (oid = t!"http://specs.openid.net/auth/2.0") := by
            rw [Msg.isOpenID2, ho]
            simp only [Option.some.injEq]; rfl
          have hreq2 : resp2.request = .checkId r := by rw [r2, r1, hreq]
          rw [hserver] at x2
          have hone : MsgV1 r.message → (∃ x, i = some x) ∧ given claimedId = none := by
            intro hv
            have hv' := (v1_iff _).2 hv
            simp only [hv', Bool.and_true, Bool.true_and, Bool.not_eq_true, Option.isNone_eq_false_iff] at hcl hv1
            refine ⟨Option.isSome_iff_exists.1 hv1, ?_⟩
            rcases claimedId with _ | _ | _ <;> simp_all [truthy, given]
          have htwo : ¬ MsgV1 r.message → ∃ x, given (serverOf r serverUrl) = some x := by
            intro hv
            rcases hhave with h | h
            · exact absurd h hv
            · exact h
          have hnot : ¬ MsgV1 r.message → oid = t!"http://specs.openid.net/auth/2.0" := by
            intro hv
            have := x0.inv.oid _ x0.ns
            simp only [List.mem_cons, List.not_mem_nil, or_false] at this
            rcases this with h | h | h
            · exact absurd (.inl (ho.trans (by rw [h]; rfl))) hv
            · exact absurd (.inr (ho.trans (by rw [h]; rfl))) hv
            · exact h
          simp only [List.map_cons, List.map_nil, List.cons_append, List.nil_append, Env.seconds] at x2
          cases i with
          | none =>
            simp only [pure_eq_ok, Except.ok.injEq] at h
            subst h
            have hc : c = none := by
              unfold Asserts at hA
              split at hA
              · simp at hA
              · split at hA
                · simp at hA
                · exact hA.2.2
            subst hc
            refine ⟨hreq2, oid, ch :: u, none, none, rfl, hu, by simp, hA, ?_, hone, fun hv => ⟨htwo hv, by simp⟩⟩
            simp only [ite_self]
            exact (x2.skip (k := t!"identity") (by simp)).skip (by simp)
          | some i =>
            obtain ⟨resp3, h6, h⟩ := bind_eq_ok.1 h
            obtain ⟨r3, u3⟩ := Response.set_ok h6
            have x3 := x2.setNew (by simp) u3
            split at h
            · next hb =>
              rw [hv2] at hb
              simp only [decide_eq_true_eq] at hb
              cases c with
              | none => simp at h
              | some c =>
                obtain ⟨r4, u4⟩ := Response.set_ok h
                have x4 := x3.setNew (by simp) u4
                refine ⟨by rw [r4, r3, hreq2], oid, ch :: u, some i, some c, rfl, hu, by simp, hA, ?_, hone,
                  fun hv => ⟨htwo hv, by simp⟩⟩
                rw [if_pos hb]
                exact x4
            · next hb =>
              rw [hv2] at hb
              simp only [decide_eq_true_eq] at hb
              simp only [pure_eq_ok, Except.ok.injEq] at h
              subst h
              refine ⟨by rw [r3, hreq2], oid, ch :: u, some i, c, rfl, hu, by simp, hA, ?_, hone,
                fun hv => absurd (hnot hv) hb⟩
              rw [if_neg hb]
              exact x3.skip (by simp)

/-- **C35** A positive answer: what it says, exactly.  The identity and the claimed identifier are as `Asserts` says;
    an OpenID 1 answer has no claimed identifier, and must have an identity; an OpenID 2 answer names the endpoint. -/
theorem c35_yes (W : World) (E : Env) (r : CheckIDRequest) (serverUrl identity claimedId : Option Str) (resp : Response)
    (h : r.answer W E true serverUrl identity claimedId = .ok resp) :
    resp.request = .checkId r ∧
    ∃ oid url i c, r.message.getOpenIDNamespace = some oid ∧ r.returnTo = some url ∧ url ≠ [] ∧
      Asserts W.uni r identity claimedId i c ∧
      Carries resp.fields oid (argsOf [(t!"mode", some t!"id_res"), (t!"return_to", some url),
        (t!"response_nonce", some (Nonce.mkNonce (W.clock.seconds E.now).toNat E.salt)),
        (t!"op_endpoint", given (serverOf r serverUrl)), (t!"identity", i),
        (t!"claimed_id", if oid = t!"http://specs.openid.net/auth/2.0" then c else none)]) ∧
      (MsgV1 r.message → (∃ x, i = some x) ∧ given claimedId = none) ∧
      (¬ MsgV1 r.message → (∃ x, given (serverOf r serverUrl) = some x) ∧ ((∃ x, i = some x) → ∃ y, c = some y)) := by
  obtain ⟨h1, oid, url, i, c, h2, h3, h4, h5, h6, h7⟩ := answer_exactly W E r serverUrl identity claimedId resp h
  exact ⟨h1, oid, url, i, c, h2, h3, h4, h5, carries_of h6, h7⟩

/-- **C35** A positive answer can be had, just under the conditions there are. -/
theorem c35_can (W : World) (E : Env) (op : Option Str) (q : Dict Str Str) (hq : Dict.WF q) (r : CheckIDRequest)
    (hd : decode W E op q = .ok (some (.checkId r))) (serverUrl identity claimedId : Option Str)
    (hu : ∃ url, given r.returnTo = some url)
    (hs : IsV1 q ∨ ∃ x, given (serverOf r serverUrl) = some x)
    (hc : IsV1 q → given claimedId = none)
    (i c : Option Str) (ha : Asserts W.uni r identity claimedId i c) (hi : IsV1 q → ∃ x, i = some x) :
    ∃ resp, r.answer W E true serverUrl identity claimedId = .ok resp := by
  obtain ⟨hQ, m, hm, hr⟩ := (c34_checkid W E op q hq r).1 hd
  have hP := parsed hq hm
  have hmsg : r.message = m := by rw [hr]
  have hv : MsgV1 r.message ↔ IsV1 q := by rw [← v1_iff, hmsg]; exact hP.v1
  obtain ⟨oid, ho⟩ := hP.ns
  obtain ⟨m0, h0⟩ := new_can (hP.inv.oid _ ho)
  obtain ⟨url, hu⟩ := hu
  have hu' : r.returnTo = some url ∧ url ≠ [] := by
    rcases h : r.returnTo with _ | _ | ⟨x, y⟩ <;> rw [h] at hu <;> simp [given] at hu
    subst hu; simp
  obtain ⟨hu1, hu2⟩ := hu'
  unfold CheckIDRequest.answer
  rw [hu1]
  cases url with
  | nil => exact absurd rfl hu2
  | cons ch u =>
    simp only
    rw [(serverUrl_ok (x := serverOf r serverUrl)).2 ⟨rfl, by rwa [hv]⟩]
    simp only [ok_bind, Response.new, Request.message, hmsg, ho, h0, lift, pure_eq_ok]
    rw [if_neg, if_pos trivial]
    · unfold CheckIDRequest.answerYes
      rw [answerIdentity_ok.2 ha]
      simp only [ok_bind]
      rw [if_neg]
      · obtain ⟨m1, e1, x1⟩ := (new_exactly h0).update [(t!"mode", t!"id_res"), (t!"return_to", ch :: u),
            (t!"response_nonce", Nonce.mkNonce (E.seconds W).toNat E.salt)]
        simp only [Response.update, e1, lift, ok_bind, pure_eq_ok]
        unfold CheckIDRequest.putIdentity
        have hset : ∀ (x : Response) d (k v : Str), Exactly x.fields oid d →
            ∃ y d', x.set k v = .ok y ∧ Exactly y.fields oid d' := by
          intro x d k v hx
          obtain ⟨m', e, h'⟩ := hx.can k v
          exact ⟨{ x with fields := m' }, _, by simp [Response.set, e, lift], h'⟩
        obtain ⟨r2, d2, e2, x2⟩ : ∃ y d', Response.setTruthy ⟨.checkId r, m1⟩ t!"op_endpoint" (serverOf r serverUrl) =
            .ok y ∧ Exactly y.fields oid d' := by
          unfold Response.setTruthy
          split
          · exact hset _ _ _ _ x1
          · exact ⟨_, _, rfl, x1⟩
        rw [e2]
        simp only [ok_bind]
        cases i with
        | none => exact ⟨_, rfl⟩
        | some i =>
          obtain ⟨r3, d3, e3, x3⟩ := hset _ _ t!"identity" i x2
          simp only [e3, ok_bind]
          split
          · next h2 =>
            cases c with
            | some c =>
              obtain ⟨r4, d4, e4, x4⟩ := hset _ _ t!"claimed_id" c x3
              exact ⟨r4, e4⟩
            | none =>
              exfalso
              have hn1 : ¬ IsV1 q := hP.v2.1 (by rw [← hmsg]; exact h2)
              unfold Asserts at ha
              split at ha
              · obtain ⟨x, -, -, h⟩ := ha
                cases hg : given claimedId <;> rw [hg] at h <;> simp at h
              · split at ha
                · next y hy =>
                  have hid : r.identity = some y := by
                    rcases h : r.identity with _ | _ | ⟨x, z⟩ <;> rw [h] at hy <;> simp [given] at hy
                    rw [hy]
                  have h1 : arg q t!"identity" = some y := by rw [hr] at hid; exact hid
                  obtain ⟨c, h2⟩ := (hQ.v2 hn1).1.1 ⟨y, h1⟩
                  have hn : arg q t!"claimed_id" = none := by
                    have := ha.2.1; rw [hr] at this; exact this.symm
                  rw [hn] at h2; cases h2
                · simp at ha
          · exact ⟨_, rfl⟩
      · simp only [Bool.and_eq_true, not_and, Option.isNone_iff_eq_none]
        intro h hn
        obtain ⟨x, hx⟩ := hi (hP.v1.1 (by rw [← hmsg]; exact h))
        rw [hn] at hx; cases hx
    · simp only [Bool.and_eq_true, not_and]
      intro ht h1
      have := hc (hP.v1.1 h1)
      rcases claimedId with _ | _ | _ <;> simp_all [truthy, given]

/-- The request to come back with when the user has to be asked: as it was, but not immediate. -/
structure SetupRequest (r : CheckIDRequest) (oid : Str) (m : Msg) : Prop where
  named : (∃ i, r.identity = some i) ∧ ∃ c, r.claimedId = some c
  carries : Carries m oid (argsOf [(t!"mode", some t!"checkid_setup"), (t!"identity", r.identity),
    (t!"claimed_id", r.claimedId), (t!"return_to", r.returnTo),
    (if oid = t!"http://specs.openid.net/auth/2.0" then t!"realm" else t!"trust_root",
      (given r.trustRoot).or r.returnTo),
    (t!"assoc_handle", given r.assocHandle)])

/-- **C35** A negative answer: what it says, exactly.  It has no identity; it says `cancel`, or if the request was
    immediate, that the user has to be asked, and where. -/
theorem c35_no (W : World) (E : Env) (r : CheckIDRequest) (serverUrl identity claimedId : Option Str) (resp : Response)
    (h : r.answer W E false serverUrl identity claimedId = .ok resp) :
    resp.request = .checkId r ∧ ∃ oid, r.message.getOpenIDNamespace = some oid ∧
      if r.immediate then
        ∃ m server, SetupRequest r oid m ∧ serverOf r serverUrl = some server ∧
          Carries resp.fields oid (argsOf [(t!"mode",
            some (if oid = t!"http://specs.openid.net/auth/2.0" then t!"setup_needed" else t!"id_res")),
            (t!"user_setup_url", some (m.toURL server))])
      else Carries resp.fields oid (argsOf [(t!"mode", some t!"cancel")]) := by
  unfold CheckIDRequest.answer at h
  split at h
  · simp at h
  · simp at h
  · next ch u hu =>
    obtain ⟨server, h1, h⟩ := bind_eq_ok.1 h
    obtain ⟨resp0, h2, h⟩ := bind_eq_ok.1 h
    obtain ⟨hserver, hhave⟩ := serverUrl_ok.1 h1
    obtain ⟨hreq, hex, -⟩ := Response.new_ok h2
    split at h
    · simp at h
    · simp only [Bool.false_eq_true, if_false] at h
      unfold CheckIDRequest.answerNo at h
      obtain ⟨resp1, h3, h⟩ := bind_eq_ok.1 h
      obtain ⟨r1, u1⟩ := Response.set_ok h3
      cases ho : r.message.getOpenIDNamespace with
      | none =>
        have : resp0.fields = {} := (Response.new_ok h2).2.2 (by simpa [Request.message] using ho)
        rw [this] at u1
        simp [Msg.setArg, Msg.fixNS, Msg.getOpenIDNamespace, NamespaceMap.getNamespaceURI, Dict.get?] at u1
      | some oid =>
        have x0 := hex oid (by simpa [Request.message] using ho)
        have x1 := Exactly.setNew (l := []) x0 (by simp) u1
        have hor := x0.inv.oid _ x0.ns
        have hv1 : r.message.isOpenID1 = true ↔ ¬ oid = t!"http://specs.openid.net/auth/2.0" := by
          rw [v1_iff, MsgV1, ho]
          simp only [List.mem_cons, List.not_mem_nil, or_false] at hor
          simp only [Option.some.injEq]
          rcases hor with rfl | rfl | rfl <;> decide
        simp only [Option.some.injEq, exists_eq_left']
        cases him : r.immediate with
        | false =>
          simp only [him, Bool.false_eq_true, if_false, pure_eq_ok, Except.ok.injEq] at h
          subst h
          refine ⟨by rw [r1, hreq], ?_⟩
          have hmode : r.answerMode false = t!"cancel" := by
            simp [CheckIDRequest.answerMode, him]
          rw [hmode] at x1
          simpa using carries_of x1
        | true =>
          simp only [him, if_true] at h ⊢
          split at h
          · simp at h
          · obtain ⟨setup, h4, h⟩ := bind_eq_ok.1 h
            obtain ⟨url, h5, h⟩ := bind_eq_ok.1 h
            obtain ⟨r2, u2⟩ := Response.set_ok h
            have x2 := x1.setNew (by simp) u2
            refine ⟨by rw [r2, r1, hreq], ?_⟩
            have hset : ∃ t, setup = ⟨t, r.identity, r.claimedId, r.returnTo, orElse r.trustRoot r.returnTo, r.assocHandle,
                r.opEndpoint, false⟩ := by
              rw [CheckIDRequest.new] at h4
              obtain ⟨t, k1, h4⟩ := bind_eq_ok.1 h4
              obtain ⟨⟨⟩, k2, h4⟩ := bind_eq_ok.1 h4
              simp only at h4
              split at h4
              · simp at h4
              · obtain ⟨⟨⟩, k3, h4⟩ := bind_eq_ok.1 h4
                obtain ⟨b, k4, h4⟩ := bind_eq_ok.1 h4
                split at h4
                · simp only [pure_eq_ok, Except.ok.injEq] at h4
                  exact ⟨t, h4.symm⟩
                · simp at h4
            obtain ⟨t, rfl⟩ := hset
            unfold CheckIDRequest.encodeToURL at h5
            simp only [hu] at h5
            obtain ⟨m0, k1, h5⟩ := bind_eq_ok.1 h5
            obtain ⟨_, -, h5⟩ := bind_eq_ok.1 h5
            rw [ho] at k1
            have y0 := new_exactly (lift_ok.1 k1)
            split at h5
            · next i c hi hc =>
              obtain ⟨m1, k2, h5⟩ := bind_eq_ok.1 h5
              obtain ⟨tr, htr, htr', htr''⟩ : ∃ tr, orElse r.trustRoot (some (ch :: u)) = some tr ∧
                  (given r.trustRoot).or (some (ch :: u)) = some tr ∧ truthy (some tr) = true := by
                rcases r.trustRoot with _ | _ | ⟨x, y⟩ <;> simp [orElse, truthy, given]
              have key : ∃ l, Exactly m1 oid (argsOf l) ∧ l = [(t!"mode", some t!"checkid_setup"), (t!"identity", some i),
                  (t!"claimed_id", some c), (t!"return_to", some (ch :: u)),
                  (if oid = t!"http://specs.openid.net/auth/2.0" then t!"realm" else t!"trust_root", some tr),
                  (t!"assoc_handle", given r.assocHandle)] := by
                have hname : (if r.message.isOpenID1 = true then t!"trust_root" else t!"realm") =
                    (if oid = t!"http://specs.openid.net/auth/2.0" then t!"realm" else t!"trust_root") := by
                  by_cases h : oid = t!"http://specs.openid.net/auth/2.0"
                  · rw [if_pos h, if_neg (fun e => hv1.1 e h)]
                  · rw [if_neg h, if_pos (hv1.2 h)]
                simp only [CheckIDRequest.optionalArgs, htr, htr'', if_true, Option.getD_some, hname,
                  CheckIDRequest.mode, Bool.false_eq_true, if_false] at k2
                rcases hah : r.assocHandle with _ | _ | ⟨x, y⟩
                · obtain ⟨m2, e2, y2⟩ := Exactly.updateNew (l := []) y0 [(t!"mode", t!"checkid_setup"), (t!"identity", i),
                    (t!"claimed_id", c), (t!"return_to", ch :: u),
                    (if oid = t!"http://specs.openid.net/auth/2.0" then t!"realm" else t!"trust_root", tr)]
                    (by split <;> simp [Dict.WF, Dict.keys]) (by simp)
                  simp only [hah, truthy, Bool.false_eq_true, if_false, List.append_nil, List.cons_append,
                    List.nil_append] at k2
                  rw [lift_ok.1 k2] at e2; simp only [Except.ok.injEq] at e2; subst e2
                  exact ⟨_, y2.skip (k := t!"assoc_handle") (by split <;> simp), rfl⟩
                · obtain ⟨m2, e2, y2⟩ := Exactly.updateNew (l := []) y0 [(t!"mode", t!"checkid_setup"), (t!"identity", i),
                    (t!"claimed_id", c), (t!"return_to", ch :: u),
                    (if oid = t!"http://specs.openid.net/auth/2.0" then t!"realm" else t!"trust_root", tr)]
                    (by split <;> simp [Dict.WF, Dict.keys]) (by simp)
                  simp only [hah, truthy, Bool.false_eq_true, if_false, List.append_nil, List.cons_append,
                    List.nil_append] at k2
                  rw [lift_ok.1 k2] at e2; simp only [Except.ok.injEq] at e2; subst e2
                  exact ⟨_, y2.skip (k := t!"assoc_handle") (by split <;> simp), rfl⟩
                · obtain ⟨m2, e2, y2⟩ := Exactly.updateNew (l := []) y0 [(t!"mode", t!"checkid_setup"), (t!"identity", i),
                    (t!"claimed_id", c), (t!"return_to", ch :: u),
                    (if oid = t!"http://specs.openid.net/auth/2.0" then t!"realm" else t!"trust_root", tr),
                    (t!"assoc_handle", x :: y)]
                    (by split <;> simp [Dict.WF, Dict.keys]) (by simp)
                  simp only [hah, truthy, if_true, Option.getD_some, List.cons_append, List.nil_append] at k2
                  rw [lift_ok.1 k2] at e2; simp only [Except.ok.injEq] at e2; subst e2
                  exact ⟨_, y2, rfl⟩
              obtain ⟨l, x3, rfl⟩ := key
              cases hsv : server with
              | none => rw [hsv] at h5; simp [toURL] at h5
              | some sv =>
                rw [hsv] at h5
                simp only [toURL, Except.ok.injEq] at h5
                subst h5
                refine ⟨m1, sv, ⟨⟨⟨i, hi⟩, c, hc⟩, ?_⟩, by rw [← hserver, hsv], ?_⟩
                · rw [hi, hc, hu, htr']
                  exact carries_of x3
                · have hmode : r.answerMode false =
                      if oid = t!"http://specs.openid.net/auth/2.0" then t!"setup_needed" else t!"id_res" := by
                    simp only [CheckIDRequest.answerMode, Bool.false_eq_true, if_false, him, if_true]
                    by_cases h : oid = t!"http://specs.openid.net/auth/2.0"
                    · rw [if_pos h, if_neg (fun e => hv1.1 e h)]
                    · rw [if_neg h, if_pos (hv1.2 h)]
                  rw [hmode] at x2
                  exact carries_of x2
            · simp at h5

/-- **C35** falls short here: to an immediate OpenID 1 request, which does not normally have a claimed identifier, the
    negative answer cannot be had: the code checks the request it makes for the user by the rules of OpenID 2. -/
theorem c35_v1_immediate_raises (W : World) (E : Env) (op : Option Str) (q : Dict Str Str) (hq : Dict.WF q)
    (r : CheckIDRequest) (hd : decode W E op q = .ok (some (.checkId r))) (hv : IsV1 q)
    (hm : arg q t!"mode" = some t!"checkid_immediate") (hc : arg q t!"claimed_id" = none)
    (serverUrl identity claimedId : Option Str) :
    ∀ resp, r.answer W E false serverUrl identity claimedId ≠ .ok resp := by
  intro resp h
  obtain ⟨hQ, m, -, hr⟩ := (c34_checkid W E op q hq r).1 hd
  obtain ⟨-, oid, -, h⟩ := c35_no W E r serverUrl identity claimedId resp h
  have him : r.immediate = true := by rw [hr]; simp [hm]
  rw [him, if_pos rfl] at h
  obtain ⟨_, _, hs, -⟩ := h
  obtain ⟨c, hc'⟩ := hs.named.2
  rw [hr] at hc'
  rw [show arg q t!"claimed_id" = some c from hc'] at hc
  cases hc

/-- **C35** ... and to an immediate OpenID 2 request that is not about an identity neither. -/
theorem c35_no_identity_immediate_raises (W : World) (E : Env) (op : Option Str) (q : Dict Str Str) (hq : Dict.WF q)
    (r : CheckIDRequest) (hd : decode W E op q = .ok (some (.checkId r)))
    (hm : arg q t!"mode" = some t!"checkid_immediate") (hc : arg q t!"identity" = none)
    (serverUrl identity claimedId : Option Str) :
    ∀ resp, r.answer W E false serverUrl identity claimedId ≠ .ok resp := by
  intro resp h
  obtain ⟨hQ, m, -, hr⟩ := (c34_checkid W E op q hq r).1 hd
  obtain ⟨-, oid, -, h⟩ := c35_no W E r serverUrl identity claimedId resp h
  have him : r.immediate = true := by rw [hr]; simp [hm]
  rw [him, if_pos rfl] at h
  obtain ⟨_, _, hs, -⟩ := h
  obtain ⟨i, hi⟩ := hs.named.1
  rw [hr] at hi
  rw [show arg q t!"identity" = some i from hi] at hc
  cases hc

/-- a query, and what the server says to it: the value of some fields of the answer -/
def answers0 (q : Dict Str Str) (allow : Bool) (identity : Option Str) (fields : List Str) : Option (List (Option Str)) :=
  match decode sworld0 senv0 (some t!"http://op/") q with
  | .ok (some (.checkId r)) =>
    match r.answer sworld0 senv0 allow none identity none with
    | .ok resp => some (fields.map fun f => (resp.fields.getArg .openid f).toOption.join)
    | .error _ => none
  | _ => none

def query0 (mode : Str) (more : Dict Str Str) : Dict Str Str :=
  [(t!"openid.ns", OPENID2_NS), (t!"openid.mode", mode), (t!"openid.return_to", t!"http://rp/x"),
   (t!"openid.realm", t!"http://rp/")] ++ more

def about0 (who : Str) : Dict Str Str := [(t!"openid.identity", who), (t!"openid.claimed_id", who)]

-- positive: the one asked for; chosen; another one; none
example : answers0 (query0 t!"checkid_setup" (about0 t!"http://u/")) true none [t!"mode", t!"identity", t!"op_endpoint"] =
      some [some t!"id_res", some t!"http://u/", some t!"http://op/"] ∧
    answers0 (query0 t!"checkid_setup" (about0 IDENTIFIER_SELECT)) true (some t!"http://u/") [t!"identity", t!"claimed_id"] =
      some [some t!"http://u/", some t!"http://u/"] ∧
    answers0 (query0 t!"checkid_setup" (about0 t!"http://u/")) true (some t!"http://v/") [t!"identity"] = none ∧
    answers0 (query0 t!"checkid_setup" []) true none [t!"identity", t!"return_to"] = some [none, some t!"http://rp/x"] := by
  decide +kernel

-- negative: cancel; setup needed
example : answers0 (query0 t!"checkid_setup" (about0 t!"http://u/")) false none [t!"mode", t!"identity"] =
      some [some t!"cancel", none] ∧
    answers0 (query0 t!"checkid_immediate" (about0 t!"http://u/")) false none [t!"mode", t!"identity"] =
      some [some t!"setup_needed", none] := by
  decide +kernel

-- the two that raise: the requests are fine, and a positive answer to them can be had
example : answers0 (query0 t!"checkid_immediate" []) false none [] = none ∧
    answers0 (query0 t!"checkid_immediate" []) true none [] = some [] ∧
    answers0 [(t!"openid.mode", t!"checkid_immediate"), (t!"openid.return_to", t!"http://rp/"),
      (t!"openid.identity", t!"http://u/")] false none [] = none ∧
    answers0 [(t!"openid.mode", t!"checkid_immediate"), (t!"openid.return_to", t!"http://rp/"),
      (t!"openid.identity", t!"http://u/")] true none [] = some [] := by
  decide +kernel

end Props
