import Verif.Spec.AuthRequest
import Verif.Lemmas.Holds
import Verif.Lemmas.ServerAnswer
import Verif.Lemmas.ConsumerAccept
import Verif.Props.Consumer
import Verif.Props.Oidutil
/-! # C63: what an authentication request asks for -/

namespace Props
open Py Message Association Store Discover Consumer Spec Oidutil
open Server (Exactly carries_of)
open Honest (Holds Bearer bearer_of holds_of)

theorem version_cases (e : Endpoint) :
    versionOf e = t!"http://specs.openid.net/auth/2.0" ∨ versionOf e = t!"http://openid.net/signon/1.0" := by
  unfold versionOf; split <;> simp

/-- a request as `begin` makes it -/
theorem begun_eq {W : World} {C : Conf} {E : Consumer.Env} {s s' : UserSession} {e : Endpoint} {anonymous : Bool}
    {evs : List Ev} {r : AuthRequest}
    (h : Runs (beginWithoutDiscovery W C E s e anonymous) evs (.ok (s', .ok r))) :
    s' = { s with token := some e } ∧ (anonymous = true → versionOf e ≠ t!"http://openid.net/signon/1.0") ∧
    ∃ a m, Msg.new (some (versionOf e)) = .ok m ∧ r = ⟨e, a,
      (t!"janrain_nonce", some (Nonce.mkNonce (E.now / W.clock.tick) E.salt)) ::
        if versionOf e = t!"http://openid.net/signon/1.0" then [(t!"openid1_claimed_id", e.claimedId)] else [], m, anonymous⟩ := by
  have hver : e.preferredNamespace = versionOf e := by
    simp [Endpoint.preferredNamespace, versionOf, OPENID_IDP_2_0_TYPE, OPENID_2_0_TYPE, OPENID2_NS, OPENID1_NS]
  rw [beginWithoutDiscovery, runs_handle] at h
  obtain ⟨e1, e2, o, rfl, h1, h2⟩ := h
  cases o with
  | error x => simp at h2
  | ok r0 =>
    simp at h2
    obtain ⟨-, rfl, h2⟩ := h2
    rw [genericBegin, runs_bind_ok] at h1
    obtain ⟨e1, e', a, rfl, -, h1⟩ := h1
    obtain ⟨r1, h3, -, h4⟩ := (runs_py_bind_ok _ _ _ _).1 h1
    simp only [Except.ok.injEq] at h4
    rw [AuthRequest.new] at h3
    obtain ⟨m, h5, h6⟩ := bind_eq_ok.1 h3
    simp only [pure_eq_ok, Except.ok.injEq] at h6
    rw [hver] at h5
    have hx := Server.new_exactly h5
    have hv1 : m.isOpenID1 = decide (versionOf e = t!"http://openid.net/signon/1.0") := by
      rw [Msg.isOpenID1, hx.ns]
      rcases version_cases e with h | h <;> rw [h] <;> rfl
    have hr0 : r0 = ⟨e, a, (t!"janrain_nonce", some (Nonce.mkNonce (E.now / W.clock.tick) E.salt)) ::
        if versionOf e = t!"http://openid.net/signon/1.0" then [(t!"openid1_claimed_id", e.claimedId)] else [], m, false⟩ := by
      rw [← h4, ← h6, AuthRequest.addReturnToArgs]
      simp only [hv1, decide_eq_true_eq]
      split <;> rfl
    rw [anonymousOr, AuthRequest.setAnonymous, hr0] at h2
    simp only [hv1] at h2
    cases anonymous with
    | false =>
      simp at h2
      exact ⟨by rw [hr0], by simp, a, m, h5, h2.symm⟩
    | true =>
      by_cases hv : versionOf e = t!"http://openid.net/signon/1.0"
      · simp [hv] at h2
        split at h2 <;> cases h2
      · simp [hv] at h2
        refine ⟨by rw [hr0], fun _ => hv, a, m, h5, ?_⟩
        rw [if_neg hv]
        exact h2.symm

theorem setOpt_iff {m m' : Msg} {ns : Ns} {k : Str} {v : Option Str} :
    setOpt m ns k v = .ok m' ↔ ∃ x, v = some x ∧ m.setArg ns k x = .ok m' := by
  cases v <;> simp [setOpt]

theorem own_text (e : Endpoint) (nonce : Str) :
    textArgs ((t!"janrain_nonce", some nonce) ::
        if versionOf e = t!"http://openid.net/signon/1.0" then [(t!"openid1_claimed_id", e.claimedId)] else []) =
      if versionOf e = t!"http://openid.net/signon/1.0" ∧ e.claimedId = none then .error .assertionError
      else .ok (ownArgs e nonce) := by
  unfold textArgs ownArgs
  by_cases hv : versionOf e = t!"http://openid.net/signon/1.0"
  · rw [if_pos hv, if_pos hv]
    cases e.claimedId with
    | none => rw [if_pos ⟨hv, rfl⟩]; rfl
    | some c => rw [if_neg (by simp)]; rfl
  · rw [if_neg hv, if_neg hv, if_neg (by simp [hv])]; rfl

theorem own_sorted (e : Endpoint) (nonce : Str) : sortBy KVForm.pairLe (ownArgs e nonce) = ownArgs e nonce := by
  unfold ownArgs
  split
  · simp only [sortBy, insertBy]
    rw [if_pos]
    rw [KVForm.pairLe, if_neg (show ¬ t!"janrain_nonce" = t!"openid1_claimed_id" by decide)]
    show strLe t!"janrain_nonce" t!"openid1_claimed_id" = true
    decide
  · rfl

theorem putNew {reg : Dict Str Str} {x m : Msg} {oid : Str} (hB : Bearer reg x oid) {l : List (Str × Option Str)}
    (h : Holds x m oid (argsOf l)) (k v : Str) (hk : k ∉ l.map (·.1)) :
    ∃ m', m.setArg .openid k v = .ok m' ∧ Holds x m' oid (argsOf (l ++ [(k, some v)])) := by
  obtain ⟨m', e, -⟩ := h.can hB k v
  exact ⟨m', e, h.setNew hB hk e⟩

/-- the arguments so far -/
theorem basics_ok {reg : Dict Str Str} {x : Msg} {e : Endpoint} (hB : Bearer reg x (versionOf e)) {a : Option Assoc} {m0 : Msg}
    {nonce : Str} {anonymous : Bool} (hx0 : Holds x m0 (versionOf e) (argsOf [])) {realm returnTo : Str} (hr : returnTo ≠ []) (immediate : Bool)
    (hs : versionOf e = t!"http://openid.net/signon/1.0" → e.claimedId ≠ none) :
    ∃ m, Holds x m (versionOf e) (argsOf ((authArgs e anonymous immediate realm
      (appendArgsSeq returnTo (ownArgs e nonce)) (a.map (·.handle))).take 3)) ∧
      AuthRequest.returnToValue ⟨e, a, (t!"janrain_nonce", some nonce) ::
        if versionOf e = t!"http://openid.net/signon/1.0" then [(t!"openid1_claimed_id", e.claimedId)] else [], m0, anonymous⟩
        (some returnTo) immediate = .ok (some (appendArgsSeq returnTo (ownArgs e nonce))) ∧
      putBasics m0 realm (if immediate then t!"checkid_immediate" else t!"checkid_setup")
        (some (appendArgsSeq returnTo (ownArgs e nonce))) = .ok m := by
  have hv1 : m0.isOpenID1 = decide (versionOf e = t!"http://openid.net/signon/1.0") := by
    rw [Msg.isOpenID1, hx0.ns hB]
    rcases version_cases e with h | h <;> rw [h] <;> rfl
  obtain ⟨m1, e1, x1⟩ := putNew hB hx0
    (if versionOf e = t!"http://openid.net/signon/1.0" then t!"trust_root" else t!"realm") realm (by simp)
  obtain ⟨m2, e2, x2⟩ := putNew hB x1 t!"mode" (if immediate then t!"checkid_immediate" else t!"checkid_setup")
    (by split <;> simp)
  obtain ⟨m3, e3, x3⟩ := putNew hB x2 t!"return_to" (appendArgsSeq returnTo (ownArgs e nonce))
    (by split <;> cases immediate <;> simp)
  refine ⟨m3, x3, ?_, ?_⟩
  · rw [AuthRequest.returnToValue, if_pos (by cases returnTo <;> simp_all [Server.truthy])]
    rw [own_text, if_neg (by intro h; exact hs h.1 h.2), ok_bind]
    rw [appendArgs, Option.getD_some, own_sorted]; rfl
  · rw [putBasics]
    simp only [hv1, decide_eq_true_eq]
    rw [e1, ok_bind, e2, ok_bind]
    exact e3

theorem identifiers_ok {reg : Dict Str Str} {x : Msg} {e : Endpoint} (hB : Bearer reg x (versionOf e)) {r : AuthRequest}
    {m : Msg} {l : List (Str × Option Str)} (hre : r.endpoint = e) (hx : Holds x m (versionOf e) (argsOf l)) (h1 : t!"identity" ∉ l.map (·.1)) (h2 : t!"claimed_id" ∉ l.map (·.1)) :
    if r.anonymous = true ∨ (askedAbout e).1 ≠ none ∧
      (versionOf e = t!"http://specs.openid.net/auth/2.0" → (askedAbout e).2 ≠ none) then
    ∃ m', r.putIdentifiers m = .ok m' ∧
      Holds x m' (versionOf e) (argsOf (l ++ [(t!"identity", if r.anonymous then none else (askedAbout e).1),
        (t!"claimed_id", if r.anonymous ∨ versionOf e = t!"http://openid.net/signon/1.0" then none else (askedAbout e).2)]))
    else r.putIdentifiers m = .error .assertionError := by
  have hsnoc : ∀ (l : List (Str × Option Str)) a b, l ++ [a, b] = (l ++ [a]) ++ [b] := by intros; simp
  rw [AuthRequest.putIdentifiers, hre]
  cases ha : r.anonymous with
  | true =>
    simp only [true_or, if_true]
    refine ⟨m, rfl, ?_⟩
    rw [hsnoc]
    exact (hx.skip h1).skip (by simp only [List.map_append, List.mem_append, not_or]; exact ⟨h2, by decide⟩)
  | false =>
    have hid : (if e.isOPIdentifier = true then some IDENTIFIER_SELECT else e.getLocalID) = (askedAbout e).1 := by
      rw [localIdOf_eq]; simp only [Endpoint.isOPIdentifier, askedAbout, List.contains_iff_mem, OPENID_IDP_2_0_TYPE, IDENTIFIER_SELECT]
      split <;> rfl
    have hcl : (if e.isOPIdentifier = true then some IDENTIFIER_SELECT else e.claimedId) = (askedAbout e).2 := by
      simp only [Endpoint.isOPIdentifier, askedAbout, List.contains_iff_mem, OPENID_IDP_2_0_TYPE, IDENTIFIER_SELECT]
      split <;> rfl
    simp only [hid, hcl, Bool.false_eq_true, false_or, if_false]
    cases hi : (askedAbout e).1 with
    | none => simp [setOpt]
    | some i =>
      obtain ⟨m1, e1, x1⟩ := putNew hB hx t!"identity" i h1
      simp only [setOpt, e1, ok_bind]
      rcases version_cases e with hv | hv
      · have hv2 : m1.isOpenID2 = true := by rw [Msg.isOpenID2, x1.ns hB, hv]; rfl
        simp only [hv2, if_true]
        cases hc : (askedAbout e).2 with
        | none => simp [hv]
        | some c =>
          obtain ⟨m2, e2, x2⟩ := putNew hB x1 t!"claimed_id" c (by simp only [List.map_append, List.mem_append, not_or]; exact ⟨h2, by simp⟩)
          rw [if_pos (by simp)]
          refine ⟨m2, ?_, ?_⟩
          · show m1.setArg (.uri OPENID2_NS) _ c = _
            rw [show OPENID2_NS = versionOf e from hv.symm, Server.setArg_uri x1.inv (x1.ns hB), e2]
          · rw [hsnoc, if_neg (by rw [hv]; decide)]; exact x2
      · have hv2 : m1.isOpenID2 = false := by rw [Msg.isOpenID2, x1.ns hB, hv]; rfl
        rw [if_pos (by rw [hv]; exact ⟨by simp, fun h => absurd h (by decide)⟩)]
        simp only [hv2, Bool.false_eq_true, if_false]
        refine ⟨m1, rfl, ?_⟩
        rw [hsnoc, if_pos hv]
        exact x1.skip (by simp only [List.map_append, List.mem_append, not_or]; exact ⟨h2, by simp⟩)

theorem handle_ok {reg : Dict Str Str} {x : Msg} {e : Endpoint} (hB : Bearer reg x (versionOf e)) {r : AuthRequest} {m : Msg} {l : List (Str × Option Str)}
    (hx : Holds x m (versionOf e) (argsOf l)) (h1 : t!"assoc_handle" ∉ l.map (·.1)) :
    ∃ m', r.putHandle m = .ok m' ∧
      Holds x m' (versionOf e) (argsOf (l ++ [(t!"assoc_handle", r.assoc.map (·.handle))])) := by
  rw [AuthRequest.putHandle]
  cases r.assoc with
  | none => exact ⟨m, rfl, hx.skip h1⟩
  | some a => exact putNew hB hx _ _ h1

/-- **C63** `begin` remembers the endpoint. -/
theorem c63_session {W : World} {C : Conf} {E : Consumer.Env} {s s' : UserSession} {e : Endpoint} {anonymous : Bool}
    {evs : List Ev} {r : AuthRequest}
    (h : Runs (beginWithoutDiscovery W C E s e anonymous) evs (.ok (s', .ok r))) :
    s'.token = some e ∧ s'.manager = s.manager := by
  obtain ⟨rfl, -⟩ := begun_eq h
  exact ⟨rfl, rfl⟩

/-- the message of a request that others may have added extensions to -/
theorem message_holds {reg : Dict Str Str} {e : Endpoint} {a : Option Assoc} {x : Msg} {nonce : Str} {anonymous : Bool}
    (hB : Bearer reg x (versionOf e)) (hx0 : Holds x x (versionOf e) (argsOf []))
    {r : AuthRequest} (hr' : r = ⟨e, a, (t!"janrain_nonce", some nonce) ::
        if versionOf e = t!"http://openid.net/signon/1.0" then [(t!"openid1_claimed_id", e.claimedId)] else [], x, anonymous⟩)
    {realm returnTo : Str} (hr : returnTo ≠ []) (immediate : Bool) :
    if (versionOf e = t!"http://openid.net/signon/1.0" → e.claimedId ≠ none) ∧
      (anonymous = false → (askedAbout e).1 ≠ none ∧
        (versionOf e = t!"http://specs.openid.net/auth/2.0" → (askedAbout e).2 ≠ none)) then
      ∃ m, r.getMessage realm (some returnTo) immediate = .ok m ∧
        Holds x m (versionOf e) (argsOf (authArgs e anonymous immediate realm
          (appendArgsSeq returnTo (ownArgs e nonce)) (r.assoc.map (·.handle))))
    else r.getMessage realm (some returnTo) immediate = .error .assertionError := by
  rw [AuthRequest.getMessage]
  by_cases hc : versionOf e = t!"http://openid.net/signon/1.0" → e.claimedId ≠ none
  · obtain ⟨m3, x3, e2, e3⟩ := basics_ok hB (a := a) (nonce := nonce)
      (anonymous := anonymous) hx0 hr (realm := realm) immediate hc
    have hre : r.endpoint = e := by rw [hr']
    have han : r.anonymous = anonymous := by rw [hr']
    have hmsg : r.message = x := by rw [hr']
    have key := identifiers_ok hB (r := r) hre x3 (by simp only [authArgs]; split <;> simp)
      (by simp only [authArgs]; split <;> simp)
    rw [← hr'] at e2
    rw [e2, ok_bind, hmsg, e3, ok_bind]
    rw [han] at key
    by_cases hi : anonymous = true ∨ (askedAbout e).1 ≠ none ∧
      (versionOf e = t!"http://specs.openid.net/auth/2.0" → (askedAbout e).2 ≠ none)
    · rw [if_pos hi] at key
      obtain ⟨m4, e4, x4⟩ := key
      rw [if_pos ⟨hc, fun h => hi.resolve_left (by rw [h]; decide)⟩, e4, ok_bind]
      obtain ⟨m5, e5, x5⟩ := handle_ok hB (r := r) x4 (by simp only [authArgs]; split <;> simp)
      have : r.assoc = a := by rw [hr']
      rw [this] at x5 ⊢
      exact ⟨m5, e5, x5⟩
    · rw [if_neg hi] at key
      rw [if_neg (fun hh => hi (by cases anonymous; exact .inr (hh.2 rfl); exact .inl rfl)), key]; rfl
  · rw [if_neg (fun h => hc h.1), hr', AuthRequest.returnToValue, if_pos (by cases returnTo <;> simp_all [Server.truthy])]
    rw [own_text, if_pos (by
      simp only [Classical.not_imp, ne_eq, Classical.not_not] at hc; exact hc)]
    rfl

theorem message_exactly {W : World} {C : Conf} {E : Consumer.Env} {s s' : UserSession} {e : Endpoint} {anonymous : Bool}
    {evs : List Ev} {r : AuthRequest}
    (h : Runs (beginWithoutDiscovery W C E s e anonymous) evs (.ok (s', .ok r)))
    {realm returnTo : Str} (hr : returnTo ≠ []) (immediate : Bool) :
    if (versionOf e = t!"http://openid.net/signon/1.0" → e.claimedId ≠ none) ∧
      (anonymous = false → (askedAbout e).1 ≠ none ∧
        (versionOf e = t!"http://specs.openid.net/auth/2.0" → (askedAbout e).2 ≠ none)) then
      ∃ m, r.getMessage realm (some returnTo) immediate = .ok m ∧
        Exactly m (versionOf e) (argsOf (authArgs e anonymous immediate realm
          (appendArgsSeq returnTo (ownArgs e (Nonce.mkNonce (E.now / W.clock.tick) E.salt))) (r.assoc.map (·.handle))))
    else r.getMessage realm (some returnTo) immediate = .error .assertionError := by
  obtain ⟨-, -, a, m0, hm0, hr'⟩ := begun_eq h
  have hx0 : Exactly m0 (versionOf e) (argsOf []) := (Server.new_exactly hm0).congr fun _ => rfl
  have := message_holds (reg := []) (bearer_of hx0 (version_cases e).symm) (holds_of hx0) hr' (realm := realm) hr immediate
  split
  · next hc =>
    rw [if_pos hc] at this
    obtain ⟨m, h1, h2⟩ := this
    exact ⟨m, h1, h2.exactly hx0⟩
  · next hc => rw [if_neg hc] at this; exact this

/-- **C63** A request is to be sent as a redirect, rather than as a form, exactly if it is an OpenID 1 request. -/
theorem c63_redirects {W : World} {C : Conf} {E : Consumer.Env} {s s' : UserSession} {e : Endpoint} {anonymous : Bool}
    {evs : List Ev} {r : AuthRequest} (h : Runs (beginWithoutDiscovery W C E s e anonymous) evs (.ok (s', .ok r))) :
    r.shouldSendRedirect = true ↔ versionOf e = t!"http://openid.net/signon/1.0" := by
  obtain ⟨-, -, a, m, -, hr⟩ := begun_eq h
  have hver : e.preferredNamespace = versionOf e := by
    simp [Endpoint.preferredNamespace, versionOf, OPENID_IDP_2_0_TYPE, OPENID_2_0_TYPE, OPENID2_NS, OPENID1_NS]
  rw [hr, AuthRequest.shouldSendRedirect]
  simp only [Endpoint.compatibilityMode, hver]
  rcases version_cases e with h | h <;> rw [h] <;> decide

/-- **C63** What the message of a request says: exactly these arguments, and no others (`Carries` also says what is sent);
    unless an identifier is missing. -/
theorem c63_message {W : World} {C : Conf} {E : Consumer.Env} {s s' : UserSession} {e : Endpoint} {anonymous : Bool}
    {evs : List Ev} {r : AuthRequest}
    (h : Runs (beginWithoutDiscovery W C E s e anonymous) evs (.ok (s', .ok r)))
    {realm returnTo : Str} (hr : returnTo ≠ []) (immediate : Bool) :
    if (versionOf e = t!"http://openid.net/signon/1.0" → e.claimedId ≠ none) ∧
      (anonymous = false → (askedAbout e).1 ≠ none ∧
        (versionOf e = t!"http://specs.openid.net/auth/2.0" → (askedAbout e).2 ≠ none)) then
      ∃ m, r.getMessage realm (some returnTo) immediate = .ok m ∧
        Carries m (versionOf e) (argsOf (authArgs e anonymous immediate realm
          (appendArgsSeq returnTo (ownArgs e (Nonce.mkNonce (E.now / W.clock.tick) E.salt))) (r.assoc.map (·.handle))))
    else r.getMessage realm (some returnTo) immediate = .error .assertionError := by
  have := message_exactly h (realm := realm) hr immediate
  split
  · next hc =>
    rw [if_pos hc] at this
    obtain ⟨m, h1, h2⟩ := this
    exact ⟨m, h1, carries_of h2⟩
  · next hc => rw [if_neg hc] at this; exact this

/-- **C63** An anonymous request is of OpenID 2. -/
theorem c63_anonymous {W : World} {C : Conf} {E : Consumer.Env} {s s' : UserSession} {e : Endpoint}
    {evs : List Ev} {r : AuthRequest} (h : Runs (beginWithoutDiscovery W C E s e true) evs (.ok (s', .ok r))) :
    versionOf e = t!"http://specs.openid.net/auth/2.0" :=
  (version_cases e).resolve_right ((begun_eq h).2.1 rfl)

/-- **C63** A request from `begin` always needs a URL to return to, because the nonce goes into it: the documented case of
    OpenID 2 without one is refused too. -/
theorem c63_return_to_needed {W : World} {C : Conf} {E : Consumer.Env} {s s' : UserSession} {e : Endpoint}
    {anonymous : Bool} {evs : List Ev} {r : AuthRequest}
    (h : Runs (beginWithoutDiscovery W C E s e anonymous) evs (.ok (s', .ok r))) (realm : Str) (returnTo : Option Str)
    (hr : given returnTo = none) (immediate : Bool) : r.getMessage realm returnTo immediate = .error .valueError := by
  obtain ⟨-, -, a, m0, hm0, hr'⟩ := begun_eq h
  rw [AuthRequest.getMessage, AuthRequest.returnToValue,
    if_neg (by rcases returnTo with _ | _ | _ <;> simp_all [Server.truthy, given]), hr']
  cases immediate with
  | true => rfl
  | false => simp

/-- **C63** The URL to send the browser to: that of the server, with the arguments of the message after those it has. -/
theorem c63_url {W : World} {C : Conf} {E : Consumer.Env} {s s' : UserSession} {e : Endpoint} {anonymous : Bool}
    {evs : List Ev} {r : AuthRequest}
    (h : Runs (beginWithoutDiscovery W C E s e anonymous) evs (.ok (s', .ok r))) {realm : Str} {returnTo : Option Str}
    {immediate : Bool} {url : Str} (hu : r.redirectURL realm returnTo immediate = .ok url) (hf : '#' ∉ e.serverUrl) :
    ∃ m more, r.getMessage realm returnTo immediate = .ok m ∧ (∃ rest, url = e.serverUrl ++ rest) ∧
      Percent.parseQsl true (queryOf url) = Percent.parseQsl true (queryOf e.serverUrl) ++ more ∧
      more.Perm m.toPostArgs := by
  obtain ⟨-, -, a, m0, hm0, hr'⟩ := begun_eq h
  rw [AuthRequest.redirectURL] at hu
  obtain ⟨m, h1, h2⟩ := bind_eq_ok.1 hu
  simp only [pure_eq_ok, Except.ok.injEq] at h2
  have hre : r.endpoint = e := by rw [hr']
  rw [hre] at h2
  obtain ⟨h3, h4⟩ := c06_appendArgs_dict e.serverUrl m.toPostArgs hf
  refine ⟨m, _, h1, ?_, ?_, h4⟩
  · rw [← h2]; exact c06_appendArgs_prefix _ _
  · rw [← h2, ← h3]; rfl

/-- the URL of a request -/
def asking0 (C : Conf) (e : Endpoint) (anonymous : Bool) (evs : List Ev) (returnTo : Option Str) : Option (Except PyErr Str) :=
  match play (beginWithoutDiscovery cworld0 C cenv0 ⟨none, none⟩ e anonymous) evs with
  | some (.ok (_, .ok r)) => some (r.redirectURL t!"http://rp.example/" returnTo false)
  | _ => none

-- with an association from the store; to a provider that is to choose the identifier; anonymously; and in OpenID 1
example :
    asking0 cconf0 endpoint0 false
      [.store (.getAssociation t!"http://op.example/" none) (.ok (.assoc (some cassoc0)))] (some t!"http://rp.example/back?x=1") =
      some (.ok t!"http://op.example/?openid.assoc_handle=h&openid.claimed_id=http%3A%2F%2Fu.example%2F&openid.identity=http%3A%2F%2Fop.example%2Fu&openid.mode=checkid_setup&openid.ns=http%3A%2F%2Fspecs.openid.net%2Fauth%2F2.0&openid.realm=http%3A%2F%2Frp.example%2F&openid.return_to=http%3A%2F%2Frp.example%2Fback%3Fx%3D1%26janrain_nonce%3D1970-01-01T00%253A00%253A05Zabcdef") ∧
    asking0 ⟨false, []⟩ (Endpoint.fromOPEndpointURL t!"http://op.example/?a=b") false [] (some t!"http://rp.example/") =
      some (.ok t!"http://op.example/?a=b&openid.claimed_id=http%3A%2F%2Fspecs.openid.net%2Fauth%2F2.0%2Fidentifier_select&openid.identity=http%3A%2F%2Fspecs.openid.net%2Fauth%2F2.0%2Fidentifier_select&openid.mode=checkid_setup&openid.ns=http%3A%2F%2Fspecs.openid.net%2Fauth%2F2.0&openid.realm=http%3A%2F%2Frp.example%2F&openid.return_to=http%3A%2F%2Frp.example%2F%3Fjanrain_nonce%3D1970-01-01T00%253A00%253A05Zabcdef") ∧
    asking0 ⟨false, []⟩ endpoint0 true [] (some t!"http://rp.example/") =
      some (.ok t!"http://op.example/?openid.mode=checkid_setup&openid.ns=http%3A%2F%2Fspecs.openid.net%2Fauth%2F2.0&openid.realm=http%3A%2F%2Frp.example%2F&openid.return_to=http%3A%2F%2Frp.example%2F%3Fjanrain_nonce%3D1970-01-01T00%253A00%253A05Zabcdef") ∧
    asking0 ⟨false, []⟩ { endpoint0 with typeUris := [OPENID_1_1_TYPE] } false [] (some t!"http://rp.example/") =
      some (.ok t!"http://op.example/?openid.identity=http%3A%2F%2Fop.example%2Fu&openid.mode=checkid_setup&openid.return_to=http%3A%2F%2Frp.example%2F%3Fjanrain_nonce%3D1970-01-01T00%253A00%253A05Zabcdef%26openid1_claimed_id%3Dhttp%253A%252F%252Fu.example%252F&openid.trust_root=http%3A%2F%2Frp.example%2F") ∧
    asking0 ⟨false, []⟩ endpoint0 false [] none = some (.error .valueError) := by
  decide +kernel

end Props
