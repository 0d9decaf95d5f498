import Verif.Lemmas.Refusal
/-! # C75: a refusal arrives as what it is -/

namespace Props
open Py Message Association Store Discover Consumer Spec Oidutil Honest Extend

/-- where the provider is told to send the user back to -/
def backTo (W : World) (E0 : Consumer.Env) (e : Endpoint) (returnTo : Str) : Str :=
  appendArgsSeq returnTo (ownArgs e (Nonce.mkNonce (E0.now / W.clock.tick) E0.salt))

/-- the request is decoded, as `request_read` has it, for both kinds of endpoint -/
theorem request_any {W : Consumer.World} {V : Server.World} (huni : V.uni = W.uni) {C : Conf} {E0 : Consumer.Env}
    {Es : Server.Env} {s0 s1 : UserSession} {e : Endpoint} {anonymous : Bool} {evs0 : List Ev} {req : AuthRequest}
    (hbegin : Runs (beginWithoutDiscovery W C E0 s0 e anonymous) evs0 (.ok (s1, .ok req))) (he : Askable e ∨ Choosing e)
    {realm returnTo current : Str} (hr : Returnable W.uni realm returnTo current) (immediate : Bool)
    {X : List Extension} (hX : Attachable (versionOf e) V.reg X) :
    ((askedAbout e).1 ≠ none ∧ (askedAbout e).2 ≠ none) ∧
    (versionOf e = t!"http://openid.net/signon/1.0" → ∃ c, e.claimedId = some c ∧ c ≠ []) ∧ Line e.serverUrl ∧
    e.serverUrl ≠ [] ∧ '#' ∉ e.serverUrl ∧
    (∀ p ∈ Percent.parseQsl true (queryOf e.serverUrl), startsWith p.1 t!"openid." = false) ∧
    ∃ req' url, extendRequest req X = .ok req' ∧ req'.redirectURL realm (some returnTo) immediate = .ok url ∧
    backTo W E0 e returnTo ≠ [] ∧
    ∀ q, Dict.WF q → (∀ k, q.get? k = (parameters url).get? k) →
    ∃ mq, mq.getOpenIDNamespace = some (versionOf e) ∧ Gives (versionOf e) X (fun u d => mq.getArgs (.uri u) = .ok d) ∧
      Server.decode V Es (some e.serverUrl) q = .ok (some (.checkId ⟨mq, if anonymous then none else (askedAbout e).1,
        if anonymous ∨ versionOf e = t!"http://openid.net/signon/1.0" then none else (askedAbout e).2,
        some (backTo W E0 e returnTo), some realm, req.assoc.map (·.handle), some e.serverUrl, immediate⟩)) := by
  rcases he with he | he
  · obtain ⟨c, hc, c1, c2, c3⟩ := he.claimed
    obtain ⟨i, hi, i1, i2, i3⟩ := he.identity
    have hab : askedAbout e = (localIdentifier e, e.claimedId) := by rw [askedAbout, if_neg he.type.1]
    have hab' : (askedAbout e).1 ≠ none ∧ (askedAbout e).2 ≠ none := by rw [hab, hc, hi]; simp
    exact ⟨hab', fun _ => ⟨c, hc, c1⟩, he.server.2.2, he.server.1, he.server.2.1, he.params,
      request_read (V := V) (Es := Es) huni hbegin he.server.2.1 he.params hab' (fun _ => ⟨c, hc, c1⟩) hr immediate hX⟩
  · have hver : versionOf e = t!"http://specs.openid.net/auth/2.0" := by rw [versionOf, if_pos (.inl he.type.1)]
    have hab : askedAbout e = (some t!"http://specs.openid.net/auth/2.0/identifier_select",
      some t!"http://specs.openid.net/auth/2.0/identifier_select") := by rw [askedAbout, if_pos he.type.1]
    have hab' : (askedAbout e).1 ≠ none ∧ (askedAbout e).2 ≠ none := by rw [hab]; simp
    have hv : versionOf e = t!"http://openid.net/signon/1.0" → ∃ c, e.claimedId = some c ∧ c ≠ [] :=
      fun h => by rw [hver] at h; exact absurd h (by decide)
    exact ⟨hab', hv, he.server.2.2, he.server.1, he.server.2.1, he.params,
      request_read (V := V) (Es := Es) huni hbegin he.server.2.1 he.params hab' hv hr immediate hX⟩

/-- **C75** A user who says no: whatever the request (of OpenID 1 or 2, for an identity, for one to be chosen, or for none,
    with the data of any extensions), if the user could be asked, the provider can decode it and answer it with no, which
    asks nothing of its store; and whatever way that answer comes back, the consumer asks nothing of anyone and tells the
    application that the request about this endpoint was cancelled, and the request is forgotten.  The same goes for the
    URL that the provider's application can send the user to without an answer. -/
theorem c75_cancelled {σ : Type} {W : Consumer.World} {V : Server.World} (huni : V.uni = W.uni) {C : Conf}
    {E0 E2 : Consumer.Env} {Es : Server.Env} {s0 s1 : UserSession} {e : Endpoint} {anonymous : Bool} {evs0 : List Ev}
    {req : AuthRequest} (hbegin : Runs (beginWithoutDiscovery W C E0 s0 e anonymous) evs0 (.ok (s1, .ok req)))
    (he : Askable e ∨ Choosing e) {realm returnTo current : Str} (hr : Returnable W.uni realm returnTo current)
    {X : List Extension} (hX : Attachable (versionOf e) V.reg X) (here : Str) :
    ∃ req' url, extendRequest req X = .ok req' ∧ req'.redirectURL realm (some returnTo) false = .ok url ∧
    ∀ q, Dict.WF q → (∀ k, q.get? k = (parameters url).get? k) →
    ∃ r resp w cancel, Server.decode V Es (some e.serverUrl) q = .ok (some (.checkId r)) ∧
      r.answer V Es false none none none = .ok resp ∧
      (∀ (step : σ → Event → σ × Outcome) st, Server.Prog.run step Es.now st (Server.signingEncode V Es resp) = (st, .ok w)) ∧
      (∃ q', Brings w q') ∧ r.getCancelURL = .ok cancel ∧
    ∀ q', Brings w q' ∨ Dict.WF q' ∧ (∀ k, q'.get? k = (parameters cancel).get? k) →
      ∃ s2, Runs (complete W C E2 s1 q' here) [] (.ok (s2, .ok (.cancel (some e)))) ∧ s2.token = none := by
  obtain ⟨-, -, -, hsv, -, -, req', url, hext, hurl, hrt, hdec⟩ := request_any (V := V) (Es := Es) huni hbegin he hr false hX
  refine ⟨req', url, hext, hurl, fun q hw hq => ?_⟩
  obtain ⟨mq, hns, -, hd⟩ := hdec q hw hq
  have hmem : versionOf e ∈ [OPENID1_NS, THE_OTHER_OPENID1_NS, OPENID2_NS] := by
    rcases version_cases e with h | h <;> rw [h] <;> decide
  obtain ⟨m0, hm0⟩ := Server.new_can hmem
  have hx0 : Server.Exactly m0 (versionOf e) (argsOf []) := (Server.new_exactly hm0).congr fun _ => rfl
  obtain ⟨f, hf, -⟩ := hx0.can t!"mode" t!"cancel"
  have hx : Server.Exactly f (versionOf e) (argsOf [(t!"mode", some t!"cancel")]) :=
    Server.Exactly.setNew (l := []) hx0 (by simp) hf
  have hs1 : s1.token = some e := (c63_session hbegin).1
  have hcons : ∀ q', Dict.WF q' → (∀ k, q'.get? k = (f.toPostArgs.get? k).or ((parameters (backTo W E0 e returnTo)).get? k)) →
      ∃ s2, Runs (complete W C E2 s1 q' here) [] (.ok (s2, .ok (.cancel (some e)))) ∧ s2.token = none := by
    intro q' hw' hq'
    obtain ⟨⟨s2, h1, h2⟩, h3, -⟩ := refused_back (C := C) (E := E2) (s := s1) (cur := here) (Server.carries_of hx) (by simp) rfl (by decide) hr hw' hq'
    have ht : told s1.token q' = .cancel (some e) := by
      rw [told, if_pos (by rw [h3 _ (by decide) (by decide)]; rfl), hs1]
    rw [ht] at h1
    exact ⟨s2, h1, h2⟩
  generalize hR : (⟨mq, if anonymous then none else (askedAbout e).1,
        if anonymous ∨ versionOf e = t!"http://openid.net/signon/1.0" then none else (askedAbout e).2,
        some (backTo W E0 e returnTo), some realm, req.assoc.map (·.handle), some e.serverUrl, false⟩ :
        Server.CheckIDRequest) = r at hd
  have hr1 : r.returnTo = some (backTo W E0 e returnTo) := by rw [← hR]
  have hr2 : r.immediate = false := by rw [← hR]
  have hr3 : r.message = mq := by rw [← hR]
  have hr4 : r.opEndpoint = some e.serverUrl := by rw [← hR]
  have hmode : r.answerMode false = t!"cancel" := by simp [Server.CheckIDRequest.answerMode, hr2]
  have hans : r.answer V Es false none none none = .ok ⟨.checkId r, f⟩ := by
    rw [answer_no hr1 hrt hr4 hsv (by rw [hr3, hns, hm0])]
    simp [Server.CheckIDRequest.answerNo, Server.Response.set, hmode, hf, hr2, Server.lift]
  obtain ⟨w, hw1, hw2⟩ := unsigned (σ := σ) (V := V) (Es := Es) (resp := ⟨.checkId r, f⟩) hx (mode := t!"cancel") rfl (by decide)
    rfl hr1 (by
      refine ⟨append_legible hr.plain.2.2.2.2.1, ?_⟩
      refine (holds_of hx).legible (bearer_of (reg := []) hx (version_cases e).symm) (tagged_of hx)
        (fun k v h => ?_) (by rcases version_cases e with h | h <;> rw [h] <;> decide) (fun k v h => ?_)
      · have := argsOf_mem h; simp at this; obtain ⟨rfl, rfl⟩ := this; decide
      · simp at h; obtain ⟨rfl, rfl⟩ := h; decide)
  refine ⟨r, ⟨.checkId r, f⟩, w, f.toURL (backTo W E0 e returnTo), hd, hans, hw1, brings_some hw2, ?_, ?_⟩
  · rw [Server.CheckIDRequest.getCancelURL, hr1, hr2, hr3, hns, hm0, if_neg (by rw [truthy_some hrt]; simp), if_neg (by simp)]
    simp [Server.lift, hf, Server.toURL]
  · have hfrag : '#' ∉ backTo W E0 e returnTo := append_chars _ (by decide) hr.plain.1
    rintro q' (hb | ⟨hb, hg⟩)
    · obtain ⟨g1, g2⟩ := brings_get hw2 hfrag hb
      exact hcons q' g1 g2
    · exact hcons q' hb fun k => by rw [hg, toURL_get hfrag]

-- non-vacuity: a request of a user, with an extension, and one that asks for no identity, of a consumer without a store
example : ∃ (s1 : UserSession) (q' : Dict Str Str) (s2 : UserSession),
    Runs (complete cworld0 cconf0 cenv0 s1 q' []) [] (.ok (s2, .ok (.cancel (some endpoint0)))) := by
  obtain ⟨s1, req, h, ha⟩ := begunShared0
  obtain ⟨req', url, -, hu, hq⟩ := c75_cancelled (σ := Unit) (V := sworld0) (Es := senv0) (E2 := cenv0) rfl h (.inl askable0)
    returnable0 (X := [wants0]) ⟨by decide, by decide, by decide, by simp [wants0, Dict.WF, Dict.keys], by decide⟩ []
  obtain ⟨r, resp, w, cancel, -, -, -, ⟨q', hb⟩, -, hw⟩ := hq (parameters url) (Dict.WF_ofPairs _) (fun _ => rfl)
  obtain ⟨s2, hs, -⟩ := hw q' (.inl hb)
  exact ⟨s1, q', s2, hs⟩

example : ∃ (s1 : UserSession) (q' : Dict Str Str) (s2 : UserSession),
    Runs (complete cworld0 ⟨false, []⟩ cenv0 s1 q' []) [] (.ok (s2, .ok (.cancel (some endpoint0)))) := by
  obtain ⟨s1, req, h, ha⟩ := begunPlain0
  obtain ⟨req', url, -, hu, hq⟩ := c75_cancelled (σ := Unit) (V := sworld0) (Es := senv0) (E2 := cenv0) rfl h (.inl askable0)
    returnable0 (no_extensions _ _) []
  obtain ⟨r, resp, w, cancel, -, -, -, -, -, hw⟩ := hq (parameters url) (Dict.WF_ofPairs _) (fun _ => rfl)
  obtain ⟨s2, hs, -⟩ := hw (parameters cancel) (.inr ⟨Dict.WF_ofPairs _, fun _ => rfl⟩)
  exact ⟨s1, _, s2, hs⟩

/-- **C75** The application of a provider gets no such URL when there is nowhere to go back to, or for an immediate request:
    of that the user cannot know. -/
theorem c75_no_cancel (r : Server.CheckIDRequest) :
    (given r.returnTo = none → r.getCancelURL = .error .noReturnTo) ∧
    (given r.returnTo ≠ none → r.immediate = true → r.getCancelURL = .error (.py .valueError)) := by
  constructor <;> intro h
  · rw [Server.CheckIDRequest.getCancelURL, if_pos]
    rcases hr : r.returnTo with _ | _ | ⟨a, b⟩
    · rfl
    · rfl
    · rw [hr] at h; cases h
  · intro hi
    rw [Server.CheckIDRequest.getCancelURL, if_neg, if_pos hi]
    rcases hr : r.returnTo with _ | _ | ⟨a, b⟩
    · rw [hr] at h; exact absurd rfl h
    · rw [hr] at h; exact absurd rfl h
    · simp [Server.truthy]

/-- **C75** A user who would have to be asked, but may not be: an immediate request of OpenID 2, about an identity or one to
    be chosen.  The provider can decode it and answer it with no, which asks nothing of its store; whatever way that answer
    comes back, the consumer asks nothing of anyone, the request is forgotten, and the application is told that the user
    needs to be asked, and where to send them for that.  A provider that the user comes to from there decodes the same
    request (an empty handle is left out), but one for which the user may be asked.  (The code falls short here: the data of
    the extensions is lost on the way.) -/
theorem c75_setup_needed {σ : Type} {W : Consumer.World} {V : Server.World} (huni : V.uni = W.uni) {C : Conf}
    {E0 E2 : Consumer.Env} {Es : Server.Env} {s0 s1 : UserSession} {e : Endpoint} {evs0 : List Ev}
    {req : AuthRequest} (hbegin : Runs (beginWithoutDiscovery W C E0 s0 e false) evs0 (.ok (s1, .ok req)))
    (he : Askable e ∨ Choosing e) (hv : versionOf e = t!"http://specs.openid.net/auth/2.0")
    {realm returnTo current : Str} (hr : Returnable W.uni realm returnTo current)
    {X : List Extension} (hX : Attachable (versionOf e) V.reg X) (here : Str) :
    ∃ req' url, extendRequest req X = .ok req' ∧ req'.redirectURL realm (some returnTo) true = .ok url ∧
    ∀ q, Dict.WF q → (∀ k, q.get? k = (parameters url).get? k) →
    ∃ r resp w setup, Server.decode V Es (some e.serverUrl) q = .ok (some (.checkId r)) ∧ r.immediate = true ∧
      r.answer V Es false none none none = .ok resp ∧
      (∀ (step : σ → Event → σ × Outcome) st, Server.Prog.run step Es.now st (Server.signingEncode V Es resp) = (st, .ok w)) ∧
      (∃ q', Brings w q') ∧
      (∀ q', Brings w q' →
        ∃ s2, Runs (complete W C E2 s1 q' here) [] (.ok (s2, .ok (.setupNeeded (some e) (some setup)))) ∧ s2.token = none) ∧
      ∀ q2 Es2, Dict.WF q2 → (∀ k, q2.get? k = (parameters setup).get? k) →
        ∃ m2, Server.decode V Es2 (some e.serverUrl) q2 =
            .ok (some (.checkId { r with message := m2, immediate := false, assocHandle := given r.assocHandle })) ∧
          m2.getOpenIDNamespace = some (versionOf e) ∧
          ∀ u, u ≠ versionOf e → u ≠ t!"sreg" → m2.getArgs (.uri u) = .ok [] := by
  obtain ⟨hab, hv1, hline, hsv, hfragS, hparams, req', url, hext, hurl, hrt, hdec⟩ :=
    request_any (V := V) (Es := Es) huni hbegin he hr true hX
  refine ⟨req', url, hext, hurl, fun q hw hq => ?_⟩
  obtain ⟨mq, hns, -, hd⟩ := hdec q hw hq
  obtain ⟨i, hi⟩ := Option.ne_none_iff_exists'.1 hab.1
  obtain ⟨c, hc⟩ := Option.ne_none_iff_exists'.1 hab.2
  have hn : versionOf e ≠ t!"http://openid.net/signon/1.0" := by rw [hv]; decide
  have hid : askedAbout e = (some i, some c) := Prod.ext hi hc
  obtain ⟨L, R, l1, l2, l3, l4, l5⟩ := return_located hr
    (own_filled hv1 (nonce_ne (E0.now / W.clock.tick) E0.salt)) (own_ne e (Nonce.mkNonce (E0.now / W.clock.tick) E0.salt))
  rw [← huni] at l1 l3
  simp only [hid, Bool.false_eq_true, false_or, if_false, if_neg hn] at hd
  obtain ⟨setup, m, hsetup, hsurl, hxs⟩ := setup_url (V := V) (e := e) hv hns (i := i) (c := c) (sv := e.serverUrl)
    (handle := req.assoc.map (·.handle)) (op := some e.serverUrl) (imm := true) hid hrt l1 l2 l3 l4 l5 (by simp)
  have hmem : versionOf e ∈ [OPENID1_NS, THE_OTHER_OPENID1_NS, OPENID2_NS] := by rw [hv]; decide
  obtain ⟨m0, hm0⟩ := Server.new_can hmem
  have hx0 : Server.Exactly m0 (versionOf e) (argsOf []) := (Server.new_exactly hm0).congr fun _ => rfl
  obtain ⟨f0, hf0, -⟩ := hx0.can t!"mode" t!"setup_needed"
  have hx1 : Server.Exactly f0 (versionOf e) (argsOf [(t!"mode", some t!"setup_needed")]) :=
    Server.Exactly.setNew (l := []) hx0 (by simp) hf0
  obtain ⟨f, hf, -⟩ := hx1.can t!"user_setup_url" (m.toURL e.serverUrl)
  have hx : Server.Exactly f (versionOf e)
      (argsOf [(t!"mode", some t!"setup_needed"), (t!"user_setup_url", some (m.toURL e.serverUrl))]) :=
    Server.Exactly.setNew hx1 (by simp) hf
  have hs1 : s1.token = some e := (c63_session hbegin).1
  have h1 : mq.isOpenID1 = false := by rw [Msg.isOpenID1, hns, hv]; rfl
  generalize hR : (⟨mq, some i, some c, some (backTo W E0 e returnTo), some realm, req.assoc.map (·.handle), some e.serverUrl,
    true⟩ : Server.CheckIDRequest) = r at hd
  have hr1 : r.returnTo = some (backTo W E0 e returnTo) := by rw [← hR]
  have hr2 : r.immediate = true := by rw [← hR]
  have hr3 : r.message = mq := by rw [← hR]
  have hr4 : r.opEndpoint = some e.serverUrl := by rw [← hR]
  have hmode : r.answerMode false = t!"setup_needed" := by simp [Server.CheckIDRequest.answerMode, hr2, hr3, h1]
  have hsetup' : Server.CheckIDRequest.new V r.identity r.returnTo r.trustRoot false r.assocHandle r.opEndpoint r.claimedId none =
      .ok setup := by rw [← hR]; exact hsetup
  have hans : r.answer V Es false none none none = .ok ⟨.checkId r, f⟩ := by
    rw [answer_no hr1 hrt hr4 hsv (by rw [hr3, hns, hm0])]
    simp [Server.CheckIDRequest.answerNo, Server.Response.set, hmode, hf0, hr2, hr3, h1, Server.lift, hsetup', hsurl, hf]
  have hlegible : Legible (m.toURL e.serverUrl) := append_legible hline.2.1
  obtain ⟨w, hw1, hw2⟩ := unsigned (σ := σ) (V := V) (Es := Es) (resp := ⟨.checkId r, f⟩) hx (mode := t!"setup_needed") rfl
    (by decide) rfl hr1 (by
      refine ⟨append_legible hr.plain.2.2.2.2.1, ?_⟩
      refine (holds_of hx).legible (bearer_of (reg := []) hx (version_cases e).symm) (tagged_of hx)
        (fun k v h => ?_) (by rw [hv]; decide) (fun k v h => ?_)
      · have := argsOf_mem h
        simp only [List.mem_cons, Prod.mk.injEq, List.not_mem_nil, or_false] at this
        rcases this with ⟨rfl, -⟩ | ⟨rfl, -⟩ <;> decide
      · simp only [List.mem_cons, Prod.mk.injEq, Option.some.injEq, List.not_mem_nil, or_false] at h
        rcases h with ⟨rfl, rfl⟩ | ⟨rfl, rfl⟩
        · decide
        · exact ⟨by decide, hlegible⟩)
  refine ⟨r, ⟨.checkId r, f⟩, w, m.toURL e.serverUrl, hd, hr2, hans, hw1, brings_some hw2, fun q' hb => ?_, fun q2 Es2 g1 g2 => ?_⟩
  · obtain ⟨g1, g2⟩ := brings_get hw2 (append_chars _ (by decide) hr.plain.1) hb
    obtain ⟨⟨s2, k1, k2⟩, k3, k4⟩ := refused_back (C := C) (E := E2) (s := s1) (cur := here) (Server.carries_of hx)
      (by
        intro p hp
        simp only [List.mem_cons, List.not_mem_nil, or_false] at hp
        rcases hp with rfl | rfl <;> simp) (mode := t!"setup_needed") rfl (by decide) hr g1 g2
    have ha : arg q' t!"mode" = some t!"setup_needed" := by rw [k3 _ (by decide) (by decide)]; rfl
    have ht : told s1.token q' = .setupNeeded (some e) (some (m.toURL e.serverUrl)) := by
      rw [told, ha, if_neg (by decide), if_neg (by decide), if_pos ⟨rfl, fun h => hn (k4.1 h)⟩, hs1,
        k3 _ (by decide) (by decide)]
      rfl
    rw [ht] at k1
    exact ⟨s2, k1, k2⟩
  · have hB : Bearer V.reg m (versionOf e) := bearer_of hxs (version_cases e).symm
    have hopen : ∀ k, q2.get? (t!"openid." ++ k) = m.toPostArgs.get? (t!"openid." ++ k) := by
      intro k
      rw [g2, toURL_get hfragS]
      cases hp : (parameters e.serverUrl).get? (t!"openid." ++ k) with
      | none => simp
      | some v =>
        have h1 := hparams _ (parameters_mem hp)
        rw [show startsWith (t!"openid." ++ k) t!"openid." = true from (startsWith_iff _ _).2 ⟨k, rfl⟩] at h1
        cases h1
    obtain ⟨m2, p1, p2, p3, p4⟩ := request_decodes (V := V) (Es := Es2) hB (holds_of hxs) (by simp)
      (fun _ => ⟨hab.1, fun _ => hab.2⟩) hrt l1 l2 l3 l4 l5 g1 hopen
    refine ⟨m2, ?_, p2, fun u n1 n2 => ?_⟩
    · rw [p4, ← hR, hid]
      simp only [Bool.false_eq_true, false_or, if_false, if_neg hn]
    · obtain ⟨d', b1, b2, b3⟩ := getArgs_uri V.reg (.parsed q2 m2 p1) n2
      have hnil : d' = [] := nil_of_get fun k => by rw [b3, p3.args _ _ n1, hxs.only _ _ (by simpa using n1)]
      rw [b1, hnil]

-- non-vacuity: the application is told where the user can be asked, and the request from there has lost the extension
example : ∃ (s1 : UserSession) (q' : Dict Str Str) (s2 : UserSession) (setup : Str) (r : Server.CheckIDRequest),
    Runs (complete cworld0 cconf0 cenv0 s1 q' []) [] (.ok (s2, .ok (.setupNeeded (some endpoint0) (some setup)))) ∧
    Server.decode sworld0 senv0 (some endpoint0.serverUrl) (parameters setup) = .ok (some (.checkId r)) ∧ r.immediate = false ∧
    r.message.getArgs (.uri wants0.uri) = .ok [] := by
  obtain ⟨s1, req, h, ha⟩ := begunShared0
  obtain ⟨req', url, -, hu, hq⟩ := c75_setup_needed (σ := Unit) (V := sworld0) (Es := senv0) (E2 := cenv0) rfl h (.inl askable0)
    (by decide) returnable0 (X := [wants0])
    ⟨by decide, by decide, by decide, by simp [wants0, Dict.WF, Dict.keys], by decide⟩ []
  obtain ⟨r, resp, w, setup, -, -, -, -, ⟨q', hb⟩, hw, hs⟩ := hq (parameters url) (Dict.WF_ofPairs _) (fun _ => rfl)
  obtain ⟨s2, h2, -⟩ := hw q' hb
  obtain ⟨m2, h3, -, h4⟩ := hs (parameters setup) senv0 (Dict.WF_ofPairs _) (fun _ => rfl)
  exact ⟨s1, q', s2, setup, _, h2, h3, rfl, h4 _ (by decide) (by decide)⟩

/-- **C75** A provider that finds fault with the request, immediate or not: whatever the error says (in characters that a page
    can have), and whatever contact and reference go with it, the provider can send it without asking its store; and whatever
    way it comes back, the consumer asks nothing of anyone, the request is forgotten, and the application is told that it
    failed, with the same text, contact and reference. -/
theorem c75_error {W : Consumer.World} {V : Server.World} (huni : V.uni = W.uni) {C : Conf}
    {E0 E2 : Consumer.Env} {Es : Server.Env} {s0 s1 : UserSession} {e : Endpoint} {anonymous : Bool} {evs0 : List Ev}
    {req : AuthRequest} (hbegin : Runs (beginWithoutDiscovery W C E0 s0 e anonymous) evs0 (.ok (s1, .ok req)))
    (he : Askable e ∨ Choosing e) {realm returnTo current : Str} (hr : Returnable W.uni realm returnTo current)
    (immediate : Bool) {X : List Extension} (hX : Attachable (versionOf e) V.reg X) (here : Str)
    {text : Str} {contact reference : Option Str} (ht : Line text) (hct : ∀ v, contact = some v → Line v)
    (hrf : ∀ v, reference = some v → Line v) :
    ∃ req' url, extendRequest req X = .ok req' ∧ req'.redirectURL realm (some returnTo) immediate = .ok url ∧
    ∀ q, Dict.WF q → (∀ k, q.get? k = (parameters url).get? k) →
    ∃ r w, Server.decode V Es (some e.serverUrl) q = .ok (some (.checkId r)) ∧
      Server.encodeError ⟨some r.message, text, contact, reference⟩ = .ok w ∧ (∃ q', Brings w q') ∧
    ∀ q', Brings w q' → ∃ s2, Runs (complete W C E2 s1 q' here) []
        (.ok (s2, .ok (.failure (some e) (some (some text, contact, reference))))) ∧ s2.token = none := by
  obtain ⟨-, -, -, hsv, -, -, req', url, hext, hurl, hrt, hdec⟩ := request_any (V := V) (Es := Es) huni hbegin he hr immediate hX
  refine ⟨req', url, hext, hurl, fun q hw hq => ?_⟩
  obtain ⟨mq, hns, -, hd⟩ := hdec q hw hq
  obtain ⟨-, m, hm, hrm⟩ := (c34_checkid V Es _ q hw _).1 hd
  simp only [Server.CheckIDRequest.mk.injEq] at hrm
  obtain ⟨rfl, -, -, hrt', -, -, -, -⟩ := hrm
  have hg := got hw hm
  have hs1 : s1.token = some e := (c63_session hbegin).1
  obtain ⟨f, hx, hsent⟩ := c51_sent V.reg ⟨some mq, text, contact, reference⟩ mq rfl hg.built (versionOf e) hns
    (some (backTo W E0 e returnTo)) _ (by rw [hg.get _ (by decide) (by decide), ← hrt']) (hg.get _ (by decide) (by decide))
  have hwr : Writable f (backTo W E0 e returnTo) := by
    refine ⟨append_legible hr.plain.2.2.2.2.1, ?_⟩
    rintro ⟨K, v⟩ hK
    obtain ⟨k, rfl, h⟩ := (hx.sent _ _).1 hK
    have : Legible k ∧ Legible v := by
      rcases h with h | ⟨-, rfl, rfl, -⟩
      · have := argsOf_mem h
        simp only [List.mem_cons, Prod.mk.injEq, Option.some.injEq, List.not_mem_nil, or_false] at this
        rcases this with ⟨rfl, rfl⟩ | ⟨rfl, rfl⟩ | ⟨rfl, h'⟩ | ⟨rfl, h'⟩
        · decide
        · exact ⟨by decide, ht.2.1⟩
        · exact ⟨by decide, (hct v h'.symm).2.1⟩
        · exact ⟨by decide, (hrf v h'.symm).2.1⟩
      · exact ⟨by decide, by rcases version_cases e with h | h <;> rw [h] <;> decide⟩
    exact ⟨legible_append (by decide) this.1, this.2⟩
  rcases hsent _ rfl with ⟨-, w, hw1, hw2⟩ | ⟨-, h, -⟩
  · refine ⟨_, w, hd, hw1, brings_some hw2, fun q' hb => ?_⟩
    obtain ⟨g1, g2⟩ := brings_get hw2 (append_chars _ (by decide) hr.plain.1) hb
    obtain ⟨⟨s2, k1, k2⟩, k3, -⟩ := refused_back (C := C) (E := E2) (s := s1) (cur := here) hx
      (by
        intro p hp
        simp only [List.mem_cons, List.not_mem_nil, or_false] at hp
        rcases hp with rfl | rfl | rfl | rfl <;> simp) (mode := t!"error") rfl (by decide) hr g1 g2
    have ht : told s1.token q' = .failure (some e) (some (some text, contact, reference)) := by
      have ha : arg q' t!"mode" = some t!"error" := by rw [k3 _ (by decide) (by decide)]; rfl
      rw [told, ha, if_neg (by decide), if_pos rfl, hs1, k3 _ (by decide) (by decide), k3 _ (by decide) (by decide),
        k3 _ (by decide) (by decide)]
      rfl
    rw [ht] at k1
    exact ⟨s2, k1, k2⟩
  · exact absurd hwr h

-- non-vacuity
example : ∃ (s1 : UserSession) (q' : Dict Str Str) (s2 : UserSession),
    Runs (complete cworld0 cconf0 cenv0 s1 q' []) []
      (.ok (s2, .ok (.failure (some endpoint0) (some (some t!"no & no", none, some t!"#5"))))) := by
  obtain ⟨s1, req, h, ha⟩ := begunShared0
  obtain ⟨req', url, -, hu, hq⟩ := c75_error (V := sworld0) (Es := senv0) (E2 := cenv0) rfl h (.inl askable0)
    returnable0 true (no_extensions _ _) [] (text := t!"no & no") (contact := none) (reference := some t!"#5") (by decide)
    (by simp) (by rintro v ⟨⟩; decide)
  obtain ⟨r, w, -, -, ⟨q', hb⟩, hw⟩ := hq (parameters url) (Dict.WF_ofPairs _) (fun _ => rfl)
  obtain ⟨s2, hs, -⟩ := hw q' hb
  exact ⟨s1, q', s2, hs⟩

end Props
