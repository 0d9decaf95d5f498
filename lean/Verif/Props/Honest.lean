import Verif.Lemmas.HonestRun
import Verif.Lemmas.ServerStores
import Verif.Lemmas.Attach
import Verif.Props.ConsumerAccepts
/-! # C41, C69: an honest run succeeds, and carries the data of extensions -/

namespace Props
open Py Message Association Store Discover Consumer Spec Oidutil Honest Extend

/-- the request is decoded by the provider -/
theorem request_read {W : Consumer.World} {V : Server.World} (huni : V.uni = W.uni) {C : Conf} {E0 : Consumer.Env}
    {Es : Server.Env} {s0 s1 : UserSession} {e : Endpoint} {anonymous : Bool} {evs0 : List Ev} {req : AuthRequest}
    (hbegin : Runs (beginWithoutDiscovery W C E0 s0 e anonymous) evs0 (.ok (s1, .ok req)))
    (hserver : '#' ∉ e.serverUrl)
    (hparams : ∀ p ∈ Percent.parseQsl true (queryOf e.serverUrl), startsWith p.1 t!"openid." = false)
    (hab : (askedAbout e).1 ≠ none ∧ (askedAbout e).2 ≠ none)
    (hv1 : versionOf e = t!"http://openid.net/signon/1.0" → ∃ c, e.claimedId = some c ∧ c ≠ [])
    {realm returnTo current : Str} (hr : Returnable W.uni realm returnTo current) (immediate : Bool)
    {X : List Extension} (hX : Attachable (versionOf e) V.reg X) :
    ∃ req' url, extendRequest req X = .ok req' ∧ req'.redirectURL realm (some returnTo) immediate = .ok url ∧
    appendArgsSeq returnTo (ownArgs e (Nonce.mkNonce (E0.now / W.clock.tick) E0.salt)) ≠ [] ∧
    ∀ q, Dict.WF q → (∀ k, q.get? k = (parameters url).get? k) →
    ∃ mq, mq.getOpenIDNamespace = some (versionOf e) ∧ Gives (versionOf e) X (fun u d => mq.getArgs (.uri u) = .ok d) ∧
      Server.decode V Es (some e.serverUrl) q = .ok (some (.checkId ⟨mq, if anonymous then none else (askedAbout e).1,
        if anonymous ∨ versionOf e = t!"http://openid.net/signon/1.0" then none else (askedAbout e).2,
        some (appendArgsSeq returnTo (ownArgs e (Nonce.mkNonce (E0.now / W.clock.tick) E0.salt))), some realm,
        req.assoc.map (·.handle), some e.serverUrl, immediate⟩)) := by
  have hrt : returnTo ≠ [] := by
    obtain ⟨_, _, -, -, h, -⟩ := hr.realm
    exact realm_ne h
  have hanon := (begun_eq hbegin).2.1
  obtain ⟨-, -, a, m0, hm0, hreq⟩ := begun_eq hbegin
  have hx0 : Server.Exactly m0 (versionOf e) (argsOf []) := (Server.new_exactly hm0).congr fun _ => rfl
  obtain ⟨x, hat, hX'⟩ := attach_ok hx0 hX
  have hB := hX'.bearer hX (version_cases e).symm
  have hm := message_holds (r := { req with message := x }) hB hX'.holds (by rw [hreq]) (realm := realm) hrt immediate
  rw [if_pos ⟨fun h => by obtain ⟨c, hc, -⟩ := hv1 h; rw [hc]; simp, fun _ => ⟨hab.1, fun _ => hab.2⟩⟩] at hm
  obtain ⟨m, hm, hx⟩ := hm
  have hre : req.endpoint = e := by rw [hreq]
  have hown := own_ne e (Nonce.mkNonce (E0.now / W.clock.tick) E0.salt)
  obtain ⟨L, R, l1, l2, l3, l4, l5⟩ := return_located hr
    (own_filled hv1 (nonce_ne (E0.now / W.clock.tick) E0.salt)) hown
  have hrt' := realm_ne l3
  have hrm : req.message = m0 := by rw [hreq]
  refine ⟨{ req with message := x }, m.toURL e.serverUrl, by rw [extendRequest_eq, hrm, hat]; rfl,
    by rw [AuthRequest.redirectURL, hm]; simp only [hre]; rfl, hrt', ?_⟩
  intro q hw hq
  have hopen : ∀ k, q.get? (t!"openid." ++ k) = m.toPostArgs.get? (t!"openid." ++ k) := by
    intro k
    rw [hq, toURL_get hserver]
    cases hp : (parameters e.serverUrl).get? (t!"openid." ++ k) with
    | none => simp
    | some v =>
      have h1 := hparams _ (parameters_mem hp)
      rw [show startsWith (t!"openid." ++ k) t!"openid." = true from (startsWith_iff _ _).2 ⟨k, rfl⟩] at h1
      cases h1
  obtain ⟨mq, h1, h2, hc, h3⟩ := request_decodes (V := V) (Es := Es) hB hx hanon (fun _ => ⟨hab.1, fun _ => hab.2⟩)
    hrt' (by rw [huni]; exact l1) l2 (by rw [huni]; exact l3) l4 l5 hw hopen
  exact ⟨mq, h2, hX'.gives hX hc (.parsed q mq h1), h3⟩

/-- what the provider makes of the request: decoded, answered with yes -/
theorem asked_and_answered {W : Consumer.World} {V : Server.World} (huni : V.uni = W.uni) {C : Conf} {E0 : Consumer.Env}
    {Es : Server.Env} {s0 s1 : UserSession} {e : Endpoint} {anonymous : Bool} {evs0 : List Ev} {req : AuthRequest}
    (hbegin : Runs (beginWithoutDiscovery W C E0 s0 e anonymous) evs0 (.ok (s1, .ok req))) (he : Askable e)
    {realm returnTo current : Str} (hr : Returnable W.uni realm returnTo current) (immediate : Bool)
    {X : List Extension} (hX : Attachable (versionOf e) V.reg X) :
    ∃ req' url, extendRequest req X = .ok req' ∧ req'.redirectURL realm (some returnTo) immediate = .ok url ∧
    ∀ q, Dict.WF q → (∀ k, q.get? k = (parameters url).get? k) →
    ∃ r, Server.decode V Es (some e.serverUrl) q = .ok (some (.checkId r)) ∧
      Gives (versionOf e) X (fun u d => r.message.getArgs (.uri u) = .ok d) ∧
      r.assocHandle = req.assoc.map (·.handle) ∧
      r.returnTo = some (appendArgsSeq returnTo (ownArgs e (Nonce.mkNonce (E0.now / W.clock.tick) E0.salt))) ∧
    ∃ resp, r.answer V Es true none none none = .ok resp ∧ resp.request = .checkId r ∧
      Server.Exactly resp.fields (versionOf e) (argsOf (assertion
        (appendArgsSeq returnTo (ownArgs e (Nonce.mkNonce (E0.now / W.clock.tick) E0.salt)))
        (Nonce.mkNonce (V.clock.seconds Es.now).toNat Es.salt) (some e.serverUrl)
        (if anonymous then none else localIdentifier e)
        (if anonymous ∨ versionOf e = t!"http://openid.net/signon/1.0" then none else e.claimedId) none)) := by
  obtain ⟨c, hc, c1, c2, c3⟩ := he.claimed
  obtain ⟨i, hi, i1, i2, i3⟩ := he.identity
  have hab : askedAbout e = (localIdentifier e, e.claimedId) := by rw [askedAbout, if_neg he.type.1]
  have hanon := (begun_eq hbegin).2.1
  obtain ⟨req', url, hext, hurl, hrt', hq⟩ := request_read (V := V) (Es := Es) huni hbegin he.server.2.1 he.params
    (by rw [hab, hc, hi]; simp) (fun _ => ⟨c, hc, c1⟩) hr immediate hX
  refine ⟨req', url, hext, hurl, fun q hw hqq => ?_⟩
  obtain ⟨mq, h2, hgv, h3⟩ := hq q hw hqq
  refine ⟨_, h3, hgv, rfl, rfl, ?_⟩
  obtain ⟨resp, g1, g2, g3⟩ := answered (identity := none) (claimedId := none)
    (i := if anonymous then none else localIdentifier e) (c := if anonymous then none else
      if versionOf e = t!"http://openid.net/signon/1.0" then none else e.claimedId) hw h3 h2 rfl hrt' rfl he.server.1 (by
      intro hv
      refine ⟨rfl, i, ?_⟩
      cases anonymous with
      | true => exact absurd hv (hanon rfl)
      | false => exact hi) (by
      rw [hab]
      cases anonymous with
      | true => rw [Asserts, if_neg (by simp)]; exact ⟨rfl, rfl, rfl⟩
      | false =>
        rw [Asserts, if_neg (by simpa [hi] using i3)]
        simp only [hi, Bool.false_eq_true, if_false, false_or]
        cases i with
        | nil => exact absurd rfl i1
        | cons ch i =>
          simp [given])
  refine ⟨resp, g1, g2, ?_⟩
  have : (if versionOf e = t!"http://specs.openid.net/auth/2.0" then
      (if anonymous then none else if versionOf e = t!"http://openid.net/signon/1.0" then none else e.claimedId) else none) =
      if anonymous ∨ versionOf e = t!"http://openid.net/signon/1.0" then none else e.claimedId := by
    rcases version_cases e with h | h <;> rw [h] <;> cases anonymous <;> simp
  rw [this] at g3
  exact g3

/-- the same when the provider is to choose, and has chosen -/
theorem asked_and_chosen {W : Consumer.World} {V : Server.World} (huni : V.uni = W.uni) {C : Conf} {E0 : Consumer.Env}
    {Es : Server.Env} {s0 s1 : UserSession} {e : Endpoint} {evs0 : List Ev} {req : AuthRequest}
    (hbegin : Runs (beginWithoutDiscovery W C E0 s0 e false) evs0 (.ok (s1, .ok req))) (he : Choosing e)
    {realm returnTo current : Str} (hr : Returnable W.uni realm returnTo current) (immediate : Bool)
    {X : List Extension} (hX : Attachable (versionOf e) V.reg X)
    {identity : Str} {claimed : Option Str} (hi : identity ≠ []) :
    ∃ req' url, extendRequest req X = .ok req' ∧ req'.redirectURL realm (some returnTo) immediate = .ok url ∧
    ∀ q, Dict.WF q → (∀ k, q.get? k = (parameters url).get? k) →
    ∃ r, Server.decode V Es (some e.serverUrl) q = .ok (some (.checkId r)) ∧
      Gives (versionOf e) X (fun u d => r.message.getArgs (.uri u) = .ok d) ∧
      r.assocHandle = req.assoc.map (·.handle) ∧
      r.returnTo = some (appendArgsSeq returnTo (ownArgs e (Nonce.mkNonce (E0.now / W.clock.tick) E0.salt))) ∧
    ∃ resp, r.answer V Es true none (some identity) claimed = .ok resp ∧ resp.request = .checkId r ∧
      Server.Exactly resp.fields (versionOf e) (argsOf (assertion
        (appendArgsSeq returnTo (ownArgs e (Nonce.mkNonce (E0.now / W.clock.tick) E0.salt)))
        (Nonce.mkNonce (V.clock.seconds Es.now).toNat Es.salt) (some e.serverUrl)
        (some identity) ((given claimed).or (some identity)) none)) := by
  have hver : versionOf e = t!"http://specs.openid.net/auth/2.0" := by rw [versionOf, if_pos (.inl he.type.1)]
  have hab : askedAbout e = (some t!"http://specs.openid.net/auth/2.0/identifier_select",
    some t!"http://specs.openid.net/auth/2.0/identifier_select") := by rw [askedAbout, if_pos he.type.1]
  obtain ⟨req', url, hext, hurl, hrt', hq⟩ := request_read (V := V) (Es := Es) huni hbegin he.server.2.1 he.params
    (by rw [hab]; simp) (fun h => by rw [hver] at h; exact absurd h (by decide)) hr immediate hX
  refine ⟨req', url, hext, hurl, fun q hw hqq => ?_⟩
  obtain ⟨mq, h2, hgv, h3⟩ := hq q hw hqq
  refine ⟨_, h3, hgv, rfl, rfl, ?_⟩
  have hg : given (some identity) = some identity := by
    cases identity with
    | nil => exact absurd rfl hi
    | cons ch r => rfl
  obtain ⟨resp, g1, g2, g3⟩ := answered (identity := some identity) (claimedId := claimed)
    (i := some identity) (c := (given claimed).or (some identity)) hw h3 h2 rfl hrt' rfl he.server.1
    (fun h => by rw [hver] at h; exact absurd h (by decide)) (by
      rw [hab, Asserts, if_pos (by simp)]
      exact ⟨identity, hg, rfl, rfl⟩)
  refine ⟨resp, g1, g2, ?_⟩
  rw [if_pos hver] at g3
  exact g3

/-- **C69** A request with the data of any extensions, for a user whose endpoint is known: with an association that the
    consumer and the provider share, what the provider decodes gives the data of each extension of the request, and of no
    other; the provider can answer it and attach the data of any extensions to the answer; and whatever way the answer comes
    back, it is accepted, and the data that the consumer finds signed is what the provider attached, for each of them and no
    other. -/
theorem c69_shared {σ : Type} {W : Consumer.World} {V : Server.World} (huni : V.uni = W.uni) (hmac : V.mac = W.mac)
    (hH : ∀ t k x, W.mac t k x ≠ []) (hreg : ∀ alias uri, W.reg.get? alias = some uri → uri ≠ t!"sreg")
    {C : Conf} (hC : C.hasStore = true) {E0 E2 : Consumer.Env} {Es : Server.Env}
    {s0 s1 : UserSession} {e : Endpoint} {anonymous : Bool} {evs0 : List Ev} {req : AuthRequest}
    (hbegin : Runs (beginWithoutDiscovery W C E0 s0 e anonymous) evs0 (.ok (s1, .ok req))) (he : Askable e)
    {realm returnTo current : Str} (hr : Returnable W.uni realm returnTo current) (immediate : Bool)
    {a b a' : Assoc} (ha : req.assoc = some a) (hh : Plain a.handle)
    (hat : a.assocType = t!"HMAC-SHA1" ∨ a.assocType = t!"HMAC-SHA256")
    (step : σ → Event → σ × Outcome) (st st' : σ)
    (hst : step st (Es.now, .getAssociation t!"http://localhost/|normal" (some a.handle)) = (st', .ok (.assoc (some b))))
    (hb : SameAssociation a b) (hbx : ¬ expired (Es.seconds V) b)
    (ha' : SameAssociation a a') (hax : ¬ expired (E2.seconds W) a')
    (hsalt : Line Es.salt) (ht0 : E0.now / W.clock.tick < 253402300800) (hts : V.clock.seconds Es.now < 253402300800)
    {X Y : List Extension} (hX : Attachable (versionOf e) V.reg X) (hY : Attachable (versionOf e) W.reg Y) (hYs : Signable Y) :
    ∃ req' url, extendRequest req X = .ok req' ∧ req'.redirectURL realm (some returnTo) immediate = .ok url ∧
    ∀ q, Dict.WF q → (∀ k, q.get? k = (parameters url).get? k) →
    ∃ r resp resp' w, Server.decode V Es (some e.serverUrl) q = .ok (some (.checkId r)) ∧
      Gives (versionOf e) X (fun u d => r.message.getArgs (.uri u) = .ok d) ∧
      r.answer V Es true none none none = .ok resp ∧ extendResponse resp Y = .ok resp' ∧
      Server.Prog.run step Es.now st (Server.signingEncode V Es resp') = (st', .ok w) ∧ (∃ q', Brings w q') ∧
    ∀ q', Brings w q' → ∃ s2 m signed, Runs (complete W C E2 s1 q' current)
      [.store (.getAssociation e.serverUrl (some a.handle)) (.ok (.assoc (some a'))),
       .store (if versionOf e = t!"http://openid.net/signon/1.0" then .useNonce [] (E0.now / W.clock.tick : Nat) E0.salt
          else .useNonce e.serverUrl (V.clock.seconds Es.now).toNat Es.salt) (.ok (.bool true))]
      (.ok (s2, .ok (.success (toldOf e anonymous) m signed))) ∧
      Gives (versionOf e) Y (fun u d => getSignedNS m signed (.uri u) = .ok (some d)) := by
  obtain ⟨req', url, hext, hurl, hreq⟩ := asked_and_answered (V := V) (Es := Es) huni hbegin he hr immediate hX
  refine ⟨req', url, hext, hurl, ?_⟩
  intro q hw hq
  obtain ⟨r, hd, hgx, hrh, hrr, resp, hresp, hrq, hx⟩ := hreq q hw hq
  obtain ⟨y, hat', hY'⟩ := attach_ok hx hY
  have hB := hY'.bearer hY (version_cases e).symm
  have hsent := extendResponse_eq resp Y
  rw [hat'] at hsent
  obtain ⟨c, hc, c1, c2, c3⟩ := he.claimed
  obtain ⟨i, hi, i1, i2, i3⟩ := he.identity
  have hanon := (begun_eq hbegin).2.1
  have hs1 : s1.token = some e := (c63_session hbegin).1
  have htold : (toldOf e anonymous).serverUrl = e.serverUrl := by rw [toldOf]; split <;> rfl
  obtain ⟨w, signed, sig, hw1, hw2, hcov, hrun⟩ := run_shared (s1 := s1) (E2 := E2) hmac hH hreg hC
    (resp := { resp with fields := y }) (hY'.tagged hYs) hB hr
    (own_filled (fun _ => ⟨c, hc, c1⟩) (nonce_ne _ _)) he.server.2.2
    (by intro v hv; split at hv; cases hv; rw [hi] at hv; cases hv; exact i2)
    (by intro v hv; split at hv; cases hv; rw [hc] at hv; cases hv; exact c3)
    (fun hv => by
      cases anonymous with
      | true => exact absurd hv (hanon rfl)
      | false => simp [hi]) hh hat hst hb hbx ha' hax hsalt ht0 hts (by rw [hrh, ha]; rfl) hrr hrq hY'.holds
  refine ⟨r, resp, { resp with fields := y }, w, hd, hgx, hresp, hsent, hw1, hw2, fun q' hq' => ?_⟩
  obtain ⟨m, m2, hA, hfin⟩ := hrun q' hq'
  obtain ⟨s2, h⟩ := hfin [] (toldOf e anonymous) htold (by
    rw [hs1]; exact discovery_of (got hA.wf hA.parsed) (versions_of hA.wf hA.parsed hA.ns) (confirmed he hanon hA))
  exact ⟨s2, m, _, h,
    hY'.gives_signed hY hB hY'.holds (assertion_plain _ _ _ _ _ _) hA.carried (.parsed q' m hA.parsed) hcov⟩

/-- **C69** The same without a shared association, or with one that the provider no longer has: the consumer asks the
    provider about the answer, with the data of the extensions in the question. -/
theorem c69_asked {σ : Type} {W : Consumer.World} {V : Server.World} (huni : V.uni = W.uni)
    (hH : ∀ t k x, V.mac t k x ≠ []) (hreg : ∀ alias uri, W.reg.get? alias = some uri → uri ≠ t!"sreg")
    (hregV : ∀ alias uri, V.reg.get? alias = some uri → uri ≠ t!"sreg")
    {C : Conf} {E0 E2 : Consumer.Env} {Es : Server.Env}
    {s0 s1 : UserSession} {e : Endpoint} {anonymous : Bool} {evs0 : List Ev} {req : AuthRequest}
    (hbegin : Runs (beginWithoutDiscovery W C E0 s0 e anonymous) evs0 (.ok (s1, .ok req))) (he : Askable e)
    {realm returnTo current : Str} (hr : Returnable W.uni realm returnTo current) (immediate : Bool)
    {step : σ → Event → σ × Outcome} {view : σ → AssocMap} (hf : Faithful V.clock step view) (hw : NeverFails step) (st : σ)
    (hgone : ∀ a, req.assoc = some a → Plain a.handle ∧ strip a.handle = a.handle ∧
      ∀ b, view st t!"http://localhost/|normal" a.handle = some b →
        expired (Es.seconds V) b ∧ b.assocType ∈ [t!"HMAC-SHA1", t!"HMAC-SHA256"])
    (hsalt : Line Es.salt) (ht0 : E0.now / W.clock.tick < 253402300800) (hts : V.clock.seconds Es.now < 253402300800)
    {X Y : List Extension} (hX : Attachable (versionOf e) V.reg X) (hY : Attachable (versionOf e) W.reg Y)
    (hYV : Attachable (versionOf e) V.reg Y) (hYs : Signable Y) :
    ∃ req' url, extendRequest req X = .ok req' ∧ req'.redirectURL realm (some returnTo) immediate = .ok url ∧
    ∀ q, Dict.WF q → (∀ k, q.get? k = (parameters url).get? k) →
    ∃ r resp resp' w st' b, Server.decode V Es (some e.serverUrl) q = .ok (some (.checkId r)) ∧
      Gives (versionOf e) X (fun u d => r.message.getArgs (.uri u) = .ok d) ∧
      r.answer V Es true none none none = .ok resp ∧ extendResponse resp Y = .ok resp' ∧
      Server.Prog.run step Es.now st (Server.signingEncode V Es resp') = (st', .ok w) ∧
      Makes V Es b ∧ view st' t!"http://localhost/|dumb" b.handle = some b ∧
      (∀ a, req.assoc = some a → ∀ b', view st' t!"http://localhost/|normal" a.handle = some b' → expired (Es.seconds V) b') ∧
      (∃ q', Brings w q') ∧
    ∀ q', Brings w q' → ∃ body,
    ∀ q2, Dict.WF q2 → (∀ k, q2.get? k = (Dict.ofPairs (Percent.parseQsl true body)).get? k) →
    ∀ (Ea : Server.Env) (op : Option Str) (sta : σ), view sta t!"http://localhost/|dumb" b.handle = some b →
      ¬ expired (Ea.seconds V) b →
      (∀ a, req.assoc = some a → ∀ b', view sta t!"http://localhost/|normal" a.handle = some b' → expired (Ea.seconds V) b') →
    ∃ r2 resp2 kv sta', Server.decode V Ea op q2 = .ok (some (.checkAuth r2)) ∧ r2.assocHandle = b.handle ∧
      Server.Prog.run step Ea.now sta (r2.answer V Ea) = (sta', .ok resp2) ∧
      Server.encode resp2 = .ok ⟨200, none, kv⟩ ∧
    ∀ removed, ∃ s2 m signed, Runs (complete W C E2 s1 q' current)
      ((if C.hasStore then [.store (.getAssociation e.serverUrl (some b.handle)) (.ok (.assoc none))] else []) ++
       [.post e.serverUrl body (.ok ⟨200, Utf8.encode kv⟩)] ++
       (match req.assoc with
         | some a => if C.hasStore then [.store (.removeAssociation e.serverUrl a.handle) (.ok removed)] else []
         | none => []) ++
       (if C.hasStore then
         [.store (if versionOf e = t!"http://openid.net/signon/1.0" then .useNonce [] (E0.now / W.clock.tick : Nat) E0.salt
            else .useNonce e.serverUrl (V.clock.seconds Es.now).toNat Es.salt) (.ok (.bool true))] else []))
      (.ok (s2, .ok (.success (toldOf e anonymous) m signed))) ∧
      Gives (versionOf e) Y (fun u d => getSignedNS m signed (.uri u) = .ok (some d)) := by
  obtain ⟨req', url, hext, hurl, hreq⟩ := asked_and_answered (V := V) (Es := Es) huni hbegin he hr immediate hX
  refine ⟨req', url, hext, hurl, ?_⟩
  intro q hwq hq
  obtain ⟨r, hd, hgx, hrh, hrr, resp, hresp, hrq, hx⟩ := hreq q hwq hq
  obtain ⟨y, hat', hY'⟩ := attach_ok hx hY
  have hB := hY'.bearer hY (version_cases e).symm
  have hsent := extendResponse_eq resp Y
  rw [hat'] at hsent
  obtain ⟨c, hc, c1, c2, c3⟩ := he.claimed
  obtain ⟨i, hi, i1, i2, i3⟩ := he.identity
  have hanon := (begun_eq hbegin).2.1
  have hs1 : s1.token = some e := (c63_session hbegin).1
  have htold : (toldOf e anonymous).serverUrl = e.serverUrl := by rw [toldOf]; split <;> rfl
  obtain ⟨w, st', b, signed, sig, hw1, hm, hv, hv', hbr, hcov, hrun⟩ := run_asked (s1 := s1) (C := C) (E2 := E2) hH hreg hregV
    (resp := { resp with fields := y }) (hY'.tagged hYs) hB (hY'.bearer hYV (version_cases e).symm) hr
    (own_filled (fun _ => ⟨c, hc, c1⟩) (nonce_ne _ _)) he.server.2.2
    (by intro v hv; split at hv; cases hv; rw [hi] at hv; cases hv; exact i2)
    (by intro v hv; split at hv; cases hv; rw [hc] at hv; cases hv; exact c3)
    (fun hv => by
      cases anonymous with
      | true => exact absurd hv (hanon rfl)
      | false => simp [hi]) hf hw hgone hsalt ht0 hts hrh hrr hrq hY'.holds
  refine ⟨r, resp, { resp with fields := y }, w, st', b, hd, hgx, hresp, hsent, hw1, hm, hv, hv', hbr, fun q' hq' => ?_⟩
  obtain ⟨m, m2, hA, body, hbody⟩ := hrun q' hq'
  refine ⟨body, fun q2 hwq2 hq2 Ea op sta v1 v2 v3 => ?_⟩
  obtain ⟨r2, resp2, kv, sta', b1, b0, b2, b3, hfin⟩ := hbody q2 hwq2 hq2 Ea op sta v1 v2 v3
  refine ⟨r2, resp2, kv, sta', b1, b0, b2, b3, fun removed => ?_⟩
  obtain ⟨s2, h⟩ := hfin [] (toldOf e anonymous) htold (by
    rw [hs1]; exact discovery_of (got hA.wf hA.parsed) (versions_of hA.wf hA.parsed hA.ns) (confirmed he hanon hA)) removed
  exact ⟨s2, m, _, h,
    hY'.gives_signed hY hB hY'.holds (assertion_plain _ _ _ _ _ _) hA.carried (.parsed q' m hA.parsed) hcov⟩

/-- **C69** The same when the provider chooses the user, with a shared association. -/
theorem c69_select_shared {σ : Type} {W : Consumer.World} {V : Server.World} (huni : V.uni = W.uni) (hmac : V.mac = W.mac)
    (hH : ∀ t k x, W.mac t k x ≠ []) (hreg : ∀ alias uri, W.reg.get? alias = some uri → uri ≠ t!"sreg")
    {C : Conf} (hC : C.hasStore = true) {E0 E2 : Consumer.Env} {Es : Server.Env}
    {s0 s1 : UserSession} {e : Endpoint} {evs0 : List Ev} {req : AuthRequest}
    (hbegin : Runs (beginWithoutDiscovery W C E0 s0 e false) evs0 (.ok (s1, .ok req))) (he : Choosing e)
    {realm returnTo current : Str} (hr : Returnable W.uni realm returnTo current) (immediate : Bool)
    {a b a' : Assoc} (ha : req.assoc = some a) (hh : Plain a.handle)
    (hat : a.assocType = t!"HMAC-SHA1" ∨ a.assocType = t!"HMAC-SHA256")
    (step : σ → Event → σ × Outcome) (st st' : σ)
    (hst : step st (Es.now, .getAssociation t!"http://localhost/|normal" (some a.handle)) = (st', .ok (.assoc (some b))))
    (hb : SameAssociation a b) (hbx : ¬ expired (Es.seconds V) b)
    (ha' : SameAssociation a a') (hax : ¬ expired (E2.seconds W) a')
    (hsalt : Line Es.salt) (ht0 : E0.now / W.clock.tick < 253402300800) (hts : V.clock.seconds Es.now < 253402300800)
    {identity c : Str} {claimed : Option Str} (hi : Plain identity) (hc : Plain c)
    (hcl : claimed = some c ∨ c = identity ∧ (claimed = none ∨ claimed = some []))
    {found : List Endpoint} {d : Endpoint} (hd : d ∈ found) (hdu : d.serverUrl = e.serverUrl)
    (hag : Spec.Agrees W [t!"http://specs.openid.net/auth/2.0/signon"] d c identity) (url' : Str)
    {X Y : List Extension} (hX : Attachable (versionOf e) V.reg X) (hY : Attachable (versionOf e) W.reg Y) (hYs : Signable Y) :
    ∃ req' url, extendRequest req X = .ok req' ∧ req'.redirectURL realm (some returnTo) immediate = .ok url ∧
    ∀ q, Dict.WF q → (∀ k, q.get? k = (parameters url).get? k) →
    ∃ r resp resp' w, Server.decode V Es (some e.serverUrl) q = .ok (some (.checkId r)) ∧
      Gives (versionOf e) X (fun u d => r.message.getArgs (.uri u) = .ok d) ∧
      r.answer V Es true none (some identity) claimed = .ok resp ∧ extendResponse resp Y = .ok resp' ∧
      Server.Prog.run step Es.now st (Server.signingEncode V Es resp') = (st', .ok w) ∧ (∃ q', Brings w q') ∧
    ∀ q', Brings w q' → ∃ d' ∈ found, Spec.Agrees W [t!"http://specs.openid.net/auth/2.0/signon"] d' c identity ∧
      d'.serverUrl = e.serverUrl ∧ ∃ s2 m signed, Runs (complete W C E2 s1 q' current)
      [.discover c (.ok (url', found)),
       .store (.getAssociation e.serverUrl (some a.handle)) (.ok (.assoc (some a'))),
       .store (.useNonce e.serverUrl (V.clock.seconds Es.now).toNat Es.salt) (.ok (.bool true))]
      (.ok (s2, .ok (.success { d' with claimedId := some c } m signed))) ∧
      Gives (versionOf e) Y (fun u d => getSignedNS m signed (.uri u) = .ok (some d)) := by
  have hver : versionOf e = t!"http://specs.openid.net/auth/2.0" := by rw [versionOf, if_pos (.inl he.type.1)]
  have hgc : (given claimed).or (some identity) = some c := chosen_claimed hc.1 hcl
  obtain ⟨req', url, hext, hurl, hreq⟩ := asked_and_chosen (V := V) (Es := Es) huni hbegin he hr immediate hX (claimed := claimed) hi.1
  refine ⟨req', url, hext, hurl, ?_⟩
  intro q hw hq
  obtain ⟨r, hdec, hgx, hrh, hrr, resp, hresp, hrq, hx⟩ := hreq q hw hq
  rw [hgc] at hx
  obtain ⟨y, hat', hY'⟩ := attach_ok hx hY
  have hB := hY'.bearer hY (version_cases e).symm
  have hsent := extendResponse_eq resp Y
  rw [hat'] at hsent
  have hs1 : s1.token = some e := (c63_session hbegin).1
  obtain ⟨w, signed, sig, hw1, hw2, hcov, hrun⟩ := run_shared (s1 := s1) (E2 := E2) hmac hH hreg hC
    (resp := { resp with fields := y }) (hY'.tagged hYs) hB hr
    (own_filled (fun h => by rw [hver] at h; exact absurd h (by decide)) (nonce_ne _ _)) he.server.2.2
    (by intro v hv; cases hv; exact hi.2) (by intro v hv; cases hv; exact hc.2)
    (fun _ => by simp) hh hat hst hb hbx ha' hax hsalt ht0 hts (by rw [hrh, ha]; rfl) hrr hrq hY'.holds
  refine ⟨r, resp, { resp with fields := y }, w, hdec, hgx, hresp, hsent, hw1, hw2, fun q' hq' => ?_⟩
  obtain ⟨m, m2, hA, hfin⟩ := hrun q' hq'
  have h2 := second_version hver hA
  obtain ⟨d', q1, q2, q3, q4⟩ := discovered_again (url := url') (got hA.wf hA.parsed) h2
    (by rw [hA.args _ (by decide)]; rfl) (by rw [hA.args _ (by decide)]; rfl) (by rw [hA.args _ (by decide)]; rfl)
    he.type.2 hd hag hdu
  obtain ⟨s2, h⟩ := hfin _ { d' with claimedId := some c } q3 (by rw [hs1]; exact q4)
  rw [if_neg (by rw [hver]; decide)] at h
  exact ⟨d', q1, q2, q3, s2, m, _, h,
    hY'.gives_signed hY hB hY'.holds (assertion_plain _ _ _ _ _ _) hA.carried (.parsed q' m hA.parsed) hcov⟩

/-- **C69** The same when the provider chooses the user, without one. -/
theorem c69_select_asked {σ : Type} {W : Consumer.World} {V : Server.World} (huni : V.uni = W.uni)
    (hH : ∀ t k x, V.mac t k x ≠ []) (hreg : ∀ alias uri, W.reg.get? alias = some uri → uri ≠ t!"sreg")
    (hregV : ∀ alias uri, V.reg.get? alias = some uri → uri ≠ t!"sreg")
    {C : Conf} {E0 E2 : Consumer.Env} {Es : Server.Env}
    {s0 s1 : UserSession} {e : Endpoint} {evs0 : List Ev} {req : AuthRequest}
    (hbegin : Runs (beginWithoutDiscovery W C E0 s0 e false) evs0 (.ok (s1, .ok req))) (he : Choosing e)
    {realm returnTo current : Str} (hr : Returnable W.uni realm returnTo current) (immediate : Bool)
    {step : σ → Event → σ × Outcome} {view : σ → AssocMap} (hf : Faithful V.clock step view) (hw : NeverFails step) (st : σ)
    (hgone : ∀ a, req.assoc = some a → Plain a.handle ∧ strip a.handle = a.handle ∧
      ∀ b, view st t!"http://localhost/|normal" a.handle = some b →
        expired (Es.seconds V) b ∧ b.assocType ∈ [t!"HMAC-SHA1", t!"HMAC-SHA256"])
    (hsalt : Line Es.salt) (ht0 : E0.now / W.clock.tick < 253402300800) (hts : V.clock.seconds Es.now < 253402300800)
    {identity c : Str} {claimed : Option Str} (hi : Plain identity) (hc : Plain c)
    (hcl : claimed = some c ∨ c = identity ∧ (claimed = none ∨ claimed = some []))
    {found : List Endpoint} {d : Endpoint} (hd : d ∈ found) (hdu : d.serverUrl = e.serverUrl)
    (hag : Spec.Agrees W [t!"http://specs.openid.net/auth/2.0/signon"] d c identity) (url' : Str)
    {X Y : List Extension} (hX : Attachable (versionOf e) V.reg X) (hY : Attachable (versionOf e) W.reg Y)
    (hYV : Attachable (versionOf e) V.reg Y) (hYs : Signable Y) :
    ∃ req' url, extendRequest req X = .ok req' ∧ req'.redirectURL realm (some returnTo) immediate = .ok url ∧
    ∀ q, Dict.WF q → (∀ k, q.get? k = (parameters url).get? k) →
    ∃ r resp resp' w st' b, Server.decode V Es (some e.serverUrl) q = .ok (some (.checkId r)) ∧
      Gives (versionOf e) X (fun u d => r.message.getArgs (.uri u) = .ok d) ∧
      r.answer V Es true none (some identity) claimed = .ok resp ∧ extendResponse resp Y = .ok resp' ∧
      Server.Prog.run step Es.now st (Server.signingEncode V Es resp') = (st', .ok w) ∧
      Makes V Es b ∧ view st' t!"http://localhost/|dumb" b.handle = some b ∧
      (∀ a, req.assoc = some a → ∀ b', view st' t!"http://localhost/|normal" a.handle = some b' → expired (Es.seconds V) b') ∧
      (∃ q', Brings w q') ∧
    ∀ q', Brings w q' → ∃ body,
    ∀ q2, Dict.WF q2 → (∀ k, q2.get? k = (Dict.ofPairs (Percent.parseQsl true body)).get? k) →
    ∀ (Ea : Server.Env) (op : Option Str) (sta : σ), view sta t!"http://localhost/|dumb" b.handle = some b →
      ¬ expired (Ea.seconds V) b →
      (∀ a, req.assoc = some a → ∀ b', view sta t!"http://localhost/|normal" a.handle = some b' → expired (Ea.seconds V) b') →
    ∃ r2 resp2 kv sta', Server.decode V Ea op q2 = .ok (some (.checkAuth r2)) ∧ r2.assocHandle = b.handle ∧
      Server.Prog.run step Ea.now sta (r2.answer V Ea) = (sta', .ok resp2) ∧
      Server.encode resp2 = .ok ⟨200, none, kv⟩ ∧
    ∀ removed, ∃ d' ∈ found, Spec.Agrees W [t!"http://specs.openid.net/auth/2.0/signon"] d' c identity ∧
      d'.serverUrl = e.serverUrl ∧ ∃ s2 m signed, Runs (complete W C E2 s1 q' current)
      ([.discover c (.ok (url', found))] ++
       (if C.hasStore then [.store (.getAssociation e.serverUrl (some b.handle)) (.ok (.assoc none))] else []) ++
       [.post e.serverUrl body (.ok ⟨200, Utf8.encode kv⟩)] ++
       (match req.assoc with
         | some a => if C.hasStore then [.store (.removeAssociation e.serverUrl a.handle) (.ok removed)] else []
         | none => []) ++
       (if C.hasStore then
         [.store (.useNonce e.serverUrl (V.clock.seconds Es.now).toNat Es.salt) (.ok (.bool true))] else []))
      (.ok (s2, .ok (.success { d' with claimedId := some c } m signed))) ∧
      Gives (versionOf e) Y (fun u d => getSignedNS m signed (.uri u) = .ok (some d)) := by
  have hver : versionOf e = t!"http://specs.openid.net/auth/2.0" := by rw [versionOf, if_pos (.inl he.type.1)]
  have hgc : (given claimed).or (some identity) = some c := chosen_claimed hc.1 hcl
  obtain ⟨req', url, hext, hurl, hreq⟩ := asked_and_chosen (V := V) (Es := Es) huni hbegin he hr immediate hX (claimed := claimed) hi.1
  refine ⟨req', url, hext, hurl, ?_⟩
  intro q hwq hq
  obtain ⟨r, hdec, hgx, hrh, hrr, resp, hresp, hrq, hx⟩ := hreq q hwq hq
  rw [hgc] at hx
  obtain ⟨y, hat', hY'⟩ := attach_ok hx hY
  have hB := hY'.bearer hY (version_cases e).symm
  have hsent := extendResponse_eq resp Y
  rw [hat'] at hsent
  have hs1 : s1.token = some e := (c63_session hbegin).1
  obtain ⟨w, st', b, signed, sig, hw1, hm, hv, hv', hbr, hcov, hrun⟩ := run_asked (s1 := s1) (C := C) (E2 := E2) hH hreg hregV
    (resp := { resp with fields := y }) (hY'.tagged hYs) hB (hY'.bearer hYV (version_cases e).symm) hr
    (own_filled (fun h => by rw [hver] at h; exact absurd h (by decide)) (nonce_ne _ _)) he.server.2.2
    (by intro v hv; cases hv; exact hi.2) (by intro v hv; cases hv; exact hc.2)
    (fun _ => by simp) hf hw hgone hsalt ht0 hts hrh hrr hrq hY'.holds
  refine ⟨r, resp, { resp with fields := y }, w, st', b, hdec, hgx, hresp, hsent, hw1, hm, hv, hv', hbr, fun q' hq' => ?_⟩
  obtain ⟨m, m2, hA, body, hbody⟩ := hrun q' hq'
  refine ⟨body, fun q2 hwq2 hq2 Ea op sta v1 v2 v3 => ?_⟩
  obtain ⟨r2, resp2, kv, sta', b1, b0, b2, b3, hfin⟩ := hbody q2 hwq2 hq2 Ea op sta v1 v2 v3
  refine ⟨r2, resp2, kv, sta', b1, b0, b2, b3, fun removed => ?_⟩
  have h2 := second_version hver hA
  obtain ⟨d', q1, q2, q3, q4⟩ := discovered_again (url := url') (got hA.wf hA.parsed) h2
    (by rw [hA.args _ (by decide)]; rfl) (by rw [hA.args _ (by decide)]; rfl) (by rw [hA.args _ (by decide)]; rfl)
    he.type.2 hd hag hdu
  obtain ⟨s2, h⟩ := hfin _ { d' with claimedId := some c } q3 (by rw [hs1]; exact q4) removed
  rw [if_neg (show ¬ versionOf e = t!"http://openid.net/signon/1.0" by rw [hver]; decide)] at h
  refine ⟨d', q1, q2, q3, s2, m, _, ?_,
    hY'.gives_signed hY hB hY'.holds (assertion_plain _ _ _ _ _ _) hA.carried (.parsed q' m hA.parsed) hcov⟩
  simp only [List.append_assoc] at h ⊢
  exact h

theorem no_extensions (version : Str) (reg : Dict Str Str) : Attachable version reg [] :=
  ⟨List.nodup_nil, List.nodup_nil, by simp, by simp, by simp⟩

/-- **C41** Any request for a user whose endpoint is known, of OpenID 1 or 2, anonymous or not, immediate or not: with an
    association that the consumer and the provider share, the provider can decode it and answer it; and whatever way the
    answer comes back, it is accepted, for the endpoint asked about.  The store of the consumer is asked for the
    association and for the nonce, once each. -/
theorem c41_shared {σ : Type} {W : Consumer.World} {V : Server.World} (huni : V.uni = W.uni) (hmac : V.mac = W.mac)
    (hH : ∀ t k x, W.mac t k x ≠ []) (hreg : ∀ alias uri, W.reg.get? alias = some uri → uri ≠ t!"sreg")
    {C : Conf} (hC : C.hasStore = true) {E0 E2 : Consumer.Env} {Es : Server.Env}
    {s0 s1 : UserSession} {e : Endpoint} {anonymous : Bool} {evs0 : List Ev} {req : AuthRequest}
    (hbegin : Runs (beginWithoutDiscovery W C E0 s0 e anonymous) evs0 (.ok (s1, .ok req))) (he : Askable e)
    {realm returnTo current : Str} (hr : Returnable W.uni realm returnTo current) (immediate : Bool)
    {a b a' : Assoc} (ha : req.assoc = some a) (hh : Plain a.handle)
    (hat : a.assocType = t!"HMAC-SHA1" ∨ a.assocType = t!"HMAC-SHA256")
    (step : σ → Event → σ × Outcome) (st st' : σ)
    (hst : step st (Es.now, .getAssociation t!"http://localhost/|normal" (some a.handle)) = (st', .ok (.assoc (some b))))
    (hb : SameAssociation a b) (hbx : ¬ expired (Es.seconds V) b)
    (ha' : SameAssociation a a') (hax : ¬ expired (E2.seconds W) a')
    (hsalt : Line Es.salt) (ht0 : E0.now / W.clock.tick < 253402300800) (hts : V.clock.seconds Es.now < 253402300800) :
    ∃ url, req.redirectURL realm (some returnTo) immediate = .ok url ∧
    ∀ q, Dict.WF q → (∀ k, q.get? k = (parameters url).get? k) →
    ∃ r resp w, Server.decode V Es (some e.serverUrl) q = .ok (some (.checkId r)) ∧
      r.answer V Es true none none none = .ok resp ∧
      Server.Prog.run step Es.now st (Server.signingEncode V Es resp) = (st', .ok w) ∧ (∃ q', Brings w q') ∧
    ∀ q', Brings w q' → ∃ s2 m signed, Runs (complete W C E2 s1 q' current)
      [.store (.getAssociation e.serverUrl (some a.handle)) (.ok (.assoc (some a'))),
       .store (if versionOf e = t!"http://openid.net/signon/1.0" then .useNonce [] (E0.now / W.clock.tick : Nat) E0.salt
          else .useNonce e.serverUrl (V.clock.seconds Es.now).toNat Es.salt) (.ok (.bool true))]
      (.ok (s2, .ok (.success (toldOf e anonymous) m signed))) := by
  obtain ⟨req', url, h1, h2, h3⟩ := c69_shared huni hmac hH hreg hC hbegin he hr immediate ha hh hat step st st' hst hb hbx ha' hax hsalt ht0 hts
    (no_extensions _ _) (no_extensions _ _) (fun _ h => nomatch h)
  cases h1
  refine ⟨url, h2, fun q g1 g2 => ?_⟩
  obtain ⟨r, resp, resp', w, h4, -, h5, h6, h7, h8, h9⟩ := h3 q g1 g2
  cases h6
  refine ⟨r, resp, w, h4, h5, h7, h8, fun q' g3 => ?_⟩
  obtain ⟨s2, m, signed, h10, -⟩ := h9 q' g3
  exact ⟨s2, m, signed, h10⟩

/-- **C41** The same without a shared association, or with one that the provider no longer has: the provider signs with one
    it makes for this and, in the second case, says that the other is no longer good.  The consumer asks the provider, in a
    form (`body`) that the provider can read, about any answer that comes back; and while the provider still has the
    association it answered with, the reply makes the consumer accept, and forget the association that is no longer good.
    If the consumer has a store, it is asked for the association first and for the nonce at the end. -/
theorem c41_asked {σ : Type} {W : Consumer.World} {V : Server.World} (huni : V.uni = W.uni)
    (hH : ∀ t k x, V.mac t k x ≠ []) (hreg : ∀ alias uri, W.reg.get? alias = some uri → uri ≠ t!"sreg")
    (hregV : ∀ alias uri, V.reg.get? alias = some uri → uri ≠ t!"sreg")
    {C : Conf} {E0 E2 : Consumer.Env} {Es : Server.Env}
    {s0 s1 : UserSession} {e : Endpoint} {anonymous : Bool} {evs0 : List Ev} {req : AuthRequest}
    (hbegin : Runs (beginWithoutDiscovery W C E0 s0 e anonymous) evs0 (.ok (s1, .ok req))) (he : Askable e)
    {realm returnTo current : Str} (hr : Returnable W.uni realm returnTo current) (immediate : Bool)
    {step : σ → Event → σ × Outcome} {view : σ → AssocMap} (hf : Faithful V.clock step view) (hw : NeverFails step) (st : σ)
    (hgone : ∀ a, req.assoc = some a → Plain a.handle ∧ strip a.handle = a.handle ∧
      ∀ b, view st t!"http://localhost/|normal" a.handle = some b →
        expired (Es.seconds V) b ∧ b.assocType ∈ [t!"HMAC-SHA1", t!"HMAC-SHA256"])
    (hsalt : Line Es.salt) (ht0 : E0.now / W.clock.tick < 253402300800) (hts : V.clock.seconds Es.now < 253402300800) :
    ∃ url, req.redirectURL realm (some returnTo) immediate = .ok url ∧
    ∀ q, Dict.WF q → (∀ k, q.get? k = (parameters url).get? k) →
    ∃ r resp w st' b, Server.decode V Es (some e.serverUrl) q = .ok (some (.checkId r)) ∧
      r.answer V Es true none none none = .ok resp ∧
      Server.Prog.run step Es.now st (Server.signingEncode V Es resp) = (st', .ok w) ∧
      Makes V Es b ∧ view st' t!"http://localhost/|dumb" b.handle = some b ∧
      (∀ a, req.assoc = some a → ∀ b', view st' t!"http://localhost/|normal" a.handle = some b' → expired (Es.seconds V) b') ∧
      (∃ q', Brings w q') ∧
    ∀ q', Brings w q' → ∃ body,
    ∀ q2, Dict.WF q2 → (∀ k, q2.get? k = (Dict.ofPairs (Percent.parseQsl true body)).get? k) →
    ∀ (Ea : Server.Env) (op : Option Str) (sta : σ), view sta t!"http://localhost/|dumb" b.handle = some b →
      ¬ expired (Ea.seconds V) b →
      (∀ a, req.assoc = some a → ∀ b', view sta t!"http://localhost/|normal" a.handle = some b' → expired (Ea.seconds V) b') →
    ∃ r2 resp2 kv sta', Server.decode V Ea op q2 = .ok (some (.checkAuth r2)) ∧
      Server.Prog.run step Ea.now sta (r2.answer V Ea) = (sta', .ok resp2) ∧
      Server.encode resp2 = .ok ⟨200, none, kv⟩ ∧
    ∀ removed, ∃ s2 m signed, Runs (complete W C E2 s1 q' current)
      ((if C.hasStore then [.store (.getAssociation e.serverUrl (some b.handle)) (.ok (.assoc none))] else []) ++
       [.post e.serverUrl body (.ok ⟨200, Utf8.encode kv⟩)] ++
       (match req.assoc with
         | some a => if C.hasStore then [.store (.removeAssociation e.serverUrl a.handle) (.ok removed)] else []
         | none => []) ++
       (if C.hasStore then
         [.store (if versionOf e = t!"http://openid.net/signon/1.0" then .useNonce [] (E0.now / W.clock.tick : Nat) E0.salt
            else .useNonce e.serverUrl (V.clock.seconds Es.now).toNat Es.salt) (.ok (.bool true))] else []))
      (.ok (s2, .ok (.success (toldOf e anonymous) m signed))) := by
  obtain ⟨req', url, h1, h2, h3⟩ := c69_asked huni hH hreg hregV hbegin he hr immediate hf hw st hgone hsalt ht0 hts
    (no_extensions _ _) (no_extensions _ _) (no_extensions _ _) (fun _ h => nomatch h)
  cases h1
  refine ⟨url, h2, fun q g1 g2 => ?_⟩
  obtain ⟨r, resp, resp', w, st', b, h4, -, h5, h6, h7, h8, h9, h10, h11, h12⟩ := h3 q g1 g2
  cases h6
  refine ⟨r, resp, w, st', b, h4, h5, h7, h8, h9, h10, h11, fun q' g3 => ?_⟩
  obtain ⟨body, hbody⟩ := h12 q' g3
  refine ⟨body, fun q2 g4 g5 Ea op sta g6 g7 g8 => ?_⟩
  obtain ⟨r2, resp2, kv, sta', j1, -, j2, j3, j4⟩ := hbody q2 g4 g5 Ea op sta g6 g7 g8
  refine ⟨r2, resp2, kv, sta', j1, j2, j3, fun removed => ?_⟩
  obtain ⟨s2, m, signed, k4, -⟩ := j4 removed
  exact ⟨s2, m, signed, k4⟩

/-- **C41** The provider is to choose the user, and says yes for one, perhaps with a fragment in the claimed identifier: with
    an association that both share, the answer is accepted if discovery on the claimed identifier finds, among what else
    there may be, the provider's endpoint for this identity.  The application is told of an endpoint that was found, with
    the claimed identifier of the answer. -/
theorem c41_select_shared {σ : Type} {W : Consumer.World} {V : Server.World} (huni : V.uni = W.uni) (hmac : V.mac = W.mac)
    (hH : ∀ t k x, W.mac t k x ≠ []) (hreg : ∀ alias uri, W.reg.get? alias = some uri → uri ≠ t!"sreg")
    {C : Conf} (hC : C.hasStore = true) {E0 E2 : Consumer.Env} {Es : Server.Env}
    {s0 s1 : UserSession} {e : Endpoint} {evs0 : List Ev} {req : AuthRequest}
    (hbegin : Runs (beginWithoutDiscovery W C E0 s0 e false) evs0 (.ok (s1, .ok req))) (he : Choosing e)
    {realm returnTo current : Str} (hr : Returnable W.uni realm returnTo current) (immediate : Bool)
    {a b a' : Assoc} (ha : req.assoc = some a) (hh : Plain a.handle)
    (hat : a.assocType = t!"HMAC-SHA1" ∨ a.assocType = t!"HMAC-SHA256")
    (step : σ → Event → σ × Outcome) (st st' : σ)
    (hst : step st (Es.now, .getAssociation t!"http://localhost/|normal" (some a.handle)) = (st', .ok (.assoc (some b))))
    (hb : SameAssociation a b) (hbx : ¬ expired (Es.seconds V) b)
    (ha' : SameAssociation a a') (hax : ¬ expired (E2.seconds W) a')
    (hsalt : Line Es.salt) (ht0 : E0.now / W.clock.tick < 253402300800) (hts : V.clock.seconds Es.now < 253402300800)
    {identity c : Str} {claimed : Option Str} (hi : Plain identity) (hc : Plain c)
    (hcl : claimed = some c ∨ c = identity ∧ (claimed = none ∨ claimed = some []))
    {found : List Endpoint} {d : Endpoint} (hd : d ∈ found) (hdu : d.serverUrl = e.serverUrl)
    (hag : Spec.Agrees W [t!"http://specs.openid.net/auth/2.0/signon"] d c identity) (url' : Str) :
    ∃ url, req.redirectURL realm (some returnTo) immediate = .ok url ∧
    ∀ q, Dict.WF q → (∀ k, q.get? k = (parameters url).get? k) →
    ∃ r resp w, Server.decode V Es (some e.serverUrl) q = .ok (some (.checkId r)) ∧
      r.answer V Es true none (some identity) claimed = .ok resp ∧
      Server.Prog.run step Es.now st (Server.signingEncode V Es resp) = (st', .ok w) ∧ (∃ q', Brings w q') ∧
    ∀ q', Brings w q' → ∃ d' ∈ found, Spec.Agrees W [t!"http://specs.openid.net/auth/2.0/signon"] d' c identity ∧
      d'.serverUrl = e.serverUrl ∧ ∃ s2 m signed, Runs (complete W C E2 s1 q' current)
      [.discover c (.ok (url', found)),
       .store (.getAssociation e.serverUrl (some a.handle)) (.ok (.assoc (some a'))),
       .store (.useNonce e.serverUrl (V.clock.seconds Es.now).toNat Es.salt) (.ok (.bool true))]
      (.ok (s2, .ok (.success { d' with claimedId := some c } m signed))) := by
  obtain ⟨req', url, h1, h2, h3⟩ := c69_select_shared huni hmac hH hreg hC hbegin he hr immediate ha hh hat step st st' hst hb hbx ha' hax hsalt ht0 hts hi hc hcl hd hdu hag url'
    (no_extensions _ _) (no_extensions _ _) (fun _ h => nomatch h)
  cases h1
  refine ⟨url, h2, fun q g1 g2 => ?_⟩
  obtain ⟨r, resp, resp', w, h4, -, h5, h6, h7, h8, h9⟩ := h3 q g1 g2
  cases h6
  refine ⟨r, resp, w, h4, h5, h7, h8, fun q' g3 => ?_⟩
  obtain ⟨d', k1, k2, k3, s2, m, signed, k4, -⟩ := h9 q' g3
  exact ⟨d', k1, k2, k3, s2, m, signed, k4⟩

/-- **C41** The same without a shared association, or with one that the provider no longer has. -/
theorem c41_select_asked {σ : Type} {W : Consumer.World} {V : Server.World} (huni : V.uni = W.uni)
    (hH : ∀ t k x, V.mac t k x ≠ []) (hreg : ∀ alias uri, W.reg.get? alias = some uri → uri ≠ t!"sreg")
    (hregV : ∀ alias uri, V.reg.get? alias = some uri → uri ≠ t!"sreg")
    {C : Conf} {E0 E2 : Consumer.Env} {Es : Server.Env}
    {s0 s1 : UserSession} {e : Endpoint} {evs0 : List Ev} {req : AuthRequest}
    (hbegin : Runs (beginWithoutDiscovery W C E0 s0 e false) evs0 (.ok (s1, .ok req))) (he : Choosing e)
    {realm returnTo current : Str} (hr : Returnable W.uni realm returnTo current) (immediate : Bool)
    {step : σ → Event → σ × Outcome} {view : σ → AssocMap} (hf : Faithful V.clock step view) (hw : NeverFails step) (st : σ)
    (hgone : ∀ a, req.assoc = some a → Plain a.handle ∧ strip a.handle = a.handle ∧
      ∀ b, view st t!"http://localhost/|normal" a.handle = some b →
        expired (Es.seconds V) b ∧ b.assocType ∈ [t!"HMAC-SHA1", t!"HMAC-SHA256"])
    (hsalt : Line Es.salt) (ht0 : E0.now / W.clock.tick < 253402300800) (hts : V.clock.seconds Es.now < 253402300800)
    {identity c : Str} {claimed : Option Str} (hi : Plain identity) (hc : Plain c)
    (hcl : claimed = some c ∨ c = identity ∧ (claimed = none ∨ claimed = some []))
    {found : List Endpoint} {d : Endpoint} (hd : d ∈ found) (hdu : d.serverUrl = e.serverUrl)
    (hag : Spec.Agrees W [t!"http://specs.openid.net/auth/2.0/signon"] d c identity) (url' : Str) :
    ∃ url, req.redirectURL realm (some returnTo) immediate = .ok url ∧
    ∀ q, Dict.WF q → (∀ k, q.get? k = (parameters url).get? k) →
    ∃ r resp w st' b, Server.decode V Es (some e.serverUrl) q = .ok (some (.checkId r)) ∧
      r.answer V Es true none (some identity) claimed = .ok resp ∧
      Server.Prog.run step Es.now st (Server.signingEncode V Es resp) = (st', .ok w) ∧
      Makes V Es b ∧ view st' t!"http://localhost/|dumb" b.handle = some b ∧
      (∀ a, req.assoc = some a → ∀ b', view st' t!"http://localhost/|normal" a.handle = some b' → expired (Es.seconds V) b') ∧
      (∃ q', Brings w q') ∧
    ∀ q', Brings w q' → ∃ body,
    ∀ q2, Dict.WF q2 → (∀ k, q2.get? k = (Dict.ofPairs (Percent.parseQsl true body)).get? k) →
    ∀ (Ea : Server.Env) (op : Option Str) (sta : σ), view sta t!"http://localhost/|dumb" b.handle = some b →
      ¬ expired (Ea.seconds V) b →
      (∀ a, req.assoc = some a → ∀ b', view sta t!"http://localhost/|normal" a.handle = some b' → expired (Ea.seconds V) b') →
    ∃ r2 resp2 kv sta', Server.decode V Ea op q2 = .ok (some (.checkAuth r2)) ∧
      Server.Prog.run step Ea.now sta (r2.answer V Ea) = (sta', .ok resp2) ∧
      Server.encode resp2 = .ok ⟨200, none, kv⟩ ∧
    ∀ removed, ∃ d' ∈ found, Spec.Agrees W [t!"http://specs.openid.net/auth/2.0/signon"] d' c identity ∧
      d'.serverUrl = e.serverUrl ∧ ∃ s2 m signed, Runs (complete W C E2 s1 q' current)
      ([.discover c (.ok (url', found))] ++
       (if C.hasStore then [.store (.getAssociation e.serverUrl (some b.handle)) (.ok (.assoc none))] else []) ++
       [.post e.serverUrl body (.ok ⟨200, Utf8.encode kv⟩)] ++
       (match req.assoc with
         | some a => if C.hasStore then [.store (.removeAssociation e.serverUrl a.handle) (.ok removed)] else []
         | none => []) ++
       (if C.hasStore then
         [.store (.useNonce e.serverUrl (V.clock.seconds Es.now).toNat Es.salt) (.ok (.bool true))] else []))
      (.ok (s2, .ok (.success { d' with claimedId := some c } m signed))) := by
  obtain ⟨req', url, h1, h2, h3⟩ := c69_select_asked huni hH hreg hregV hbegin he hr immediate hf hw st hgone hsalt ht0 hts hi hc hcl hd hdu hag url'
    (no_extensions _ _) (no_extensions _ _) (no_extensions _ _) (fun _ h => nomatch h)
  cases h1
  refine ⟨url, h2, fun q g1 g2 => ?_⟩
  obtain ⟨r, resp, resp', w, st', b, h4, -, h5, h6, h7, h8, h9, h10, h11, h12⟩ := h3 q g1 g2
  cases h6
  refine ⟨r, resp, w, st', b, h4, h5, h7, h8, h9, h10, h11, fun q' g3 => ?_⟩
  obtain ⟨body, hbody⟩ := h12 q' g3
  refine ⟨body, fun q2 g4 g5 Ea op sta g6 g7 g8 => ?_⟩
  obtain ⟨r2, resp2, kv, sta', j1, -, j2, j3, j4⟩ := hbody q2 g4 g5 Ea op sta g6 g7 g8
  refine ⟨r2, resp2, kv, sta', j1, j2, j3, fun removed => ?_⟩
  obtain ⟨d', k1, k2, k3, s2, m, signed, k4, -⟩ := j4 removed
  exact ⟨d', k1, k2, k3, s2, m, signed, k4⟩

theorem askable0 : Askable endpoint0 :=
  ⟨by decide, by decide +kernel, by decide, ⟨_, rfl, by decide⟩, ⟨_, rfl, by decide⟩⟩

theorem returnable0 : Returnable uni0 t!"http://*.example/" t!"http://rp.example/back?x=1" t!"HTTP://rp.example:80/back" where
  plain := by decide
  names := by decide +kernel
  free := by decide +kernel
  realm := by
    refine ⟨⟨t!"http", t!"*.example", none, t!"/"⟩, ⟨t!"http", t!"rp.example", none, t!"/back?x=1"⟩, by decide +kernel,
      ⟨by decide, .inr (.inr ⟨t!"example", by decide⟩)⟩, by decide +kernel, ⟨by decide, .inl (by decide)⟩,
      ⟨rfl, rfl, ⟨by decide, .inr (.inr ⟨t!"example", rfl, .inr ⟨t!"rp", rfl⟩⟩)⟩, ?_⟩⟩
    exact .inr ⟨t!"back?x=1", rfl, by decide⟩
  here := by
    refine ⟨t!"http://rp.example/back", t!"http://rp.example/back?x=1", ⟨t!"http", t!"rp.example", t!"/back", [], [], []⟩, ⟨t!"http", t!"rp.example", t!"/back", [], t!"x=1", []⟩, ?_⟩
    decide +kernel
  tidy := by
    intro n hn
    have h : Urinorm.urinorm uni0 t!"http://rp.example/back?x=1" = .ok t!"http://rp.example/back?x=1" := by decide +kernel
    rw [h] at hn; cases hn
    exact ⟨by decide, fun _ => ⟨(t!"x", t!"1"), by decide +kernel⟩⟩

theorem begunShared0 : ∃ s1 req, Runs (beginWithoutDiscovery cworld0 cconf0 cenv0 ⟨none, none⟩ endpoint0 false)
    [.store (.getAssociation t!"http://op.example/" none) (.ok (.assoc (some cassoc0)))] (.ok (s1, .ok req)) ∧
    req.assoc = some cassoc0 := by
  obtain ⟨r, h1, h2⟩ := check_play (p := beginWithoutDiscovery cworld0 cconf0 cenv0 ⟨none, none⟩ endpoint0 false)
    (evs := [.store (.getAssociation t!"http://op.example/" none) (.ok (.assoc (some cassoc0)))])
    (f := fun r => match r with
      | .ok (_, .ok req) => decide (req.assoc = some cassoc0)
      | _ => false) (by decide +kernel)
  match r, h2 with
  | .ok (s1, .ok req), h2 => exact ⟨s1, req, h1, by simpa using h2⟩

/-- the provider's store, with its copy of the association in it -/
def pstore0 : MemStore.Kept := (MemStore.keptStep clock0 MemStore.keptInit
  (0, .storeAssociation t!"http://localhost/|normal" { cassoc0 with issued := 3 })).1

-- an association and its two copies; the run ends with the user's endpoint
example : ∃ (evs : List Ev) (s1 : UserSession) (q' : Dict Str Str) (s2 : UserSession) (m : Msg) (signed : List Str),
    Runs (complete cworld0 cconf0 cenv0 s1 q' t!"HTTP://rp.example:80/back") evs (.ok (s2, .ok (.success endpoint0 m signed))) := by
  obtain ⟨s1, req, h, ha⟩ := begunShared0
  obtain ⟨url, hu, hq⟩ := c41_shared (V := sworld0) (Es := senv0) (E2 := cenv0) rfl rfl
    (by intro t k x; simp [cworld0, sworld0, smac0]) (by intro alias uri h; simp [cworld0, sworld0] at h) rfl h askable0
    returnable0 false ha (by decide) (by decide) (MemStore.keptStep clock0) pstore0 _
    (b := { cassoc0 with issued := 3 }) (Prod.ext rfl (by decide +kernel)) ⟨rfl, rfl, rfl⟩ (by decide +kernel)
    (a' := cassoc0) ⟨rfl, rfl, rfl⟩ (by decide +kernel) (by decide) (by decide) (by decide)
  obtain ⟨r, resp, w, -, -, -, ⟨q', hb⟩, hw⟩ := hq (parameters url) (Dict.WF_ofPairs _) (fun _ => rfl)
  obtain ⟨s2, m, signed, hd⟩ := hw q' hb
  exact ⟨_, s1, q', s2, m, signed, hd⟩

/-- a request for simple registration data -/
def wants0 : Extension := ⟨t!"http://openid.net/extensions/sreg/1.1", t!"sreg", [(t!"optional", t!"nickname,email")]⟩

/-- the answer, and that of another extension which uses a name of the first -/
def gets0 : List Extension :=
  [⟨t!"http://openid.net/extensions/sreg/1.1", t!"sreg", [(t!"nickname", t!"J. Döe"), (t!"email", [])]⟩,
   ⟨t!"http://openid.net/srv/ax/1.0", t!"ax", [(t!"mode", t!"fetch_response"), (t!"value.sreg", t!"a:b,c")]⟩]

-- OpenID 1: the aliases must be registered
example : Attachable t!"http://openid.net/signon/1.0" [(t!"sreg", t!"http://openid.net/extensions/sreg/1.1")] [wants0] :=
  ⟨by decide, by decide, by decide, by simp [wants0, Dict.WF, Dict.keys], by decide⟩

theorem attachable0 : Attachable (versionOf endpoint0) [] gets0 :=
  ⟨by decide, by decide, by decide, by simp [gets0, Dict.WF, Dict.keys], by decide⟩

-- with extensions: the run ends with their data
example : ∃ (evs : List Ev) (s1 : UserSession) (q' : Dict Str Str) (s2 : UserSession) (m : Msg) (signed : List Str) (d : Dict Str Str),
    Runs (complete cworld0 cconf0 cenv0 s1 q' t!"HTTP://rp.example:80/back") evs (.ok (s2, .ok (.success endpoint0 m signed))) ∧
    getSignedNS m signed (.uri t!"http://openid.net/srv/ax/1.0") = .ok (some d) ∧ d.get? t!"value.sreg" = some t!"a:b,c" := by
  obtain ⟨s1, req, h, ha⟩ := begunShared0
  obtain ⟨req', url, -, hu, hq⟩ := c69_shared (V := sworld0) (Es := senv0) (E2 := cenv0) rfl rfl
    (by intro t k x; simp [cworld0, sworld0, smac0]) (by intro alias uri h; simp [cworld0, sworld0] at h) rfl h askable0
    returnable0 false ha (by decide) (by decide) (MemStore.keptStep clock0) pstore0 _
    (b := { cassoc0 with issued := 3 }) (Prod.ext rfl (by decide +kernel)) ⟨rfl, rfl, rfl⟩ (by decide +kernel)
    (a' := cassoc0) ⟨rfl, rfl, rfl⟩ (by decide +kernel) (by decide) (by decide) (by decide)
    (X := [wants0]) (Y := gets0) ⟨by decide, by decide, by decide, by simp [wants0, Dict.WF, Dict.keys], by decide⟩
    attachable0 (by decide)
  obtain ⟨r, resp, resp', w, -, -, -, -, -, ⟨q', hb⟩, hw⟩ := hq (parameters url) (Dict.WF_ofPairs _) (fun _ => rfl)
  obtain ⟨s2, m, signed, hd, hg, -⟩ := hw q' hb
  obtain ⟨d, g1, -, g2⟩ := hg ⟨t!"http://openid.net/srv/ax/1.0", t!"ax", [(t!"mode", t!"fetch_response"), (t!"value.sreg", t!"a:b,c")]⟩
    (by simp [gets0])
  exact ⟨_, s1, q', s2, m, signed, d, hd, g1, by rw [g2]; decide⟩

theorem begunPlain0 : ∃ s1 req, Runs (beginWithoutDiscovery cworld0 ⟨false, []⟩ cenv0 ⟨none, none⟩ endpoint0 true)
    [] (.ok (s1, .ok req)) ∧ req.assoc = none := by
  obtain ⟨r, h1, h2⟩ := check_play (p := beginWithoutDiscovery cworld0 ⟨false, []⟩ cenv0 ⟨none, none⟩ endpoint0 true)
    (evs := [])
    (f := fun r => match r with
      | .ok (_, .ok req) => decide (req.assoc = none)
      | _ => false) (by decide +kernel)
  match r, h2 with
  | .ok (s1, .ok req), h2 => exact ⟨s1, req, h1, by simpa using h2⟩

-- the provider's store is empty: the association is forgotten by the consumer as well
example : ∃ (evs : List Ev) (s1 : UserSession) (q' : Dict Str Str) (s2 : UserSession) (m : Msg) (signed : List Str),
    (.store (.removeAssociation endpoint0.serverUrl cassoc0.handle) (.ok (.bool true))) ∈ evs ∧
    Runs (complete cworld0 cconf0 cenv0 s1 q' t!"HTTP://rp.example:80/back") evs (.ok (s2, .ok (.success endpoint0 m signed))) := by
  obtain ⟨s1, req, h, ha⟩ := begunShared0
  obtain ⟨url, hu, hq⟩ := c41_asked (V := sworld0) (Es := senv0) (E2 := cenv0) rfl
    (by intro t k x; simp [sworld0, smac0]) (by intro alias uri h; simp [cworld0, sworld0] at h)
    (by intro alias uri h; simp [sworld0] at h) h askable0
    returnable0 false (c30_memory_store clock0) (fun _ _ _ _ => ⟨_, rfl⟩) MemStore.keptInit (by
      intro a h; rw [ha] at h; cases h
      refine ⟨by decide, by decide +kernel, fun b hb => ?_⟩
      have : MemStore.keptView MemStore.keptInit t!"http://localhost/|normal" cassoc0.handle = none := rfl
      rw [this] at hb; cases hb) (by decide) (by decide) (by decide)
  obtain ⟨r, resp, w, st', b, -, -, -, hm, hv, hv', ⟨q', hb⟩, hw⟩ := hq (parameters url) (Dict.WF_ofPairs _) (fun _ => rfl)
  obtain ⟨body, hbody⟩ := hw q' hb
  obtain ⟨n, -, -, hi, hl, -⟩ := hm
  obtain ⟨r2, resp2, kv, sta', -, -, -, hr⟩ := hbody _ (Dict.WF_ofPairs _) (fun _ => rfl) senv0 none st' hv (by
    unfold expired; rw [hi, hl]; simp [Server.Env.seconds]; decide) hv'
  obtain ⟨s2, m, signed, hd⟩ := hr (.bool true)
  rw [ha] at hd
  exact ⟨_, s1, q', s2, m, signed, by simp [cconf0], hd⟩

-- without a store, and anonymous
example : ∃ (evs : List Ev) (s1 : UserSession) (q' : Dict Str Str) (s2 : UserSession) (m : Msg) (signed : List Str),
    Runs (complete cworld0 ⟨false, []⟩ cenv0 s1 q' t!"HTTP://rp.example:80/back") evs
      (.ok (s2, .ok (.success (toldOf endpoint0 true) m signed))) := by
  obtain ⟨s1, req, h, ha⟩ := begunPlain0
  obtain ⟨url, hu, hq⟩ := c41_asked (V := sworld0) (Es := senv0) (E2 := cenv0) rfl
    (by intro t k x; simp [sworld0, smac0]) (by intro alias uri h; simp [cworld0, sworld0] at h)
    (by intro alias uri h; simp [sworld0] at h) h askable0
    returnable0 false (c30_memory_store clock0) (fun _ _ _ _ => ⟨_, rfl⟩) MemStore.keptInit (by
      intro a h; rw [ha] at h; cases h) (by decide) (by decide) (by decide)
  obtain ⟨r, resp, w, st', b, -, -, -, hm, hv, hv', ⟨q', hb⟩, hw⟩ := hq (parameters url) (Dict.WF_ofPairs _) (fun _ => rfl)
  obtain ⟨body, hbody⟩ := hw q' hb
  obtain ⟨n, -, -, hi, hl, -⟩ := hm
  obtain ⟨r2, resp2, kv, sta', -, -, -, hr⟩ := hbody _ (Dict.WF_ofPairs _) (fun _ => rfl) senv0 none st' hv (by
    unfold expired; rw [hi, hl]; simp [Server.Env.seconds]; decide) (by intro a h; rw [ha] at h; cases h)
  obtain ⟨s2, m, signed, hd⟩ := hr (.bool true)
  exact ⟨_, s1, q', s2, m, signed, hd⟩

/-- an endpoint whose provider chooses the user -/
def chooser0 : Endpoint :=
  ⟨none, t!"http://op.example/", [t!"http://specs.openid.net/auth/2.0/server"], none, none, true, none⟩

theorem choosing0 : Choosing chooser0 := ⟨by decide, by decide +kernel, by decide⟩

theorem begunChooser0 : ∃ s1 req, Runs (beginWithoutDiscovery cworld0 cconf0 cenv0 ⟨none, none⟩ chooser0 false)
    [.store (.getAssociation t!"http://op.example/" none) (.ok (.assoc (some cassoc0)))] (.ok (s1, .ok req)) ∧
    req.assoc = some cassoc0 := by
  obtain ⟨r, h1, h2⟩ := check_play (p := beginWithoutDiscovery cworld0 cconf0 cenv0 ⟨none, none⟩ chooser0 false)
    (evs := [.store (.getAssociation t!"http://op.example/" none) (.ok (.assoc (some cassoc0)))])
    (f := fun r => match r with
      | .ok (_, .ok req) => decide (req.assoc = some cassoc0)
      | _ => false) (by decide +kernel)
  match r, h2 with
  | .ok (s1, .ok req), h2 => exact ⟨s1, req, h1, by simpa using h2⟩

theorem agrees0 : Spec.Agrees cworld0 [t!"http://specs.openid.net/auth/2.0/signon"] endpoint0 t!"http://u.example/#f"
    t!"http://op.example/u" :=
  ⟨by decide, ⟨t!"http://u.example/", t!"f", by decide +kernel⟩, by decide⟩

-- the answer names a user, with a fragment; discovery finds two endpoints, of which the second is the right one
example : ∃ (evs : List Ev) (s1 : UserSession) (q' : Dict Str Str) (s2 : UserSession) (m : Msg) (signed : List Str),
    Runs (complete cworld0 cconf0 cenv0 s1 q' t!"HTTP://rp.example:80/back") evs
      (.ok (s2, .ok (.success { endpoint0 with claimedId := some t!"http://u.example/#f" } m signed))) := by
  obtain ⟨s1, req, h, ha⟩ := begunChooser0
  obtain ⟨url, hu, hq⟩ := c41_select_shared (V := sworld0) (Es := senv0) (E2 := cenv0) rfl rfl
    (by intro t k x; simp [cworld0, sworld0, smac0]) (by intro alias uri h; simp [cworld0, sworld0] at h) rfl h choosing0
    returnable0 false ha (by decide) (by decide) (MemStore.keptStep clock0) pstore0 _
    (b := { cassoc0 with issued := 3 }) (Prod.ext rfl (by decide +kernel)) ⟨rfl, rfl, rfl⟩ (by decide +kernel)
    (a' := cassoc0) ⟨rfl, rfl, rfl⟩ (by decide +kernel) (by decide) (by decide) (by decide)
    (identity := t!"http://op.example/u") (c := t!"http://u.example/#f") (by decide) (by decide)
    (.inl rfl) (found := [{ endpoint0 with serverUrl := t!"http://other.example/" }, endpoint0]) (d := endpoint0) (by simp)
    rfl agrees0 t!"http://u.example/"
  obtain ⟨r, resp, w, -, -, -, ⟨q', hb⟩, hw⟩ := hq (parameters url) (Dict.WF_ofPairs _) (fun _ => rfl)
  obtain ⟨d', hd', -, hu', s2, m, signed, hd⟩ := hw q' hb
  simp only [List.mem_cons, List.not_mem_nil, or_false] at hd'
  rcases hd' with rfl | rfl
  · exact absurd hu' (by decide)
  · exact ⟨_, s1, q', s2, m, signed, hd⟩

-- the same when the provider has lost the association; the identity is the claimed identifier
example : ∃ (evs : List Ev) (s1 : UserSession) (q' : Dict Str Str) (s2 : UserSession) (m : Msg) (signed : List Str),
    (.store (.removeAssociation endpoint0.serverUrl cassoc0.handle) (.ok (.bool true))) ∈ evs ∧
    Runs (complete cworld0 cconf0 cenv0 s1 q' t!"HTTP://rp.example:80/back") evs
      (.ok (s2, .ok (.success { endpoint0 with localId := none } m signed))) := by
  obtain ⟨s1, req, h, ha⟩ := begunChooser0
  obtain ⟨url, hu, hq⟩ := c41_select_asked (V := sworld0) (Es := senv0) (E2 := cenv0) rfl
    (by intro t k x; simp [sworld0, smac0]) (by intro alias uri h; simp [cworld0, sworld0] at h)
    (by intro alias uri h; simp [sworld0] at h) h choosing0
    returnable0 true (c30_memory_store clock0) (fun _ _ _ _ => ⟨_, rfl⟩) MemStore.keptInit (by
      intro a h; rw [ha] at h; cases h
      refine ⟨by decide, by decide +kernel, fun b hb => ?_⟩
      have : MemStore.keptView MemStore.keptInit t!"http://localhost/|normal" cassoc0.handle = none := rfl
      rw [this] at hb; cases hb) (by decide) (by decide) (by decide)
    (identity := t!"http://u.example/") (c := t!"http://u.example/") (claimed := none)
    (by decide) (by decide) (.inr ⟨rfl, .inl rfl⟩)
    (found := [{ endpoint0 with localId := none }]) (d := { endpoint0 with localId := none }) (by simp)
    rfl ⟨by decide, ⟨t!"http://u.example/", [], by decide +kernel⟩, by decide⟩ t!"http://u.example/"
  obtain ⟨r, resp, w, st', b, -, -, -, hm, hv, hv', ⟨q', hb⟩, hw⟩ := hq (parameters url) (Dict.WF_ofPairs _) (fun _ => rfl)
  obtain ⟨body, hbody⟩ := hw q' hb
  obtain ⟨n, -, -, hi, hl, -⟩ := hm
  obtain ⟨r2, resp2, kv, sta', -, -, -, hr⟩ := hbody _ (Dict.WF_ofPairs _) (fun _ => rfl) senv0 none st' hv (by
    unfold expired; rw [hi, hl]; simp [Server.Env.seconds]; decide) hv'
  obtain ⟨d', hd', -, -, s2, m, signed, hd⟩ := hr (.bool true)
  simp only [List.mem_cons, List.not_mem_nil, or_false] at hd'
  subst hd'
  rw [ha] at hd
  exact ⟨_, s1, q', s2, m, signed, by simp [cconf0]; rfl, hd⟩

end Props
