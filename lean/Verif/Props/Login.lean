import Verif.Lemmas.Login
/-! # C74: a login works from what the user types to the end -/

namespace Props
open Py Message Association Cryptutil Store Discover Consumer Spec DH Extend

/-- **C74** What a completed login leaves in the session.  If the response is a success or a cancellation and its endpoint
    has an identifier, nothing, so that the next login starts from the beginning.  Otherwise the services that are still to be
    tried stay. -/
theorem c74_session {W : Consumer.World} {C : Conf} {E : Consumer.Env} {s s2 : UserSession} {q : Dict Str Str} {current : Str}
    {evs : List Ev} {r : Consumer.Response} (h : Runs (complete W C E s q current) evs (.ok (s2, .ok r))) :
    ((∃ e u, e.claimedId = some u ∧ (r = .cancel (some e) ∨ ∃ m signed, r = .success e m signed)) → s2 = ⟨none, none⟩) ∧
    (¬ (∃ e u, e.claimedId = some u ∧ (r = .cancel (some e) ∨ ∃ m signed, r = .success e m signed)) → s2 = ⟨none, s.manager⟩) := by
  have hs : s2 = cleanup { s with token := none } r := by
    rw [complete] at h
    split at h
    · simp at h
    · rw [runs_handle] at h
      obtain ⟨_, _, o, -, -, h⟩ := h
      cases o with
      | error x => simp at h
      | ok r' =>
        simp only [runs_pure, Except.ok.injEq, Prod.mk.injEq] at h
        rw [← h.2.1, h.2.2]
  have hclean : ∀ u, (Manager.cleanup s.manager u true).2 = none := by
    intro u
    cases hm : s.manager <;> simp [Manager.cleanup, Manager.getManager, Manager.destroyManager]
  rw [hs]
  refine ⟨?_, fun hn => ?_⟩
  · rintro ⟨e, u, he, rfl | ⟨m, signed, rfl⟩⟩ <;> simp only [cleanup, he, hclean]
  · cases r with
    | success e m signed =>
      cases he : e.claimedId with
      | none => simp only [cleanup, he]
      | some u => exact absurd ⟨e, u, he, .inr ⟨m, signed, rfl⟩⟩ hn
    | cancel oe =>
      cases oe with
      | none => rfl
      | some e =>
        cases he : e.claimedId with
        | none => simp only [cleanup, he]
        | some u => exact absurd ⟨e, u, he, .inl rfl⟩ hn
    | failure _ _ => rfl
    | setupNeeded _ _ => rfl

/-- an assertion about nobody -/
def anonQuery0 : Dict Str Str :=
  [(t!"openid.ns", OPENID2_NS), (t!"openid.mode", t!"id_res"), (t!"openid.op_endpoint", t!"http://op.example/"),
   (t!"openid.return_to", t!"http://rp.example/back"),
   (t!"openid.response_nonce", t!"2005-05-15T17:11:51Zaa"), (t!"openid.assoc_handle", t!"h"),
   (t!"openid.signed", t!"op_endpoint,return_to,response_nonce,assoc_handle"), (t!"openid.sig", t!"AQIX")]

/-- a session in which one of two services was tried -/
def twoServices0 : UserSession :=
  ⟨some endpoint0, some ⟨t!"http://u.example/", t!"http://u.example/y", [{ endpoint0 with serverUrl := t!"http://op2.example/" }],
    some endpoint0⟩⟩

/-- the claimed identifier a completion reports, if it succeeds, and the session after it -/
def leaves0 : Option (Except Err (UserSession × Except Err Consumer.Response)) → Option (Option Str × UserSession)
  | some (.ok (s, .ok (.success e _ _))) => some (e.claimedId, s)
  | _ => none

-- the session is empty after a success that names a user
example : leaves0 (play (complete cworld0 cconf0 cenv0 twoServices0 (cquery0 t!"AQIf") t!"http://rp.example/back") cevs0) =
    some (some t!"http://u.example/#f", ⟨none, none⟩) := by decide +kernel

-- it is not after one that names nobody
example : leaves0 (play (complete cworld0 cconf0 cenv0 twoServices0 anonQuery0 t!"http://rp.example/back") cevs0) =
    some (none, ⟨none, twoServices0.manager⟩) := by decide +kernel

/-- **C74** After an anonymous success the services that were not tried stay in the session, so that the next time the user
    types the same, the next of them is asked, not the one that worked, and discovery is not run. -/
theorem c74_anonymous_next {W : Consumer.World} {C : Conf} {E : Consumer.Env} {s s2 : UserSession} {q : Dict Str Str}
    {current : Str} {evs : List Ev} {e : Endpoint} {m : Msg} {signed : List Str}
    (h : Runs (complete W C E s q current) evs (.ok (s2, .ok (.success e m signed)))) (he : e.claimedId = none)
    {typed yadis : Str} {next : Endpoint} {others : List Endpoint} {tried : Option Endpoint}
    (hs : s.manager = some ⟨typed, yadis, next :: others, tried⟩) (C2 : Conf) (E2 : Consumer.Env) (anonymous : Bool) :
    begin W C2 E2 s2 typed anonymous =
      beginWithoutDiscovery W C2 E2 ⟨none, some ⟨typed, yadis, others, some next⟩⟩ next anonymous := by
  have hs2 : s2 = ⟨none, s.manager⟩ := by
    refine (c74_session h).2 ?_
    rintro ⟨e', u, he', hr | ⟨m', signed', hr⟩⟩
    · cases hr
    · cases hr
      rw [he] at he'
      cases he'
  have hn : getNextService s2 typed =
      pure (⟨none, some ⟨typed, yadis, others, some next⟩⟩, .ok (some next)) := by
    rw [getNextService, hs2, hs]
    simp [Manager.beforeDiscovery, Manager.getManager, Manager.Manager.forURL, Manager.Manager.truthy, Manager.takeNext]
  rw [begin, hn]
  rfl

/-- **C76** As C74, with the data of any extensions: what the relying party attaches to its request the provider finds in
    the request it reads, and what the provider attaches to its answer the relying party finds signed in the response it
    accepts, for each extension and no other. -/
theorem c76_login {σ τ : Type} {W : Consumer.World} {V : Server.World} (huni : V.uni = W.uni) (hmac : V.mac = W.mac)
    (hH : ∀ t k x, V.mac t k x ≠ []) (hreg : ∀ alias uri, W.reg.get? alias = some uri → uri ≠ t!"sreg")
    (hregV : ∀ alias uri, V.reg.get? alias = some uri → uri ≠ t!"sreg")
    {C : Conf} {n : Negotiator} {text : Server.Reason → Option Msg → Str}
    {pages : Except Server.Err Server.Page → Except PyErr Http} {elsewhere : Str → Str → Except PyErr Http}
    {E0 : Consumer.Env} {E1 : Server.Env} (hcan : C.hasStore = true → CanAssociate W V C n E0 E1)
    {stepC : σ → Event → σ × Outcome} {viewC : σ → AssocMap} {used : σ → Str → Int → Str → Prop}
    {ranked : σ → Str → Prop} (hc : Keeps W.clock stepC viewC used ranked) (hcn : NeverFails stepC)
    {stepP : τ → Event → τ × Outcome} {viewP : τ → AssocMap} (hf : Faithful V.clock stepP viewP) (hw : NeverFails stepP)
    {disc : Str → Except PyErr (Str × List Endpoint)} {typed name : Str} {e : Endpoint} {more : List Endpoint}
    (hd : disc typed = .ok (name, e :: more)) (he : Askable e) {anonymous : Bool}
    (ha : anonymous = true → versionOf e = t!"http://specs.openid.net/auth/2.0")
    (ht0 : E0.now / W.clock.tick < 253402300800) (token : Option Endpoint)
    (sc : σ) (sp : τ) (hin : InStep e.serverUrl (viewC sc) (viewP sp)) (hrank : ranked sc e.serverUrl) :
    ∃ sc1 sp1 s1 req,
      live stepC E0.now (webOf V E1 n text e.serverUrl stepP pages elsewhere) disc
        (begin W C E0 ⟨token, none⟩ typed anonymous) sc sp = ((sc1, sp1), .ok (s1, .ok req)) ∧
      InStep e.serverUrl (viewC sc1) (viewP sp1) ∧ ranked sc1 e.serverUrl ∧
      (∀ a, req.assoc = some a → viewC sc1 e.serverUrl a.handle = some a ∧ ¬ expired (E0.seconds W) a) ∧
      Changes (E0.seconds W) (fun u h => u = e.serverUrl ∧ ∃ b, Makes V E1 b ∧ h = b.handle)
        (fun u h a => u = e.serverUrl ∧ h = a.handle ∧ req.assoc = some a ∧ a.issued = E0.seconds W ∧ a.lifetime = 1209600 ∧
          ∃ b, Makes V E1 b ∧ SameAssociation a b ∧ viewP sp1 t!"http://localhost/|normal" h = some b) (viewC sc) (viewC sc1) ∧
      Changes (E1.seconds V) (fun u h => ∃ b, MadeBy V E1 t!"http://localhost/|normal" u h b)
        (MadeBy V E1 t!"http://localhost/|normal") (viewP sp) (viewP sp1) ∧
      (∀ u t x, used sc1 u t x → used sc u t x) ∧
    ∀ X, Attachable (versionOf e) V.reg X →
    ∀ (realm returnTo current : Str), Returnable W.uni realm returnTo current → ∀ immediate : Bool,
    ∃ req' url, extendRequest req X = .ok req' ∧ req'.redirectURL realm (some returnTo) immediate = .ok url ∧
    ∀ (Es : Server.Env) (sp2 : τ), InStep e.serverUrl (viewC sc1) (viewP sp2) → Line Es.salt →
      V.clock.seconds Es.now < 253402300800 →
    ∀ q, Dict.WF q → (∀ k, q.get? k = (parameters url).get? k) →
    ∃ r resp,
      Server.Prog.run stepP Es.now sp2 (Server.serverEndPoint V Es (some e.serverUrl) n text q) = (sp2, .ok (.ask r)) ∧
      fromPostArgs V.reg q = .ok r.message ∧ Gives (versionOf e) X (fun u d => r.message.getArgs (.uri u) = .ok d) ∧
      r.answer V Es true none none none = .ok resp ∧
    ∀ Y, Attachable (versionOf e) W.reg Y → Attachable (versionOf e) V.reg Y → Signable Y →
    ∃ resp' w sp3, extendResponse resp Y = .ok resp' ∧
      Server.Prog.run stepP Es.now sp2 (Server.signingEncode V Es resp') = (sp3, .ok w) ∧
      InStep e.serverUrl (viewC sc1) (viewP sp3) ∧
      Changes (Es.seconds V) (fun u h => ∃ b, MadeBy V Es t!"http://localhost/|dumb" u h b) (MadeBy V Es t!"http://localhost/|dumb")
        (viewP sp2) (viewP sp3) ∧ (∃ q', Brings w q') ∧
    ∀ q', Brings w q' → ∀ (E2 : Consumer.Env) (E3 : Server.Env) (sc2 : σ) (sp4 : τ)
      (disc' : Str → Except PyErr (Str × List Endpoint)),
      InStep e.serverUrl (viewC sc2) (viewP sp4) →
      Undisturbed W V e.serverUrl req.assoc Es E3 E2 (viewC sc2) (viewP sp3) (viewP sp4) →
      Unused W V used e E0 Es E2 sc2 →
    ∃ sc3 sp5 s2 m signed,
      live stepC E2.now (webOf V E3 n text e.serverUrl stepP pages elsewhere) disc' (complete W C E2 s1 q' current) sc2 sp4 =
        ((sc3, sp5), .ok (s2, .ok (.success (toldOf e anonymous) m signed))) ∧
      fromPostArgs W.reg q' = .ok m ∧ Gives (versionOf e) Y (fun u d => getSignedNS m signed (.uri u) = .ok (some d)) ∧
      InStep e.serverUrl (viewC sc3) (viewP sp5) ∧ (ranked sc2 e.serverUrl → ranked sc3 e.serverUrl) ∧
      Changes (E2.seconds W) (fun u h => u = e.serverUrl ∧ ∃ a, req.assoc = some a ∧ h = a.handle ∧
        ∀ b, viewP sp3 t!"http://localhost/|normal" h = some b → expired (Es.seconds V) b) (fun _ _ _ => False) (viewC sc2) (viewC sc3) ∧
      Changes (E3.seconds V) (fun u h => ∃ b, MadeBy V Es t!"http://localhost/|dumb" u h b) (fun _ _ _ => False)
        (viewP sp4) (viewP sp5) ∧
      (∀ u t x, used sc3 u t x → used sc2 u t x ∨ IsNonce W V e E0 Es u t x) ∧
      (anonymous = false → s2 = ⟨none, none⟩) := by
  obtain ⟨sc1, sp1, s1, req, b1, b2, b0, b3, b4, b5, b6, s0, evs0, hbegin⟩ := live_begin (text := text) (pages := pages)
    (elsewhere := elsewhere) hcan hc hcn hf hw hd ha token sc sp hin hrank
  refine ⟨sc1, sp1, s1, req, b1, b2, b0, fun a h => (b3 a h).2, b5, b6, b4, fun X hX realm returnTo current hr immediate => ?_⟩
  obtain ⟨req', url, hext, hurl, -⟩ := asked_and_answered (V := V) (Es := E1) huni hbegin he hr immediate hX
  refine ⟨req', url, hext, hurl, fun Es sp2 hin2 hsalt hts q hq1 hq2 => ?_⟩
  obtain ⟨_, _, hext', hurl', hread1⟩ := asked_and_answered (V := V) (Es := Es) huni hbegin he hr immediate hX
  rw [hext] at hext'; cases hext'
  rw [hurl] at hurl'; cases hurl'
  obtain ⟨r, l1, hgx, -, -, resp, l2, -, -⟩ := hread1 q hq1 hq2
  have hmsg : fromPostArgs V.reg q = .ok r.message := by
    obtain ⟨-, m, h, rfl⟩ := (c34_checkid _ _ _ _ hq1 _).1 l1
    exact h
  have hnrank : ∀ (E2 : Consumer.Env) (s : σ), ranked s e.serverUrl →
      ranked (stepC s (E2.now, if versionOf e = t!"http://openid.net/signon/1.0" then .useNonce [] (E0.now / W.clock.tick : Nat) E0.salt
          else .useNonce e.serverUrl (V.clock.seconds Es.now).toNat Es.salt)).1 e.serverUrl := by
    intro E2 s h
    refine hc.stays _ _ _ (fun a h' => ?_) h
    simp only at h'
    split at h' <;> cases h'
  have hask : ∀ {r}, Server.decode V Es (some e.serverUrl) q = .ok (some (.checkId r)) →
      Server.Prog.run stepP Es.now sp2 (Server.serverEndPoint V Es (some e.serverUrl) n text q) = (sp2, .ok (.ask r)) := by
    intro r h; rw [Server.serverEndPoint, h]; rfl
  refine ⟨r, resp, hask l1, hmsg, hgx, l2, fun Y hY hYV hYs => ?_⟩
  have hsession : ∀ {E2 s2 q' evs m signed}, Runs (complete W C E2 s1 q' current) evs
      (.ok (s2, .ok (.success (toldOf e anonymous) m signed))) → anonymous = false → s2 = ⟨none, none⟩ := by
    intro E2 s2 q' evs m signed h hanon
    obtain ⟨c, hcl, -⟩ := he.claimed
    rw [toldOf, hanon, if_neg (by decide)] at h
    exact (c74_session h).1 ⟨e, c, hcl, .inr ⟨m, signed, rfl⟩⟩
  -- the last call: the nonce
  have hnonce : ∀ (E2 : Consumer.Env) (s : σ), Unused W V used e E0 Es E2 s →
      (stepC s (E2.now, if versionOf e = t!"http://openid.net/signon/1.0" then .useNonce [] (E0.now / W.clock.tick : Nat) E0.salt
          else .useNonce e.serverUrl (V.clock.seconds Es.now).toNat Es.salt)).2 = .ok (.bool true) := by
    intro E2 s hu
    rw [Unused] at hu
    split at hu
    · rw [if_pos (by assumption)]; exact hc.fresh _ _ _ _ _ hu.1 hu.2
    · rw [if_neg (by assumption)]; exact hc.fresh _ _ _ _ _ hu.1 hu.2
  have hnview : ∀ (E2 : Consumer.Env) (s : σ),
      viewC (stepC s (E2.now, if versionOf e = t!"http://openid.net/signon/1.0" then .useNonce [] (E0.now / W.clock.tick : Nat) E0.salt
          else .useNonce e.serverUrl (V.clock.seconds Es.now).toNat Es.salt)).1 = viewC s := by
    intro E2 s
    split <;> exact hc.holds.nonce _ _ _ _ _
  have hunused : ∀ (E2 : Consumer.Env) (s : σ) op, (∀ u t x, op ≠ .useNonce u t x) → Unused W V used e E0 Es E2 s →
      Unused W V used e E0 Es E2 (stepC s (E2.now, op)).1 := by
    intro E2 s op hop hu
    unfold Unused at hu ⊢
    split
    · rw [if_pos (by assumption)] at hu
      refine ⟨hu.1, fun h => ?_⟩
      rcases hc.others _ _ _ _ _ h with h | h
      · exact hu.2 h
      · exact hop _ _ _ h
    · rw [if_neg (by assumption)] at hu
      refine ⟨hu.1, fun h => ?_⟩
      rcases hc.others _ _ _ _ _ h with h | h
      · exact hu.2 h
      · exact hop _ _ _ h
  have hgused : ∀ (now : Nat) (s : σ) {url h u t x}, used (stepC s (now, .getAssociation url h)).1 u t x → used s u t x := by
    intro now s url h u t x hx
    rcases hc.others _ _ _ _ _ hx with h | h
    · exact h
    · cases h
  have hnused : ∀ (now : Nat) (s : σ) {u t x}, used (stepC s (now, if versionOf e = t!"http://openid.net/signon/1.0" then .useNonce [] (E0.now / W.clock.tick : Nat) E0.salt
          else .useNonce e.serverUrl (V.clock.seconds Es.now).toNat Es.salt)).1 u t x → used s u t x ∨ IsNonce W V e E0 Es u t x := by
    intro now s u t x hx
    rcases hc.others _ _ _ _ _ hx with h | h
    · exact .inl h
    · unfold IsNonce
      simp only at h
      split at h
      · rw [if_pos (by assumption)]; cases h; exact .inr ⟨rfl, rfl, rfl⟩
      · rw [if_neg (by assumption)]; cases h; exact .inr ⟨rfl, rfl, rfl⟩
  -- reading from the relying party's store
  have hread : ∀ (E2 : Consumer.Env) (s : σ) (h : Str) (x : Option Assoc), viewC s e.serverUrl h = x →
      (∀ a, x = some a → ¬ expired (E2.seconds W) a) →
      (stepC s (E2.now, .getAssociation e.serverUrl (some h))).2 = .ok (.assoc x) := by
    intro E2 s h x hx hx'
    obtain ⟨-, ⟨y, hy⟩ | ⟨r, hr1, hr2⟩⟩ := hc.holds.get s E2.now e.serverUrl h
    · obtain ⟨z, hz⟩ := hcn s E2.now (.getAssociation e.serverUrl (some h)) trivial
      rw [hz] at hy; cases hy
    · rcases hr2 with rfl | ⟨-, a, ha1, ha2⟩
      · rw [hr1, hx]
      · rw [hx] at ha1; exact absurd ha2 (hx' a ha1)
  by_cases hshare : ∃ a b, req.assoc = some a ∧ viewP sp2 t!"http://localhost/|normal" a.handle = some b ∧
      ¬ expired (Es.seconds V) b
  · obtain ⟨a, b, hra, hvb, hbx⟩ := hshare
    obtain ⟨hC, hva, -⟩ := b3 a hra
    obtain ⟨-, p2, p3, p4, p5⟩ := hin2 _ _ hva
    have hst : (stepP sp2 (Es.now, .getAssociation t!"http://localhost/|normal" (some a.handle))).2 = .ok (.assoc (some b)) := by
      obtain ⟨-, ⟨y, hy⟩ | ⟨r, hr1, hr2⟩⟩ := hf.get sp2 Es.now t!"http://localhost/|normal" a.handle
      · obtain ⟨z, hz⟩ := hw sp2 Es.now (.getAssociation t!"http://localhost/|normal" (some a.handle)) trivial
        rw [hz] at hy; cases hy
      · rcases hr2 with rfl | ⟨-, x, hx1, hx2⟩
        · rw [hr1, hvb]
        · rw [hvb] at hx1; cases hx1; exact absurd hx2 hbx
    have key := fun (E2 : Consumer.Env) (hax : ¬ expired (E2.seconds W) a) =>
      c69_shared (E2 := E2) huni hmac (by rw [← hmac]; exact hH) hreg hC hbegin he hr immediate hra p2 p4 stepP sp2
        (stepP sp2 (Es.now, .getAssociation t!"http://localhost/|normal" (some a.handle))).1
        (Prod.ext rfl hst) (p5 b hvb) hbx (a' := a) ⟨rfl, rfl, rfl⟩ hax hsalt ht0 hts hX hY hYs
    obtain ⟨_, _, k0, k1, k2⟩ := key E0 (b3 a hra).2.2
    rw [hext] at k0; cases k0
    rw [hurl] at k1; cases k1
    obtain ⟨_, _, resp', w, l1', -, l2', l0, l3, l4, -⟩ := k2 q hq1 hq2
    rw [l1] at l1'; cases l1'
    rw [l2] at l2'; cases l2'
    refine ⟨resp', w, _, l0, l3, inStep_faded hin2 (hf.get _ _ _ _).1, Server.changes_encode hf rfl rfl l3, l4, ?_⟩
    intro q' hq' E2 E3 sc2 sp4 disc' hin4 hun hfresh
    obtain ⟨hs1, hs2⟩ := hun.still a hra
    obtain ⟨_, _, k0, k1, k3⟩ := key E2 hs2
    rw [hext] at k0; cases k0
    rw [hurl] at k1; cases k1
    obtain ⟨_, _, _, w', l1', -, l2', l0', l3', -, l5⟩ := k3 q hq1 hq2
    rw [l1] at l1'; cases l1'
    rw [l2] at l2'; cases l2'
    rw [l0] at l0'; cases l0'
    rw [l3] at l3'; cases l3'
    obtain ⟨s2, m, signed, hrun, hgy⟩ := l5 q' hq'
    have hg := hread E2 sc2 a.handle (some a) hs1 (by intro x hx; cases hx; exact hs2)
    have hu1 := hunused E2 sc2 (.getAssociation e.serverUrl (some a.handle)) (by simp) hfresh
    refine ⟨_, _, s2, m, signed, live_of_runs hrun ⟨hg, hnonce E2 _ hu1, rfl, rfl⟩, (c37_success hq'.1 hrun).message, hgy, ?_,
      fun h => hnrank _ _ (hc.stays _ _ _ (fun _ h' => by cases h') h), ?_, .rfl' _ _ _ _, ?_, hsession hrun⟩
    rotate_left
    · rw [hnview]
      exact (hc.holds.get _ _ _ _).1.changes _ _
    · intro u t x h
      rcases hnused _ _ h with h | h
      · exact .inl (hgused _ _ h)
      · exact .inr h
    refine InStep.sub hin4 ?_ (fun _ _ h => h)
    rw [hnview]
    exact (hc.holds.get _ _ _ _).1.sub
  · have hgone : ∀ a, req.assoc = some a → Plain a.handle ∧ strip a.handle = a.handle ∧
        ∀ b, viewP sp2 t!"http://localhost/|normal" a.handle = some b →
          expired (Es.seconds V) b ∧ b.assocType ∈ [t!"HMAC-SHA1", t!"HMAC-SHA256"] := by
      intro a hra
      obtain ⟨-, p2, p3, p4, p5⟩ := hin2 _ _ (b3 a hra).2.1
      refine ⟨p2, p3, fun b hb => ⟨?_, ?_⟩⟩
      · exact Classical.byContradiction fun hx => hshare ⟨a, b, hra, hb, hx⟩
      · rw [← (p5 b hb).type]; simpa using p4
    have key := fun (E2 : Consumer.Env) =>
      c69_asked (E2 := E2) huni hH hreg hregV hbegin he hr immediate hf hw sp2 hgone hsalt ht0 hts hX hY hYV hYs
    obtain ⟨_, _, k0, k1, k2⟩ := key E0
    rw [hext] at k0; cases k0
    rw [hurl] at k1; cases k1
    obtain ⟨_, _, resp', w, sp3, b, l1', -, l2', l0, l3, l4, l5, l6, l7, -⟩ := k2 q hq1 hq2
    rw [l1] at l1'; cases l1'
    rw [l2] at l2'; cases l2'
    have hsub3 : ∀ k x, viewP sp3 t!"http://localhost/|normal" k = some x → viewP sp2 t!"http://localhost/|normal" k = some x := by
      intro k x hx
      have := (quiet_encode V Es resp').run hf (now := Es.now) sp2 k x
      rw [l3] at this
      exact this hx
    refine ⟨resp', w, sp3, l0, l3, InStep.sub hin2 (Server.Sub.rfl' _) hsub3, Server.changes_encode hf rfl rfl l3, l7, ?_⟩
    intro q' hq' E2 E3 sc2 sp4 disc' hin4 hun hfresh
    obtain ⟨_, _, k0, k1, k3⟩ := key E2
    rw [hext] at k0; cases k0
    rw [hurl] at k1; cases k1
    obtain ⟨_, _, _, w', sp3', b', l1', -, l2', l0', l3', l4', l5', l6', -, l8⟩ := k3 q hq1 hq2
    rw [l1] at l1'; cases l1'
    rw [l2] at l2'; cases l2'
    rw [l0] at l0'; cases l0'
    rw [l3] at l3'; cases l3'
    obtain ⟨body, hbody⟩ := l8 q' hq'
    have hb4 := hun.secret _ _ l4' l5'
    have hbx : ¬ expired (E3.seconds V) b' := by
      obtain ⟨_, -, -, hi, hl, -⟩ := l4'
      have := hun.soon
      rw [expired, hi, hl]
      simp only [Server.Env.seconds] at *
      omega
    have hmono : ∀ x, expired (Es.seconds V) x → expired (E3.seconds V) x := by
      intro x hx
      have := hun.soon
      rw [expired] at *
      omega
    obtain ⟨r2, resp2, kv, sp5, m1, m0, m2, m3, m4⟩ := hbody (Dict.ofPairs (Percent.parseQsl true body)) (Dict.WF_ofPairs _)
      (fun _ => rfl) E3 (some e.serverUrl) sp4 hb4 hbx
      (fun a hra x hx => hmono _ (l6' a hra x (hun.gone a x hra hx)))
    have hpage := checkauth_page (n := n) (text := text) hf hw (Dict.WF_ofPairs _) m1 m2 m3
    have hserve : webOf V E3 n text e.serverUrl stepP pages elsewhere sp4 e.serverUrl body =
        (sp5, .ok ⟨200, Utf8.encode kv⟩) := by
      rw [webOf, if_pos rfl]
      simp only [hpage]
      rfl
    have hchange5 : Changes (E3.seconds V) (fun u h => ∃ b, MadeBy V Es t!"http://localhost/|dumb" u h b) (fun _ _ _ => False)
        (viewP sp4) (viewP sp5) :=
      (Server.changes_answer hf rfl rfl m2).mono (fun u h hx => ⟨b', hx.1, l4', by rw [hx.2, m0]⟩) (fun _ _ _ h => h)
    have hsub5 : ∀ k x, viewP sp5 t!"http://localhost/|normal" k = some x → viewP sp4 t!"http://localhost/|normal" k = some x := by
      intro k x hx
      have := (quiet_answer V E3 r2).run hf (now := E3.now) sp4 k x
      rw [m2] at this
      exact this hx
    cases hC : C.hasStore with
    | false =>
      have hra : req.assoc = none := by
        cases h : req.assoc with
        | none => rfl
        | some a => rw [(b3 a h).1] at hC; cases hC
      obtain ⟨s2, m, signed, hrun, hgy⟩ := m4 (.bool true)
      rw [hra, hC] at hrun
      simp only [Bool.false_eq_true, if_false, List.nil_append, List.append_nil] at hrun
      refine ⟨sc2, sp5, s2, m, signed, live_of_runs hrun ?_, (c37_success hq'.1 hrun).message, hgy, InStep.sub hin4 (Server.Sub.rfl' _) hsub5, fun h => h,
        .rfl' _ _ _ _, hchange5, fun _ _ _ h => .inl h, hsession hrun⟩
      exact ⟨by rw [hserve], rfl, by rw [hserve]⟩
    | true =>
      have hg := hread E2 sc2 b'.handle none (hun.apart _ l4') (by intro x hx; cases hx)
      have hu1 := hunused E2 sc2 (.getAssociation e.serverUrl (some b'.handle)) (by simp) hfresh
      have hfade1 := (hc.holds.get sc2 E2.now e.serverUrl b'.handle).1
      have hsub1 := hfade1.sub
      have hused1 : ∀ u t x, used (stepC sc2 (E2.now, .getAssociation e.serverUrl (some b'.handle))).1 u t x → used sc2 u t x :=
        fun _ _ _ => hgused _ _
      have hstay := hc.stays sc2 (E2.now, .getAssociation e.serverUrl (some b'.handle)) e.serverUrl (fun _ h => by cases h)
      generalize hsc : stepC sc2 (E2.now, .getAssociation e.serverUrl (some b'.handle)) = x1 at hg hu1 hsub1 hstay hfade1 hused1
      obtain ⟨sx, ox⟩ := x1
      cases hra : req.assoc with
      | none =>
        obtain ⟨s2, m, signed, hrun, hgy⟩ := m4 (.bool true)
        have hcame := (c37_success hq'.1 hrun).message
        rw [hra, hC] at hrun
        simp only [if_true, List.append_nil, List.cons_append, List.nil_append] at hrun
        refine ⟨(stepC sx (E2.now, if versionOf e = t!"http://openid.net/signon/1.0" then .useNonce [] (E0.now / W.clock.tick : Nat) E0.salt
          else .useNonce e.serverUrl (V.clock.seconds Es.now).toNat Es.salt)).1, sp5, s2, m, signed, live_of_runs hrun ?_, hcame, hgy, ?_,
          fun h => hnrank _ _ (hstay h), ?_, hchange5, ?_, hsession hrun⟩
        rotate_left 2
        · rw [hnview]; exact hfade1.changes _ _
        · intro u t x h
          rcases hnused _ _ h with h | h
          · exact .inl (hused1 _ _ _ h)
          · exact .inr h
        · refine ⟨by rw [hsc]; exact hg, by rw [hserve], ?_, by rw [hsc], by rw [hserve]⟩
          rw [hsc]; exact hnonce E2 _ hu1
        · refine InStep.sub hin4 ?_ hsub5
          rw [hnview]; exact hsub1
      | some a =>
        obtain ⟨removed, hrem⟩ := hcn sx E2.now (.removeAssociation e.serverUrl a.handle) trivial
        obtain ⟨s2, m, signed, hrun, hgy⟩ := m4 removed
        have hcame := (c37_success hq'.1 hrun).message
        rw [hra, hC] at hrun
        simp only [if_true, List.cons_append, List.nil_append] at hrun
        have hu2 := hunused E2 sx (.removeAssociation e.serverUrl a.handle) (by simp) hu1
        have hsub2 : Server.Sub (viewC (stepC sx (E2.now, .removeAssociation e.serverUrl a.handle)).1) (viewC sx) := by
          intro u h x hx
          rcases hc.holds.remove sx E2.now e.serverUrl a.handle with ⟨_, -, hv⟩ | ⟨_, -, hv⟩
          · rw [hv] at hx; simp only at hx
            split at hx
            · cases hx
            · exact hx
          · rwa [hv] at hx
        refine ⟨(stepC (stepC sx (E2.now, .removeAssociation e.serverUrl a.handle)).1 (E2.now, if versionOf e = t!"http://openid.net/signon/1.0" then .useNonce [] (E0.now / W.clock.tick : Nat) E0.salt
          else .useNonce e.serverUrl (V.clock.seconds Es.now).toNat Es.salt)).1, sp5, s2, m, signed, live_of_runs hrun ?_, hcame, hgy, ?_,
          fun h => hnrank _ _ (hc.stays _ _ _ (fun _ h' => by cases h') (hstay h)), ?_, hchange5, ?_, hsession hrun⟩
        rotate_left 2
        · rw [hnview]
          refine (hfade1.changes _ _).trans ⟨fun u h x hx => ?_, fun u h x hx => .inl (hsub2 _ _ _ hx)⟩
          rcases hc.holds.remove sx E2.now e.serverUrl a.handle with ⟨_, -, hv⟩ | ⟨_, -, hv⟩
          · rw [hv]
            simp only
            split
            · next hh => exact .inr (.inr ⟨hh.1, a, rfl, hh.2, fun b hb => l6' a hra b (by rw [← hh.2]; exact hb)⟩)
            · exact .inl hx
          · rw [hv]; exact .inl hx
        · intro u t x h
          rcases hnused _ _ h with h | h
          · rcases hc.others _ _ _ _ _ h with h | h
            · exact .inl (hused1 _ _ _ h)
            · cases h
          · exact .inr h
        · refine ⟨by rw [hsc]; exact hg, by rw [hserve], ?_, ?_, by rw [hsc], by rw [hserve]⟩
          · rw [hsc]; exact hrem
          · rw [hsc]; exact hnonce E2 _ hu2
        · refine InStep.sub hin4 ?_ hsub5
          rw [hnview]; exact hsub2.trans hsub1

/-- **C74** A user types an identifier whose page names a provider, and logs in with a provider that says yes; the relying
    party and the provider may hold any associations, as long as those with the same handle are the same.  Then the relying
    party makes a request, having chosen an association it has, or made one with the provider, or gone without if it has no
    store; its store holds nothing else that is new.  The provider reads the request and asks its user; its answer, whether signed with that association or, if it no
    longer has it, with a private one, is brought back by the browser and accepted as long as nothing that it needs was lost
    meanwhile; if the answer was signed with a private association, the relying party asks the provider about it.  After
    each step the two sides are in step again. -/
theorem c74_login {σ τ : Type} {W : Consumer.World} {V : Server.World} (huni : V.uni = W.uni) (hmac : V.mac = W.mac)
    (hH : ∀ t k x, V.mac t k x ≠ []) (hreg : ∀ alias uri, W.reg.get? alias = some uri → uri ≠ t!"sreg")
    (hregV : ∀ alias uri, V.reg.get? alias = some uri → uri ≠ t!"sreg")
    {C : Conf} {n : Negotiator} {text : Server.Reason → Option Msg → Str}
    {pages : Except Server.Err Server.Page → Except PyErr Http} {elsewhere : Str → Str → Except PyErr Http}
    {E0 : Consumer.Env} {E1 : Server.Env} (hcan : C.hasStore = true → CanAssociate W V C n E0 E1)
    {stepC : σ → Event → σ × Outcome} {viewC : σ → AssocMap} {used : σ → Str → Int → Str → Prop}
    {ranked : σ → Str → Prop} (hc : Keeps W.clock stepC viewC used ranked) (hcn : NeverFails stepC)
    {stepP : τ → Event → τ × Outcome} {viewP : τ → AssocMap} (hf : Faithful V.clock stepP viewP) (hw : NeverFails stepP)
    {disc : Str → Except PyErr (Str × List Endpoint)} {typed name : Str} {e : Endpoint} {more : List Endpoint}
    (hd : disc typed = .ok (name, e :: more)) (he : Askable e) {anonymous : Bool}
    (ha : anonymous = true → versionOf e = t!"http://specs.openid.net/auth/2.0")
    (ht0 : E0.now / W.clock.tick < 253402300800) (token : Option Endpoint)
    (sc : σ) (sp : τ) (hin : InStep e.serverUrl (viewC sc) (viewP sp)) (hrank : ranked sc e.serverUrl) :
    ∃ sc1 sp1 s1 req,
      live stepC E0.now (webOf V E1 n text e.serverUrl stepP pages elsewhere) disc
        (begin W C E0 ⟨token, none⟩ typed anonymous) sc sp = ((sc1, sp1), .ok (s1, .ok req)) ∧
      InStep e.serverUrl (viewC sc1) (viewP sp1) ∧ ranked sc1 e.serverUrl ∧
      (∀ a, req.assoc = some a → viewC sc1 e.serverUrl a.handle = some a ∧ ¬ expired (E0.seconds W) a) ∧
      Changes (E0.seconds W) (fun u h => u = e.serverUrl ∧ ∃ b, Makes V E1 b ∧ h = b.handle)
        (fun u h a => u = e.serverUrl ∧ h = a.handle ∧ req.assoc = some a ∧ a.issued = E0.seconds W ∧ a.lifetime = 1209600 ∧
          ∃ b, Makes V E1 b ∧ SameAssociation a b ∧ viewP sp1 t!"http://localhost/|normal" h = some b) (viewC sc) (viewC sc1) ∧
      Changes (E1.seconds V) (fun u h => ∃ b, MadeBy V E1 t!"http://localhost/|normal" u h b)
        (MadeBy V E1 t!"http://localhost/|normal") (viewP sp) (viewP sp1) ∧
      (∀ u t x, used sc1 u t x → used sc u t x) ∧
    ∀ (realm returnTo current : Str), Returnable W.uni realm returnTo current → ∀ immediate : Bool,
    ∃ url, req.redirectURL realm (some returnTo) immediate = .ok url ∧
    ∀ (Es : Server.Env) (sp2 : τ), InStep e.serverUrl (viewC sc1) (viewP sp2) → Line Es.salt →
      V.clock.seconds Es.now < 253402300800 →
    ∀ q, Dict.WF q → (∀ k, q.get? k = (parameters url).get? k) →
    ∃ r resp w sp3,
      Server.Prog.run stepP Es.now sp2 (Server.serverEndPoint V Es (some e.serverUrl) n text q) = (sp2, .ok (.ask r)) ∧
      r.answer V Es true none none none = .ok resp ∧
      Server.Prog.run stepP Es.now sp2 (Server.signingEncode V Es resp) = (sp3, .ok w) ∧
      InStep e.serverUrl (viewC sc1) (viewP sp3) ∧
      Changes (Es.seconds V) (fun u h => ∃ b, MadeBy V Es t!"http://localhost/|dumb" u h b) (MadeBy V Es t!"http://localhost/|dumb")
        (viewP sp2) (viewP sp3) ∧ (∃ q', Brings w q') ∧
    ∀ q', Brings w q' → ∀ (E2 : Consumer.Env) (E3 : Server.Env) (sc2 : σ) (sp4 : τ)
      (disc' : Str → Except PyErr (Str × List Endpoint)),
      InStep e.serverUrl (viewC sc2) (viewP sp4) →
      Undisturbed W V e.serverUrl req.assoc Es E3 E2 (viewC sc2) (viewP sp3) (viewP sp4) →
      Unused W V used e E0 Es E2 sc2 →
    ∃ sc3 sp5 s2 m signed,
      live stepC E2.now (webOf V E3 n text e.serverUrl stepP pages elsewhere) disc' (complete W C E2 s1 q' current) sc2 sp4 =
        ((sc3, sp5), .ok (s2, .ok (.success (toldOf e anonymous) m signed))) ∧
      InStep e.serverUrl (viewC sc3) (viewP sp5) ∧ (ranked sc2 e.serverUrl → ranked sc3 e.serverUrl) ∧
      Changes (E2.seconds W) (fun u h => u = e.serverUrl ∧ ∃ a, req.assoc = some a ∧ h = a.handle ∧
        ∀ b, viewP sp3 t!"http://localhost/|normal" h = some b → expired (Es.seconds V) b) (fun _ _ _ => False) (viewC sc2) (viewC sc3) ∧
      Changes (E3.seconds V) (fun u h => ∃ b, MadeBy V Es t!"http://localhost/|dumb" u h b) (fun _ _ _ => False)
        (viewP sp4) (viewP sp5) ∧
      (∀ u t x, used sc3 u t x → used sc2 u t x ∨ IsNonce W V e E0 Es u t x) ∧
      (anonymous = false → s2 = ⟨none, none⟩) := by
  obtain ⟨sc1, sp1, s1, req, b1, b2, b0, b3, b4, b5, b6, h⟩ := c76_login (text := text) (pages := pages) (elsewhere := elsewhere) huni hmac
    hH hreg hregV hcan hc hcn hf hw hd he ha ht0 token sc sp hin hrank
  refine ⟨sc1, sp1, s1, req, b1, b2, b0, b3, b4, b5, b6, fun realm returnTo current hr immediate => ?_⟩
  obtain ⟨_, url, hx, hurl, h⟩ := h [] (no_extensions _ _) realm returnTo current hr immediate
  cases hx
  refine ⟨url, hurl, fun Es sp2 hin2 hsalt hts q hq1 hq2 => ?_⟩
  obtain ⟨r, resp, c1, -, -, c2, h⟩ := h Es sp2 hin2 hsalt hts q hq1 hq2
  obtain ⟨_, w, sp3, hx, c3, c4, c5, c6, h⟩ := h [] (no_extensions _ _) (no_extensions _ _) (fun _ h => nomatch h)
  cases hx
  refine ⟨r, resp, w, sp3, c1, c2, c3, c4, c5, c6, fun q' hq' E2 E3 sc2 sp4 disc' i1 i2 i3 => ?_⟩
  obtain ⟨sc3, sp5, s2, m, signed, d1, -, -, d2⟩ := h q' hq' E2 E3 sc2 sp4 disc' i1 i2 i3
  exact ⟨sc3, sp5, s2, m, signed, d1, d2⟩

/-- **C74** The memory store keeps what a relying party needs. -/
theorem c74_memory_store (c : Clock) :
    Keeps c (MemStore.keptStep c) MemStore.keptView (fun s u t x => (u, t, x) ∈ Dict.keys s.1.nonces) (fun _ _ => True) where
  holds := MemStore.faithful c
  only _ _ _ _ _ _ _ _ := trivial
  stays _ _ _ _ _ := trivial
  latest s now url _ := by
    refine ⟨?_, _, rfl, fun a ha => ((MemStore.getAssociation_none s.1 s.2 url).2 a ha).1⟩
    have : MemStore.keptView (MemStore.keptStep c s (now, .getAssociation url none)).1 = MemStore.keptView s :=
      (MemStore.getAssociation_spec s.1 s.2 url none).2.1
    rw [this]; exact MemStore.fades_rfl _ _
  fresh s now url t salt h1 h2 := by
    show Except.ok (Answer.bool (MemStore.useNonce c now s.1 url t salt).2) = _
    rw [(MemStore.useNonce_true c now s.1 url t salt).2 ⟨h1, h2⟩]
  others s e url t salt h := by
    by_cases h1 : ∃ u t x, e.2 = .useNonce u t x
    · obtain ⟨now, op⟩ := e
      obtain ⟨u, t', x, rfl⟩ := h1
      rcases (MemStore.keys_useNonce c now s.1 u t' x (url, t, salt)).1 h with h | ⟨h, -⟩
      · exact .inl h
      · cases h; exact .inr rfl
    · by_cases h2 : e.2 = .cleanupNonces
      · obtain ⟨now, op⟩ := e
        cases h2
        exact .inl ((MemStore.mem_cleanupNonces c now s.1 s.2 (url, t, salt)).1 h).1
      · have := MemStore.step_nonces c s.1 s.2 e (fun u t x h => h1 ⟨u, t, x, h⟩) h2
        rw [show ((MemStore.keptStep c s e).1).1.nonces = s.1.nonces from this] at h
        exact .inl h

theorem can0 : CanAssociate pairConsumer0 pairServer0 cconf0 defaultAssociationOrder cenv0 senv0 :=
  ⟨⟨rfl, rfl, rfl, fun x => List.length_replicate, fun x => List.length_replicate⟩,
   ⟨_, _, _, rfl, by decide, by decide⟩, fun _ _ _ _ => rfl, fun _ _ _ _ => ⟨rfl, rfl, fun _ => List.cons_ne_nil _ _⟩,
   ⟨fun n => List.length_replicate, fun x => List.length_replicate, fun x => List.length_replicate,
    fun _ _ => List.cons_ne_nil _ _⟩⟩

/-- later, with other random bytes -/
def senv74 : Server.Env := { senv0 with now := 9000, uniq := [9, 9, 9, 9] }
def cenv74 : Consumer.Env := { cenv0 with now := 9500 }

-- Two sides with empty stores: the login succeeds, whether the provider still has the association that was made or has lost
-- everything since.
example (lost : Bool) : ∃ (sc : MemStore.Kept) (sp : MemStore.Kept) (s1 : UserSession) (q' : Dict Str Str)
    (sc3 sp5 : MemStore.Kept) (s2 : UserSession) (m : Msg) (signed : List Str),
    live (MemStore.keptStep clock0) cenv74.now (webOf pairServer0 senv74 defaultAssociationOrder (fun _ _ => [])
      endpoint0.serverUrl (MemStore.keptStep clock0) (fun _ => .error .fetchingError) (fun _ _ => .error .fetchingError))
      (fun _ => .error .discoveryFailure)
      (complete pairConsumer0 cconf0 cenv74 s1 q' t!"HTTP://rp.example:80/back") sc sp =
        ((sc3, sp5), .ok (s2, .ok (.success endpoint0 m signed))) := by
  obtain ⟨sc1, sp1, s1, req, -, h2, -, h10, h3, -, h4, h5⟩ := c74_login (W := pairConsumer0) (V := pairServer0) (C := cconf0)
    (n := defaultAssociationOrder) (E0 := cenv0) (E1 := senv0) (text := fun _ _ => [])
    (pages := fun _ => .error .fetchingError) (elsewhere := fun _ _ => .error .fetchingError) (anonymous := false)
    rfl rfl (by intro t k x; simp [pairServer0, sworld0, smac0])
    (by intro alias uri h; simp [pairConsumer0, pairServer0, sworld0] at h)
    (by intro alias uri h; simp [pairServer0, sworld0] at h) (fun _ => can0) (c74_memory_store clock0) (fun _ _ _ _ => ⟨_, rfl⟩)
    (MemStore.faithful clock0) (fun _ _ _ _ => ⟨_, rfl⟩) (disc := fun _ => .ok (t!"http://u.example/", [endpoint0]))
    (typed := t!"u.example") rfl askable0 (by simp) (by decide) none MemStore.keptInit MemStore.keptInit
    (by intro h a k; cases k) trivial
  obtain ⟨url, -, h6⟩ := h5 _ _ _ returnable0 false
  obtain ⟨r, resp, w, sp3, -, -, -, h7, -, ⟨q', hq'⟩, h8⟩ := h6 senv74 (if lost then MemStore.keptInit else sp1) (by
      cases lost with
      | false => exact h2
      | true => exact InStep.sub h2 (Server.Sub.rfl' _) (fun k b h => by cases h)) (by decide) (by decide)
    (parameters url) (Dict.WF_ofPairs _) (fun _ => rfl)
  have hmade : ∀ h a, MemStore.keptView sc1 endpoint0.serverUrl h = some a → a.issued = 5 ∧
      a.lifetime = 1209600 ∧ ∃ b, Makes pairServer0 senv0 b ∧ SameAssociation a b := by
    intro h a k
    rcases h3.adds _ _ _ k with k | ⟨-, -, -, k1, k2, b, k3, k4, -⟩
    · cases k
    · exact ⟨k1, k2, b, k3, k4⟩
  obtain ⟨sc3, sp5, s2, m, signed, h9, -⟩ := h8 q' hq' cenv74 senv74 sc1 sp3 (fun _ => .error .discoveryFailure) h7 (by
      refine ⟨?_, ?_, fun _ _ _ h => h, fun _ _ _ h => h, by decide⟩
      · intro a hra
        obtain ⟨k1, -⟩ := h10 a hra
        obtain ⟨k2, k3, -⟩ := hmade _ _ k1
        exact ⟨k1, by rw [expired, k2, k3]; decide⟩
      · intro b hb
        cases hx : MemStore.keptView sc1 endpoint0.serverUrl b.handle with
        | none => rfl
        | some a =>
          obtain ⟨-, -, b', hb', hs⟩ := hmade _ _ hx
          have hh := (h2 _ _ hx).1
          rw [hs.handle] at hh
          obtain ⟨_, t1, -, -, -, e1⟩ := hb
          obtain ⟨_, t2, -, -, -, e2⟩ := hb'
          rw [e1, e2] at hh
          exfalso
          revert hh
          rcases t1 with ⟨t1, -⟩ | ⟨t1, -⟩ <;> rcases t2 with ⟨t2, -⟩ | ⟨t2, -⟩ <;> rw [t1, t2] <;> decide) ⟨by decide, fun h => by cases h4 _ _ _ h⟩
  exact ⟨sc1, sp3, s1, q', sc3, sp5, s2, m, signed, h9⟩

end Props
