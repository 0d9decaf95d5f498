import Verif.Lemmas.HonestAsk
import Verif.Props.ConsumerAccepts
/-! # From the answer to its acceptance -/

namespace Honest
open Py Message Association Store Discover Consumer Spec Oidutil
open Server (Exactly)

theorem own_filled {e : Endpoint} {nonce : Str}
    (hv : versionOf e = t!"http://openid.net/signon/1.0" → ∃ c, e.claimedId = some c ∧ c ≠ []) (hn : nonce ≠ []) :
    ∀ p ∈ ownArgs e nonce, p.2 ≠ [] := by
  intro p hp
  rw [ownArgs] at hp
  rcases List.mem_cons.1 hp with rfl | hp
  · exact hn
  · split at hp
    · next h =>
      obtain ⟨c, hc, hne⟩ := hv h
      simp at hp; subst hp
      rw [hc]; exact hne
    · cases hp

theorem chosen_claimed {identity c : Str} {claimed : Option Str} (hc : c ≠ [])
    (h : claimed = some c ∨ c = identity ∧ (claimed = none ∨ claimed = some [])) :
    (given claimed).or (some identity) = some c := by
  rcases h with rfl | ⟨rfl, rfl | rfl⟩
  · cases c with
    | nil => exact absurd rfl hc
    | cons ch c => rfl
  · rfl
  · rfl

theorem second_version {W : World} {x : Msg} {e : Endpoint} {ownNonce : Str} {l : List (Str × Option Str)} {current returnTo : Str}
    {q : Dict Str Str} {m m2 : Msg} (hv : versionOf e = t!"http://specs.openid.net/auth/2.0")
    (hA : Arrived W x e ownNonce l current returnTo q m m2) : m.getOpenIDNamespace = some OPENID2_NS := by
  rcases versions_of hA.wf hA.parsed hA.ns with ⟨h, -⟩ | ⟨-, h, -⟩
  · exact h
  · have := hA.v1.1 h
    rw [hv] at this; exact absurd this (by decide)

/-- a discovered service either matches or is passed over -/
theorem single_total {W : World} {d : Endpoint} {t : Str} {c b f : Str} {i server : Option Str}
    (h : Url.urldefrag W.uni c = .ok (b, f)) :
    verifyDiscoverySingle W d ⟨[t], some c, i, server⟩ = .ok () ∨
    ∃ x, verifyDiscoverySingle W d ⟨[t], some c, i, server⟩ = .error x ∧ isProtocolError (.py x) = true := by
  unfold verifyDiscoverySingle
  simp only
  by_cases h1 : d.usesExtension t = true
  · have e1 : checkTypes d [t] = .ok () := by rw [checkTypes, if_pos h1]; rfl
    rw [e1, ok_bind, checkClaimed, h, ok_bind]
    by_cases h2 : d.claimedId = some b
    · simp only [if_pos h2, pure_eq_ok, ok_bind]
      split
      · exact .inr ⟨_, rfl, rfl⟩
      · split
        · exact .inl rfl
        · split
          · exact .inl rfl
          · exact .inr ⟨_, rfl, rfl⟩
    · simp only [if_neg h2]
      exact .inr ⟨_, rfl, rfl⟩
  · refine .inr ⟨.typeURIMismatch, ?_, rfl⟩
    rw [checkTypes, if_neg h1]; rfl

theorem services_ok {W : World} {c i u t : Str} {found : List Endpoint} {d : Endpoint} (hd : d ∈ found)
    (ha : Spec.Agrees W [t] d c i) (hu : d.serverUrl = u) :
    ∃ d' ∈ found, Agrees W [t] d' c i ∧ d'.serverUrl = u ∧
      verifyDiscoveredServices W [⟨[t], some c, some i, some u⟩] found = .ok d' := by
  induction found with
  | nil => cases hd
  | cons x r ih =>
    obtain ⟨b, f, hb, -⟩ := ha.claimed
    rcases single_total (d := x) (t := t) (i := some i) (server := some u) hb with h | ⟨y, h, hy⟩
    · obtain ⟨c', hc, g1, g2⟩ := single_ok h
      cases hc
      refine ⟨x, by simp, g1, (g2 u rfl).symm, ?_⟩
      rw [verifyDiscoveredServices, matchesAny, h]; rfl
    · rcases List.mem_cons.1 hd with rfl | hd
      · rw [single_of ha (by rintro _ ⟨⟩; exact hu.symm)] at h; cases h
      · obtain ⟨d', q1, q2, q3, q4⟩ := ih hd
        refine ⟨d', List.mem_cons_of_mem _ q1, q2, q3, ?_⟩
        rw [verifyDiscoveredServices, matchesAny, h]
        simp only [hy, if_true, matchesAny, ok_bind, Bool.false_eq_true, if_false]
        exact q4

/-- the user was chosen by the provider: discovery on what the answer claims -/
theorem discovered_again {W : World} {m : Msg} {q : Dict Str Str} {e : Endpoint} {c i u url : Str} {found : List Endpoint}
    {d : Endpoint} (hg : Got W.reg m q) (ho : m.getOpenIDNamespace = some OPENID2_NS)
    (h1 : arg q t!"claimed_id" = some c) (h2 : arg q t!"identity" = some i) (h3 : arg q t!"op_endpoint" = some u)
    (he : t!"http://specs.openid.net/auth/2.0/signon" ∉ e.typeUris) (hd : d ∈ found)
    (ha : Spec.Agrees W [t!"http://specs.openid.net/auth/2.0/signon"] d c i) (hu : d.serverUrl = u) :
    ∃ d' ∈ found, Agrees W [t!"http://specs.openid.net/auth/2.0/signon"] d' c i ∧ d'.serverUrl = u ∧
      Runs (verifyDiscoveryResults W m (some e)) [.discover c (.ok (url, found))] (.ok { d' with claimedId := some c }) := by
  obtain ⟨d', q1, q2, q3, q4⟩ := services_ok hd ha hu
  refine ⟨d', q1, q2, q3, ?_⟩
  have g : ∀ k, '.' ∉ k → k ≠ t!"ns" → m.getArg (.uri OPENID2_NS) k = .ok (arg q k) := fun k a b => by
    rw [getArg_uri ho (by decide), hg.get k a b]
  rw [verifyDiscoveryResults, if_pos ho, verifyDiscoveryResults2]
  refine runs_py_ok (a := some c) (by rw [g _ (by decide) (by decide), h1]) ?_
  refine runs_py_ok (a := some i) (by rw [g _ (by decide) (by decide), h2]) ?_
  refine runs_py_ok (a := u) (by rw [getArgReq_ok, g _ (by decide) (by decide), h3]) ?_
  simp only
  refine runs_seq (e1 := [_]) (e2 := []) (a := d') ?_ ⟨rfl, rfl⟩
  have hx : verifyDiscoverySingle W e ⟨[OPENID_2_0_TYPE], some c, some i, some u⟩ = .error .typeURIMismatch := by
    rw [verifyDiscoverySingle, checkTypes, if_neg]
    · rfl
    · simpa [Endpoint.usesExtension, OPENID_2_0_TYPE] using he
  rw [endpointFor2, hx]
  simp only [isProtocolError, if_true]
  rw [discoverAndVerify]
  refine runs_seq (e1 := [_]) (e2 := []) (a := (url, found)) (runs_discover.2 ⟨_, rfl, rfl⟩) ?_
  rw [show OPENID_2_0_TYPE = t!"http://specs.openid.net/auth/2.0/signon" from rfl, q4]
  exact ⟨rfl, rfl⟩

theorem assertion_plain (returnTo nonce : Str) (server identity claimed invalid : Option Str) (k v : Str)
    (h : argsOf (assertion returnTo nonce server identity claimed invalid) k = some v) : '.' ∉ k ∧ k ≠ t!"ns" :=
  whole_names returnTo nonce server identity claimed invalid [] [] [] _ (List.mem_append_left _ (argsOf_mem h))

/-- signed with a shared association -/
theorem run_shared {σ : Type} {W : Consumer.World} {V : Server.World} (hmac : V.mac = W.mac)
    (hH : ∀ t k x, W.mac t k x ≠ []) (hreg : ∀ alias uri, W.reg.get? alias = some uri → uri ≠ t!"sreg")
    {C : Conf} (hC : C.hasStore = true) {E2 : Consumer.Env} {Es : Server.Env} {s1 : UserSession} {x : Msg} {e : Endpoint}
    (hT : Tagged x (versionOf e)) (hB : Bearer W.reg x (versionOf e))
    {realm returnTo current : Str} (hr : Returnable W.uni realm returnTo current) {w0 : Nat} {salt0 : Str}
    (hov : ∀ p ∈ ownArgs e (Nonce.mkNonce w0 salt0), p.2 ≠ []) (hserver : Line e.serverUrl) {i c : Option Str}
    (hi : ∀ v, i = some v → Line v) (hcl : ∀ v, c = some v → Line v)
    (hi1 : versionOf e = t!"http://openid.net/signon/1.0" → i ≠ none)
    {a b a' : Assoc} (hh : Plain a.handle) (hat : a.assocType = t!"HMAC-SHA1" ∨ a.assocType = t!"HMAC-SHA256")
    {step : σ → Event → σ × Outcome} {st st' : σ}
    (hst : step st (Es.now, .getAssociation t!"http://localhost/|normal" (some a.handle)) = (st', .ok (.assoc (some b))))
    (hb : SameAssociation a b) (hbx : ¬ expired (Es.seconds V) b)
    (ha' : SameAssociation a a') (hax : ¬ expired (E2.seconds W) a')
    (hsalt : Line Es.salt) (ht0 : w0 < 253402300800) (hts : V.clock.seconds Es.now < 253402300800)
    {r : Server.CheckIDRequest} {resp : Server.Response} (hrh : r.assocHandle = some a.handle)
    (hrr : r.returnTo = some (appendArgsSeq returnTo (ownArgs e (Nonce.mkNonce w0 salt0)))) (hrq : resp.request = .checkId r)
    (hx : Holds x resp.fields (versionOf e) (argsOf (assertion (appendArgsSeq returnTo (ownArgs e (Nonce.mkNonce w0 salt0)))
      (Nonce.mkNonce (V.clock.seconds Es.now).toNat Es.salt) (some e.serverUrl) i c none))) :
    ∃ w signed sig, Server.Prog.run step Es.now st (Server.signingEncode V Es resp) = (st', .ok w) ∧ (∃ q', Brings w q') ∧
    (∀ k v, '.' ∈ k → resp.fields.toPostArgs.get? (t!"openid." ++ k) = some v → k ∈ splitOn ',' signed) ∧
    ∀ q', Brings w q' → ∃ m m2, Arrived W x e (Nonce.mkNonce w0 salt0)
        (whole (appendArgsSeq returnTo (ownArgs e (Nonce.mkNonce w0 salt0)))
          (Nonce.mkNonce (V.clock.seconds Es.now).toNat Es.salt) (some e.serverUrl) i c none b.handle signed sig)
        current (appendArgsSeq returnTo (ownArgs e (Nonce.mkNonce w0 salt0))) q' m m2 ∧
      ∀ e1 e', e'.serverUrl = e.serverUrl → Runs (verifyDiscoveryResults W m s1.token) e1 (.ok e') →
      ∃ s2, Runs (complete W C E2 s1 q' current)
        (e1 ++ [.store (.getAssociation e.serverUrl (some a.handle)) (.ok (.assoc (some a'))),
         .store (if versionOf e = t!"http://openid.net/signon/1.0" then .useNonce [] w0 salt0
            else .useNonce e.serverUrl (V.clock.seconds Es.now).toNat Es.salt) (.ok (.bool true))])
        (.ok (s2, .ok (.success e' m ((splitOn ',' signed).map (t!"openid." ++ ·))))) := by
  have hline : '\n' ∉ appendArgsSeq returnTo (ownArgs e (Nonce.mkNonce w0 salt0)) :=
    append_chars _ (by decide) hr.plain.2.2.2.1
  obtain ⟨f, signed, sig, k1, k2, k3, k4, ⟨k5, k9⟩, k6, k7, k8⟩ := sign_holds (H := V.mac) (by rw [hmac]; exact hH) (b := b)
    (by rw [← hb.type, allAssociationTypes]; rcases hat with h | h <;> rw [h] <;> decide) (by rw [← hb.handle]; exact hh.2.1) hB hT hx
    (assertion_plain _ _ _ _ _ _) (by
      intro k v hkv
      simp only [assertion, List.mem_cons, Prod.mk.injEq, Option.some.injEq, List.not_mem_nil, or_false] at hkv
      rcases hkv with ⟨rfl, rfl⟩ | ⟨rfl, rfl⟩ | ⟨rfl, rfl⟩ | ⟨rfl, rfl⟩ | ⟨rfl, hv⟩ | ⟨rfl, hv⟩ | ⟨rfl, hv⟩
      · decide
      · exact ⟨by decide, by decide, by decide, hline⟩
      · exact ⟨by decide, by decide, by decide, nonce_line _ _ hsalt.1⟩
      · exact ⟨by decide, by decide, by decide, hserver.1⟩
      · exact ⟨by decide, by decide, by decide, (hi v hv.symm).1⟩
      · exact ⟨by decide, by decide, by decide, (hcl v hv.symm).1⟩
      · cases hv) (assertion_names _ _ _ _ _ _)
  have hsign := signed_shared (V := V) (Es := Es) (step := step) (st := st) (st' := st') (resp := resp) (handle := a.handle)
    (b := b) (f := f) (by rw [hrq]; show Except.ok r.assocHandle = _; rw [hrh]) hh.1 hst hbx k1
  obtain ⟨w, hw1, hw2⟩ := encoded hB hx hsign (r := r) hrq hrr (whole_writable hB hT k2 (by rcases Props.version_cases e with h | h <;> rw [h] <;> decide)
    (append_legible hr.plain.2.2.2.2.1) (nonce_legible _ _ hsalt.2.1) (by rintro _ ⟨⟩; exact hserver.2.1) (fun v hv => (hi v hv).2.1)
    (fun v hv => (hcl v hv).2.1) (fun v hv => by cases hv) (by rw [← hb.handle]; exact hh.2.2.1) k9 (fun k hk => (k8 k hk).imp_right fun h => h.2.1))
  refine ⟨w, signed, sig, hw1, brings_some hw2, fun k v _ h => k7 k v h, ?_⟩
  intro q' hq'
  have hx' : Holds x f (versionOf e) (argsOf (whole _ _ (some e.serverUrl) i c none b.handle signed sig)) := k2
  obtain ⟨hw', hget⟩ := brings_get hw2 (append_chars _ (by decide) hr.plain.1) hq'
  obtain ⟨m, m2, hA, hopen⟩ := arrives hreg hr hov hB hx' (whole_names _ _ _ _ _ _ _ _ _) hw' hget
  refine ⟨m, m2, hA, fun e1 e' hu hrun => ?_⟩
  have hg := got hA.wf hA.parsed
  have hh' : arg q' t!"assoc_handle" = some a.handle := by
    rw [hA.args _ (by decide), hb.handle]; rfl
  have hsig := signature_stored (C := C) (E := E2) (url := e.serverUrl) hg.toParsed hh' hC hax
    (checked (H := W.mac) ⟨ha'.handle.symm.trans hb.handle, ha'.secret.symm.trans hb.secret, ha'.type.symm.trans hb.type⟩
      hB hx' hA hopen (by rw [← hmac]; exact k3) k4 k5)
  have hnonce := nonce_checked (C := C) (e' := e') hu hA ht0 (by omega)
  rw [if_pos hC] at hnonce
  exact ⟨_, accepted (s := s1) (C := C) (E := E2) (e1 := e1) hA (fun k v h => k7 k v (by
    rw [hx.post hB (assertion_plain _ _ _ _ _ _) k (assertion_plain _ _ _ _ _ _ k v h)]; exact h)) k6 (fun _ => by simp) hi1 hrun
    (by rw [hu]; exact hsig) hnonce⟩

/-- signed with an association made for it, and the provider asked -/
theorem run_asked {σ : Type} {W : Consumer.World} {V : Server.World}
    (hH : ∀ t k x, V.mac t k x ≠ []) (hreg : ∀ alias uri, W.reg.get? alias = some uri → uri ≠ t!"sreg")
    (hregV : ∀ alias uri, V.reg.get? alias = some uri → uri ≠ t!"sreg")
    {C : Conf} {E2 : Consumer.Env} {Es : Server.Env} {s1 : UserSession} {x : Msg} {e : Endpoint}
    (hT : Tagged x (versionOf e)) (hB : Bearer W.reg x (versionOf e)) (hBV : Bearer V.reg x (versionOf e))
    {realm returnTo current : Str} (hr : Returnable W.uni realm returnTo current) {w0 : Nat} {salt0 : Str}
    (hov : ∀ p ∈ ownArgs e (Nonce.mkNonce w0 salt0), p.2 ≠ []) (hserver : Line e.serverUrl) {i c : Option Str}
    (hi : ∀ v, i = some v → Line v) (hcl : ∀ v, c = some v → Line v)
    (hi1 : versionOf e = t!"http://openid.net/signon/1.0" → i ≠ none)
    {step : σ → Event → σ × Outcome} {view : σ → AssocMap} (hf : Faithful V.clock step view) (hw : NeverFails step) {st : σ}
    {assoc : Option Assoc}
    (hgone : ∀ a, assoc = some a → Plain a.handle ∧ strip a.handle = a.handle ∧
      ∀ b, view st t!"http://localhost/|normal" a.handle = some b →
        expired (Es.seconds V) b ∧ b.assocType ∈ [t!"HMAC-SHA1", t!"HMAC-SHA256"])
    (hsalt : Line Es.salt) (ht0 : w0 < 253402300800) (hts : V.clock.seconds Es.now < 253402300800)
    {r : Server.CheckIDRequest} {resp : Server.Response} (hrh : r.assocHandle = assoc.map (·.handle))
    (hrr : r.returnTo = some (appendArgsSeq returnTo (ownArgs e (Nonce.mkNonce w0 salt0)))) (hrq : resp.request = .checkId r)
    (hx : Holds x resp.fields (versionOf e) (argsOf (assertion (appendArgsSeq returnTo (ownArgs e (Nonce.mkNonce w0 salt0)))
      (Nonce.mkNonce (V.clock.seconds Es.now).toNat Es.salt) (some e.serverUrl) i c none))) :
    ∃ w st' b signed sig, Server.Prog.run step Es.now st (Server.signingEncode V Es resp) = (st', .ok w) ∧
      Makes V Es b ∧ view st' t!"http://localhost/|dumb" b.handle = some b ∧
      (∀ a, assoc = some a → ∀ b', view st' t!"http://localhost/|normal" a.handle = some b' → expired (Es.seconds V) b') ∧
      (∃ q', Brings w q') ∧
    (∀ k v, '.' ∈ k → resp.fields.toPostArgs.get? (t!"openid." ++ k) = some v → k ∈ splitOn ',' signed) ∧
    ∀ q', Brings w q' → ∃ m m2, Arrived W x e (Nonce.mkNonce w0 salt0)
        (whole (appendArgsSeq returnTo (ownArgs e (Nonce.mkNonce w0 salt0)))
          (Nonce.mkNonce (V.clock.seconds Es.now).toNat Es.salt) (some e.serverUrl) i c (assoc.map (·.handle)) b.handle signed sig)
        current (appendArgsSeq returnTo (ownArgs e (Nonce.mkNonce w0 salt0))) q' m m2 ∧ ∃ body,
    ∀ q2, Dict.WF q2 → (∀ k, q2.get? k = (Dict.ofPairs (Percent.parseQsl true body)).get? k) →
    ∀ (Ea : Server.Env) (op : Option Str) (sta : σ), view sta t!"http://localhost/|dumb" b.handle = some b →
      ¬ expired (Ea.seconds V) b →
      (∀ a, assoc = some a → ∀ b', view sta t!"http://localhost/|normal" a.handle = some b' → expired (Ea.seconds V) b') →
    ∃ r2 resp2 kv sta', Server.decode V Ea op q2 = .ok (some (.checkAuth r2)) ∧ r2.assocHandle = b.handle ∧
      Server.Prog.run step Ea.now sta (r2.answer V Ea) = (sta', .ok resp2) ∧
      Server.encode resp2 = .ok ⟨200, none, kv⟩ ∧
      ∀ e1 e', e'.serverUrl = e.serverUrl → Runs (verifyDiscoveryResults W m s1.token) e1 (.ok e') →
      ∀ removed, ∃ s2, Runs (complete W C E2 s1 q' current) (e1 ++
      ((if C.hasStore then [.store (.getAssociation e.serverUrl (some b.handle)) (.ok (.assoc none))] else []) ++
       [.post e.serverUrl body (.ok ⟨200, Utf8.encode kv⟩)] ++
       (match assoc with
         | some a => if C.hasStore then [.store (.removeAssociation e.serverUrl a.handle) (.ok removed)] else []
         | none => []) ++
       (if C.hasStore then
         [.store (if versionOf e = t!"http://openid.net/signon/1.0" then .useNonce [] w0 salt0
            else .useNonce e.serverUrl (V.clock.seconds Es.now).toNat Es.salt) (.ok (.bool true))] else [])))
      (.ok (s2, .ok (.success e' m ((splitOn ',' signed).map (t!"openid." ++ ·))))) := by
  have hline : '\n' ∉ appendArgsSeq returnTo (ownArgs e (Nonce.mkNonce w0 salt0)) :=
    append_chars _ (by decide) hr.plain.2.2.2.1
  have hinv : ∀ h, assoc.map (·.handle) = some h → ∃ a, assoc = some a ∧ a.handle = h := by
    intro h hh
    cases ha : assoc with
    | none => rw [ha] at hh; cases hh
    | some a => rw [ha] at hh; simp at hh; exact ⟨a, rfl, hh⟩
  have hne : assoc.map (·.handle) ≠ some [] := by
    intro hh
    obtain ⟨a, ha, h⟩ := hinv _ hh
    exact (hgone a ha).1.1 h
  obtain ⟨st', b, m0, g1, g2, g3, g4⟩ := signed_private (E := Es) hf hw st hB hx
    (by rw [hrq]; show Except.ok r.assocHandle = _; rw [hrh]) hne (by
      intro h hh a hv
      obtain ⟨a', ha, rfl⟩ := hinv _ hh
      exact (hgone a' ha).2.2 a hv)
  have hx0 : Holds x m0 (versionOf e) (argsOf (assertion
      (appendArgsSeq returnTo (ownArgs e (Nonce.mkNonce (w0) salt0)))
      (Nonce.mkNonce (V.clock.seconds Es.now).toNat Es.salt) (some e.serverUrl)
      i
      c (assoc.map (·.handle)))) := by
    cases hai : assoc.map (·.handle) with
    | none => rw [hai] at g3; simp only at g3; rw [g3]; exact hx
    | some h =>
      rw [hai] at g3
      refine (hx.set hB g3).congr fun k => ?_
      by_cases hk : t!"invalidate_handle" = k
      · subst hk; rfl
      · rw [if_neg hk]
        simp [assertion, argsOf, Ne.symm hk]
  obtain ⟨n, gt, gs, gi, gl, gh⟩ := g1
  have hbt : b.assocType ∈ allAssociationTypes := by
    rw [allAssociationTypes]; rcases gt with ⟨h, -⟩ | ⟨h, -⟩ <;> rw [h] <;> decide
  have hbh : '\n' ∉ b.handle := by
    rw [gh]
    refine (Server.clean_of (Server.handle_noSpace ?_ _ _)).1
    rcases gt with ⟨h, -⟩ | ⟨h, -⟩ <;> rw [h] <;> decide
  obtain ⟨f, signed, sig, k1, k2, k3, k4, ⟨k5, k9⟩, k6, k7, k8⟩ := sign_holds (H := V.mac) hH (b := b) hbt hbh hB hT hx0
    (assertion_plain _ _ _ _ _ _) (by
      intro k v hkv
      simp only [assertion, List.mem_cons, Prod.mk.injEq, Option.some.injEq, List.not_mem_nil, or_false] at hkv
      rcases hkv with ⟨rfl, rfl⟩ | ⟨rfl, rfl⟩ | ⟨rfl, rfl⟩ | ⟨rfl, rfl⟩ | ⟨rfl, hv⟩ | ⟨rfl, hv⟩ | ⟨rfl, hv⟩
      · decide
      · exact ⟨by decide, by decide, by decide, hline⟩
      · exact ⟨by decide, by decide, by decide, nonce_line _ _ hsalt.1⟩
      · exact ⟨by decide, by decide, by decide, hserver.1⟩
      · exact ⟨by decide, by decide, by decide, (hi v hv.symm).1⟩
      · exact ⟨by decide, by decide, by decide, (hcl v hv.symm).1⟩
      · refine ⟨by decide, by decide, by decide, ?_⟩
        obtain ⟨a, ha, rfl⟩ := hinv _ hv.symm
        exact (hgone a ha).1.2.1) (assertion_names _ _ _ _ _ _)
  obtain ⟨w, hw1, hw2⟩ := encoded hB hx (g4 f k1) (r := r) hrq hrr (whole_writable hB hT k2 (by rcases Props.version_cases e with h | h <;> rw [h] <;> decide)
    (append_legible hr.plain.2.2.2.2.1) (nonce_legible _ _ hsalt.2.1) (by rintro _ ⟨⟩; exact hserver.2.1) (fun v hv => (hi v hv).2.1)
    (fun v hv => (hcl v hv).2.1) (fun v hv => by obtain ⟨a, ha, rfl⟩ := hinv _ hv; exact (hgone a ha).1.2.2.1)
    (by rw [gh]; refine handle_legible ?_ _ _; rcases gt with ⟨h, -⟩ | ⟨h, -⟩ <;> rw [h] <;> decide) k9 (fun k hk => (k8 k hk).imp_right fun h => h.2.1))
  refine ⟨w, st', b, signed, sig, hw1, ⟨n, gt, gs, gi, gl, gh⟩, g2, ?_, brings_some hw2, fun k v hk h => k7 k v (by
    rw [hx0.dotted hB (assertion_plain _ _ _ _ _ _) hx (assertion_plain _ _ _ _ _ _) hk]; exact h), ?_⟩
  · intro a ha b' hb'
    obtain ⟨_, _, -, -, -, -, -, h, -⟩ := Props.c32_fallback V step view hf st st' Es resp _ a.handle
      (by rw [hrq]; show Except.ok r.assocHandle = _; rw [hrh, ha]; rfl) (hgone a ha).1.1
      (fun b hb => ((hgone a ha).2.2 b hb).1) (g4 f k1)
    exact h b' hb'
  intro q' hq'
  have hx' : Holds x f (versionOf e) (argsOf (whole _ _ (some e.serverUrl)
    i
    c
    (assoc.map (·.handle)) b.handle signed sig)) := k2
  obtain ⟨hw', hget⟩ := brings_get hw2 (append_chars _ (by decide) hr.plain.1) hq'
  obtain ⟨m, m2, hA, hopen⟩ := arrives hreg hr hov hB hx' (whole_names _ _ _ _ _ _ _ _ _) hw' hget
  have hg := got hA.wf hA.parsed
  have hver := versions_of hA.wf hA.parsed hA.ns
  have hh' : arg q' t!"assoc_handle" = some b.handle := by
    rw [hA.args _ (by decide)]; rfl
  have hsl : arg q' t!"signed" = some signed := by
    rw [hA.args _ (by decide)]; rfl
  obtain ⟨ask, a1, a2⟩ := asks hregV hBV hx' hA hopen k3 k4 k5
  refine ⟨m, m2, hA, ask.toURLEncoded, fun q2 hwq2 hq2 Ea op sta v1 v2 v3 => ?_⟩
  obtain ⟨r2, b1, b2, b3, b4, b5⟩ := a2 Ea op q2 hwq2 hq2
  obtain ⟨sta', resp2, d1, d2, d3⟩ := vouches (E := Ea) hf hw sta (r := r2) (b := b) (by rw [b2]; exact v1) v2 b5 b4
    (by rcases Props.version_cases e with h | h <;> rw [h] <;> decide) (by rw [b3]; exact hne) (by
      intro h hh a hv
      rw [b3] at hh
      obtain ⟨a', ha, rfl⟩ := hinv _ hh
      exact v3 a' ha a hv)
  rw [b3] at d3
  obtain ⟨kv, response, f1, f2, f3, f4⟩ := replied (W := W) d2 (by
    intro h hh
    obtain ⟨a, ha, rfl⟩ := hinv _ hh
    exact ⟨(hgone a ha).1.2.1, (hgone a ha).2.1⟩) d3
  refine ⟨r2, resp2, kv, sta', b1, b2, d1, f1, fun e1 e' hu hdisc removed => ?_⟩
  have hnonce := nonce_checked (C := C) (e' := e') hu hA ht0 (by omega)
  have hpres : signedPresent m (signedNames (arg q' t!"signed")) = .ok true := by
    rw [hsl]
    have hall : ∀ f ∈ splitOn ',' signed, ∃ v, m.getAliasedArg f = .ok (some v) := by
      intro k hk
      have hmem : ∀ v, argsOf (whole (appendArgsSeq returnTo (ownArgs e (Nonce.mkNonce (w0) salt0)))
          (Nonce.mkNonce (V.clock.seconds Es.now).toNat Es.salt) (some e.serverUrl)
          i
          c
          (assoc.map (·.handle)) b.handle signed sig) k = some v → ∃ v, m.getAliasedArg k = .ok (some v) := by
        intro v hv
        have w1 := whole_names _ _ _ _ _ _ _ _ _ _ (argsOf_mem hv)
        exact aliased_plain hg hver w1.1 (.inr ⟨v, by rw [hA.args k w1]; exact hv⟩)
      rcases k8 k hk with (rfl | ⟨v, hv⟩ | rfl | rfl) | ⟨h1, -, v, h2⟩
      · exact aliased_plain hg hver (by decide) (.inl rfl)
      · by_cases hka : k ∈ [t!"assoc_handle", t!"signed", t!"sig"]
        · simp only [List.mem_cons, List.not_mem_nil, or_false] at hka
          rcases hka with rfl | rfl | rfl
          · exact hmem b.handle rfl
          · exact hmem signed rfl
          · exact hmem sig rfl
        · simp only [List.mem_cons, List.not_mem_nil, or_false, not_or] at hka
          refine hmem v ?_
          simpa [whole, assertion, signedArgs, argsOf, hka] using hv
      · exact hmem b.handle rfl
      · exact hmem signed rfl
      · exact aliased_dotted hB hx0 (assertion_plain _ _ _ _ _ _) hA.carried h1 h2
    cases signed with
    | nil => exact absurd rfl k4
    | cons ch signed => exact present_of _ hall
  have hrun : Runs (invalidate C e.serverUrl (assoc.map (·.handle))) (match assoc with
         | some a => if C.hasStore then [.store (.removeAssociation e.serverUrl a.handle) (.ok removed)] else []
         | none => []) (.ok ()) := by
    cases assoc with
    | none => exact ⟨rfl, rfl⟩
    | some a =>
      show Runs (if C.hasStore then dropAssoc e.serverUrl a.handle else pure ()) _ _
      cases C.hasStore with
      | false => exact ⟨rfl, rfl⟩
      | true => exact runs_dropAssoc_ok.2 ⟨_, rfl⟩
  have hsig := signature_asked (W := W) (C := C) (E := E2) (url := e.serverUrl) hg.toParsed hh' hpres a1 f2 f3 f4 hrun
  have := accepted (s := s1) (C := C) (E := E2) (e1 := e1) hA (fun k v h => k7 k v (by
    rw [hx0.post hB (assertion_plain _ _ _ _ _ _) k (assertion_plain _ _ _ _ _ _ k v h)]; exact h)) k6 (fun _ => by simp) hi1 hdisc (by rw [hu]; exact hsig) hnonce
  exact ⟨_, by simpa using this⟩

end Honest
