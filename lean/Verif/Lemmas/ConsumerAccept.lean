import Verif.Lemmas.ConsumerVerify
/-! # The checks of a completion pass where what they check holds -/

namespace Consumer
open Py Message Association Cryptutil Store Discover Spec
open Server (Parsed parsed)

theorem runs_py_ok {α β : Type} {x : Except PyErr α} {a : α} (hx : x = .ok a) {f : α → Prog β} {evs : List Ev}
    {r : Except Err β} (h : Runs (f a) evs r) : Runs (Prog.ofPy x >>= f) evs r :=
  (runs_py_bind _ _ _ _).2 (.inl ⟨a, hx, h⟩)

theorem runs_seq {α β : Type} {p : Prog α} {a : α} {e1 : List Ev} (hp : Runs p e1 (.ok a)) {f : α → Prog β} {e2 : List Ev}
    {r : Except Err β} (h : Runs (f a) e2 r) : Runs (p >>= f) (e1 ++ e2) r :=
  (runs_bind _ _ _ _).2 (.inl ⟨e1, e2, a, rfl, hp, h⟩)

/-- the two versions with known fields -/
theorem versions_of {m : Msg} {reg q : Dict Str Str} (hq : Dict.WF q) (hm : fromPostArgs reg q = .ok m)
    (hns : arg q t!"ns" ∈ [none, some OPENID1_NS, some OPENID2_NS]) :
    (m.getOpenIDNamespace = some OPENID2_NS ∧ ¬ IsV1 q ∧ m.isOpenID1 = false) ∨
     (m.getOpenIDNamespace = some OPENID1_NS ∧ IsV1 q ∧ m.isOpenID1 = true) := by
  have hp := parsed hq hm
  have hv : m.getOpenIDNamespace = some ((arg q t!"ns").getD OPENID1_NS) := (fromPostArgs_has hq hm).1.ns
  have h1 : m.getOpenIDNamespace = some OPENID2_NS ∨ m.getOpenIDNamespace = some OPENID1_NS := by
    rw [hv]
    simp only [List.mem_cons, List.not_mem_nil, or_false] at hns
    rcases hns with h | h | h <;> rw [h]
    · exact .inr rfl
    · exact .inr rfl
    · exact .inl rfl
  apply version_of hp (l := (if m.getOpenIDNamespace = some OPENID2_NS then neededFields false else neededFields true))
  rcases h1 with h | h <;> rw [h] <;> rfl

theorem fields_of {m : Msg} {q : Dict Str Str} (hp : Parsed m q)
    (hv : (m.getOpenIDNamespace = some OPENID2_NS ∧ ¬ IsV1 q ∧ m.isOpenID1 = false) ∨
     (m.getOpenIDNamespace = some OPENID1_NS ∧ IsV1 q ∧ m.isOpenID1 = true))
    (h1 : ∀ f ∈ neededFields (decide (IsV1 q)), ∃ v, arg q f = some v) {l : Str} (hl : arg q t!"signed" = some l)
    (h2 : ∀ f ∈ neededSigned (decide (IsV1 q)), ∀ v, arg q f = some v → f ∈ splitOn ',' l) :
    idResCheckForFields m = .ok () := by
  have e1 : requiredFields (m.getOpenIDNamespace.getD []) = .ok (neededFields (decide (IsV1 q))) := by
    rcases hv with ⟨h, h', -⟩ | ⟨h, h', -⟩ <;> rw [h] <;> simp only [h', decide_true, decide_false] <;> rfl
  have e2 : requiredSigs (m.getOpenIDNamespace.getD []) = .ok (neededSigned (decide (IsV1 q))) := by
    rcases hv with ⟨h, h', -⟩ | ⟨h, h', -⟩ <;> rw [h] <;> simp only [h', decide_true, decide_false] <;> rfl
  have hn1 : ∀ b, ∀ f ∈ neededFields b, '.' ∉ f ∧ f ≠ t!"ns" := by decide
  have hn2 : ∀ b, ∀ f ∈ neededSigned b, '.' ∉ f ∧ f ≠ t!"ns" := by decide
  have e3 : checkPresent m (neededFields (decide (IsV1 q))) = .ok () := by
    rw [checkPresent_ok]
    intro f hf
    obtain ⟨v, hv⟩ := h1 f hf
    exact ⟨v, by rw [hp.get f (hn1 _ f hf).1 (hn1 _ f hf).2, hv]⟩
  have e4 : m.getArgReq .openid t!"signed" = .ok l := by
    rw [getArgReq_ok, hp.get _ (by decide) (by decide), hl]
  have hget : ∀ f ∈ neededSigned (decide (IsV1 q)), m.getArg .openid f = .ok (arg q f) :=
    fun f hf => hp.get f (hn2 _ f hf).1 (hn2 _ f hf).2
  have e5 : checkSigned m (splitOn ',' l) (neededSigned (decide (IsV1 q))) = .ok () := by
    rw [checkSigned_ok (fun f hf => ⟨_, hget f hf⟩)]
    intro f hf v hfv
    rw [hget f hf] at hfv
    exact h2 f hf v (by simpa using hfv)
  rw [idResCheckForFields, e1, ok_bind, e3, ok_bind, e4, ok_bind, e2, ok_bind, e5]

theorem returnTo_of {W : World} {m : Msg} {q : Dict Str Str} {current rt : Str} (hg : Got W.reg m q)
    (hrt : arg q t!"return_to" = some rt) {m2 : Msg} (hm2 : fromPostArgs W.reg m.toPostArgs = .ok m2)
    (h : ReturnedTo W q m current rt) : returnToMatches W m current = .ok () := by
  have hw : Dict.WF m.toPostArgs := by rw [toPostArgs_eq]; exact Dict.WF_ofPairs _
  have hg2 := got hw hm2
  obtain ⟨⟨a, b, x, y, b1, b2, b3, b4, b5, b6, b7⟩, u, hu, u1, u2⟩ := h
  have hpost : arg m.toPostArgs t!"return_to" = some rt := by
    rw [arg, hg.post _ (by decide) (by decide)]; exact hrt
  have e1 : m2.getArg .openid t!"return_to" = .ok (some rt) := by
    rw [hg2.get _ (by decide) (by decide), hpost]
  have e2 : checkReturnToArgs m.toPostArgs (Percent.parseQsl true u.query) = .ok () :=
    checkReturnToArgs_ok.2 fun k v hkv => (u1 k v hkv).1
  obtain ⟨bare, hb⟩ : ∃ bare, m2.getArgs .bare = .ok bare := ⟨_, rfl⟩
  have e3 : bare.all (fun p => (Percent.parseQsl true u.query).contains p) = true := by
    rw [List.all_eq_true]
    rintro ⟨k, v⟩ hkv
    have hwb := (Props.c09_getArgs W.reg m2 hg2.built .bare bare hb)
    have hd := hwb.2 k
    rw [Dict.get?_of_mem bare hwb.1 k v hkv] at hd
    by_cases hk : startsWith k t!"openid." = true
    · rw [hg2.noBare k hk] at hd; cases hd
    · rw [Bool.not_eq_true] at hk
      rw [hg2.bare k hk, hg.postBare k hk] at hd
      simp only [Except.ok.injEq] at hd
      simpa using u2 k v hd hk
  have e4 : verifyReturnToArgs W m.toPostArgs = .ok () := by
    rw [verifyReturnToArgs, hm2, ok_bind, e1, ok_bind]
    show (Url.urlparse W.uni rt >>= _) = _
    rw [hu, ok_bind]
    show (checkReturnToArgs _ _ >>= _) = _
    rw [e2, ok_bind, hb, ok_bind, if_pos e3]; rfl
  rw [returnToMatches, checkReturnTo, e4]
  simp only
  rw [hg.get _ (by decide) (by decide), hrt, ok_bind, Option.getD_some, sameBase, b1, ok_bind, b3, ok_bind, b2, ok_bind, b4,
    ok_bind]
  simp [b5, b6, b7]

theorem single_of {W : World} {d : Endpoint} {t c i : Str} {server : Option Str} (h : Agrees W [t] d c i)
    (hs : ∀ u, server = some u → u = d.serverUrl) : verifyDiscoverySingle W d ⟨[t], some c, some i, server⟩ = .ok () := by
  obtain ⟨⟨t', ht, hd⟩, ⟨b, f, hb, hc⟩, hi⟩ := h
  simp only [List.mem_cons, List.not_mem_nil, or_false] at ht
  subst ht
  have e1 : checkTypes d [t'] = .ok () := checkTypes_ok.2 (by simpa using hd)
  have e2 : checkClaimed W d (some c) = .ok () := by
    rw [checkClaimed, hb, ok_bind]; simp [hc]
  rw [verifyDiscoverySingle, e1, ok_bind, e2, ok_bind]
  simp only
  rw [if_neg (by rw [localIdOf_given, localIdOf_eq, hi]; simp)]
  cases server with
  | none => rfl
  | some u => simp [hs u rfl]

theorem discovery_of {W : World} {m : Msg} {q : Dict Str Str} {session : Option Endpoint} {e : Endpoint}
    (hg : Got W.reg m q)
    (hv : (m.getOpenIDNamespace = some OPENID2_NS ∧ ¬ IsV1 q ∧ m.isOpenID1 = false) ∨
     (m.getOpenIDNamespace = some OPENID1_NS ∧ IsV1 q ∧ m.isOpenID1 = true))
    (h : Confirmed W session q [] e) : Runs (verifyDiscoveryResults W m session) [] (.ok e) := by
  have hdis : ∀ c d, Discovered session [] c d → session = some d := by
    rintro c d (h | ⟨_, _, h, -⟩)
    · exact h
    · cases h
  rw [verifyDiscoveryResults]
  rcases hv with ⟨ho, hv, -⟩ | ⟨ho, hv, -⟩
  · rw [if_pos ho, verifyDiscoveryResults2]
    rw [Confirmed, if_neg hv] at h
    have g : ∀ k, '.' ∉ k → k ≠ t!"ns" → m.getArg (.uri OPENID2_NS) k = .ok (arg q k) := fun k a b => by
      rw [getArg_uri ho (by decide), hg.get k a b]
    rcases h with ⟨c, i, d, h1, h2, h3, h4, h5, rfl⟩ | ⟨server, h1, h2, h3, rfl⟩
    · refine runs_py_ok (a := some c) (by rw [g _ (by decide) (by decide), h1]) ?_
      refine runs_py_ok (a := some i) (by rw [g _ (by decide) (by decide), h2]) ?_
      refine runs_py_ok (a := d.serverUrl) (by rw [getArgReq_ok, g _ (by decide) (by decide), h3]) ?_
      simp only
      refine runs_seq (e1 := []) (e2 := []) (a := d) ?_ ⟨rfl, rfl⟩
      rw [hdis c d h4, endpointFor2, show OPENID_2_0_TYPE = t!"http://specs.openid.net/auth/2.0/signon" from rfl,
        single_of h5 (by simp)]
      exact ⟨rfl, rfl⟩
    · refine runs_py_ok (a := none) (by rw [g _ (by decide) (by decide), h1]) ?_
      refine runs_py_ok (a := none) (by rw [g _ (by decide) (by decide), h2]) ?_
      refine runs_py_ok (a := server) (by rw [getArgReq_ok, g _ (by decide) (by decide), h3]) ?_
      exact ⟨rfl, rfl⟩
  · rw [if_neg (by rw [ho]; decide), verifyDiscoveryResults1]
    rw [Confirmed, if_pos hv] at h
    obtain ⟨c, i, h1, h2, h3, h4⟩ := h
    have hs := hdis c e h3
    refine runs_py_ok (hg.bare claimedIdArg (by decide)) ?_
    have e1 : claimedId1 (q.get? claimedIdArg) session = .ok (some c) := by
      rw [claimedIn, show q.get? t!"openid1_claimed_id" = q.get? claimedIdArg from rfl] at h1
      cases hq : q.get? claimedIdArg with
      | some x => rw [hq] at h1; simp at h1; subst h1; rfl
      | none =>
        rw [hq, hs] at h1
        simp at h1
        rw [hs, claimedId1, h1]
    refine runs_py_ok e1 ?_
    refine runs_py_ok (a := some i) (by rw [getArg_uri ho (by decide), hg.get _ (by decide) (by decide), h2]) ?_
    simp only
    rw [hs, endpointFor1]
    have e2 : verifyStored1 W e ⟨[OPENID_1_1_TYPE], some c, some i, none⟩ ⟨[OPENID_1_0_TYPE], some c, some i, none⟩ = .ok () := by
      obtain ⟨⟨t, ht, hd⟩, hc, hi⟩ := h4
      rw [verifyStored1]
      by_cases h11 : OPENID_1_1_TYPE ∈ e.typeUris
      · rw [single_of ⟨⟨OPENID_1_1_TYPE, by simp, h11⟩, hc, hi⟩ (by simp)]
      · have h10 : OPENID_1_0_TYPE ∈ e.typeUris := by
          simp only [List.mem_cons, List.not_mem_nil, or_false] at ht
          rcases ht with rfl | rfl
          · exact absurd hd h11
          · exact hd
        have e3 : verifyDiscoverySingle W e ⟨[OPENID_1_1_TYPE], some c, some i, none⟩ = .error .typeURIMismatch := by
          rw [verifyDiscoverySingle, checkTypes, if_neg (by simpa [Endpoint.usesExtension] using h11)]; rfl
        rw [e3]
        exact single_of ⟨⟨OPENID_1_0_TYPE, by simp, h10⟩, hc, hi⟩ (by simp)
    rw [e2]
    exact ⟨rfl, rfl⟩

theorem checked_of {H : Mac} {a : Assoc} {m : Msg} {q : Dict Str Str} (hp : Parsed m q) (h : SignedWith H a q m)
    (ha : a.assocType ∈ allAssociationTypes) (h1 : arg q t!"sig" ≠ some []) (h2 : arg q t!"signed" ≠ some []) :
    a.checkMessageSignature H m = .ok true := by
  obtain ⟨sig, signed, kv, g1, g2, g3, g4⟩ := h
  refine (Props.c13_accepts_iff H a m sig signed ?_ ?_ ?_ ?_).2 ⟨ha, kv, g3, g4⟩
  · rw [hp.get _ (by decide) (by decide), g1]
  · rintro rfl; exact h1 g1
  · rw [hp.get _ (by decide) (by decide), g2]
  · rintro rfl; exact h2 g2

theorem signature_stored {W : World} {C : Conf} {E : Env} {m : Msg} {q : Dict Str Str} {url handle : Str} {a : Assoc}
    (hp : Parsed m q) (hh : arg q t!"assoc_handle" = some handle) (hC : C.hasStore = true)
    (hx : ¬ expired (E.seconds W) a) (hc : a.checkMessageSignature W.mac m = .ok true) :
    Runs (idResCheckSignature W C E m url) [.store (.getAssociation url (some handle)) (.ok (.assoc (some a)))] (.ok ()) := by
  rw [idResCheckSignature]
  refine runs_py_ok (a := some handle) (by rw [hp.get _ (by decide) (by decide), hh]) ?_
  refine runs_seq (e1 := [_]) (e2 := []) (a := some a) ?_ ?_
  · rw [storedAssoc, if_pos hC]; exact runs_fetchAssoc_ok.2 rfl
  · simp only
    rw [if_neg (by unfold expired at hx; unfold Assoc.getExpiresIn; omega)]
    exact runs_py_ok hc ⟨rfl, rfl⟩

theorem present_of {m : Msg} : ∀ l : List Str, (∀ f ∈ l, ∃ v, m.getAliasedArg f = .ok (some v)) → signedPresent m l = .ok true := by
  intro l
  induction l with
  | nil => intro _; rfl
  | cons f r ih =>
    intro hf
    obtain ⟨v, hv'⟩ := hf f (by simp)
    rw [signedPresent, hv', ok_bind]
    exact ih fun g hg => hf g (by simp [hg])

theorem aliased_plain {m : Msg} {reg q : Dict Str Str} (hg : Got reg m q)
    (hv : (m.getOpenIDNamespace = some OPENID2_NS ∧ ¬ IsV1 q ∧ m.isOpenID1 = false) ∨
      (m.getOpenIDNamespace = some OPENID1_NS ∧ IsV1 q ∧ m.isOpenID1 = true)) {f : Str}
    (f1 : '.' ∉ f) (f2 : f = t!"ns" ∨ ∃ v, arg q f = some v) : ∃ v, m.getAliasedArg f = .ok (some v) := by
  obtain ⟨oid, ho⟩ := hg.ns
  rw [Msg.getAliasedArg]
  by_cases hn : f = t!"ns"
  · rw [if_pos hn, ho]; exact ⟨_, rfl⟩
  · have hnd : startsWith f t!"ns." = false := by
      cases hx : startsWith f t!"ns." with
      | false => rfl
      | true =>
        obtain ⟨z, hz⟩ := (startsWith_iff _ _).1 hx
        exact absurd (by rw [hz]; simp) f1
    rw [if_neg hn, if_neg (by simp [hnd])]
    simp only [(cut_eq_none_iff _ _).2 f1, ho]
    obtain ⟨v, hv'⟩ := f2.resolve_left hn
    refine ⟨v, ?_⟩
    rw [getArg_uri ho (by rcases hv with ⟨h, -⟩ | ⟨h, -⟩ <;> rw [h] at ho <;> cases ho <;> decide), hg.get f f1 hn, hv']

/-- the fields that are said to be signed are there -/
theorem signed_present {m : Msg} {reg q : Dict Str Str} (hg : Got reg m q)
    (hv : (m.getOpenIDNamespace = some OPENID2_NS ∧ ¬ IsV1 q ∧ m.isOpenID1 = false) ∨
      (m.getOpenIDNamespace = some OPENID1_NS ∧ IsV1 q ∧ m.isOpenID1 = true))
    (l : List Str) (h : ∀ f ∈ l, '.' ∉ f ∧ (f = t!"ns" ∨ ∃ v, arg q f = some v)) : signedPresent m l = .ok true :=
  present_of l fun f hf => aliased_plain hg hv (h f hf).1 (h f hf).2

/-- the provider is asked, and says yes -/
theorem signature_asked {W : World} {C : Conf} {E : Env} {m ask response : Msg} {q : Dict Str Str} {url handle : Str}
    {reply : Http} {e3 : List Ev} {inv : Option Str} (hp : Parsed m q) (hh : arg q t!"assoc_handle" = some handle)
    (hs : signedPresent m (signedNames (arg q t!"signed")) = .ok true)
    (hask : m.setArg .openid t!"mode" t!"check_authentication" = .ok ask)
    (hr : httpResponseToMessage W reply = .ok response) (hok : response.getArg .openid t!"is_valid" = .ok (some t!"true"))
    (hinv : response.getArg .openid t!"invalidate_handle" = .ok inv) (he : Runs (invalidate C url inv) e3 (.ok ())) :
    Runs (idResCheckSignature W C E m url)
      ((if C.hasStore then [.store (.getAssociation url (some handle)) (.ok (.assoc none))] else []) ++
        .post url ask.toURLEncoded (.ok reply) :: e3) (.ok ()) := by
  rw [idResCheckSignature]
  refine runs_py_ok (a := some handle) (by rw [hp.get _ (by decide) (by decide), hh]) ?_
  refine runs_seq (a := none) ?_ ?_
  · rw [storedAssoc]
    cases C.hasStore with
    | true => exact runs_fetchAssoc_ok.2 rfl
    | false => exact ⟨rfl, rfl⟩
  · simp only
    rw [← List.append_nil e3]
    refine runs_seq (e1 := _ :: e3) (a := true) ?_ ⟨rfl, rfl⟩
    rw [checkAuth]
    refine runs_py_ok (a := some ask) ?_ ?_
    · rw [createCheckAuthRequest, hp.get _ (by decide) (by decide), ok_bind, hs, ok_bind, if_pos rfl, hask]; rfl
    · rw [postCheckAuth, runs_handle]
      refine ⟨[_], e3, .ok response, rfl, runs_makeKVPost.2 ⟨_, rfl, .inl ⟨reply, rfl, hr⟩⟩, ?_⟩
      simp only
      rw [processCheckAuthResponse]
      refine runs_py_ok hok (runs_py_ok hinv ?_)
      rw [← List.append_nil e3]
      exact runs_seq he ⟨rfl, rfl⟩

theorem nonce_of {W : World} {C : Conf} {m : Msg} {q : Dict Str Str} {e : Endpoint} {nonce : Str} {t : Int} {salt : Str}
    (hg : Got W.reg m q)
    (hv : (m.getOpenIDNamespace = some OPENID2_NS ∧ ¬ IsV1 q ∧ m.isOpenID1 = false) ∨
     (m.getOpenIDNamespace = some OPENID1_NS ∧ IsV1 q ∧ m.isOpenID1 = true))
    (h1 : (nonceIn q e.serverUrl).1 = some nonce) (h2 : Nonce.split W.digits nonce = .ok (t, salt)) :
    Runs (idResCheckNonce W C m e)
      (if C.hasStore then [.store (.useNonce (nonceIn q e.serverUrl).2 t salt) (.ok (.bool true))] else []) (.ok ()) := by
  rw [idResCheckNonce]
  have e1 : nonceOf m e = .ok (nonceIn q e.serverUrl) := by
    rw [nonceOf, nonceIn]
    rcases hv with ⟨ho, hv, h1'⟩ | ⟨ho, hv, h1'⟩
    · simp only [h1', Bool.false_eq_true, if_false]
      rw [getArg_uri ho (by decide), hg.get _ (by decide) (by decide)]
      simp [hv]
    · simp only [h1', if_true]
      rw [hg.bare _ (by decide)]
      simp [hv, nonceArg]
  refine runs_py_ok e1 ?_
  generalize nonceIn q e.serverUrl = p at *
  obtain ⟨n, url⟩ := p
  simp only at h1
  subst h1
  simp only
  refine runs_py_ok (a := (t, salt)) (by rw [h2]; rfl) ?_
  simp only
  rw [← List.append_nil (if C.hasStore = true then _ else _)]
  refine runs_seq (a := true) ?_ ⟨rfl, rfl⟩
  rw [nonceFresh]
  cases C.hasStore with
  | true => exact runs_useNonce_ok.2 rfl
  | false => exact ⟨rfl, rfl⟩

/-- everything together -/
theorem accepts' {W : World} {C : Conf} {E : Env} {s : UserSession} {q : Dict Str Str} {current : Str} {m m2 : Msg}
    {e : Endpoint} {rt l : Str} {e1 e2 e3 : List Ev} (hq : Dict.WF q) (hm : fromPostArgs W.reg q = .ok m)
    (hm2 : fromPostArgs W.reg m.toPostArgs = .ok m2) (hns : arg q t!"ns" ∈ [none, some OPENID1_NS, some OPENID2_NS])
    (hmode : arg q t!"mode" = some t!"id_res") (hset : IsV1 q → arg q t!"user_setup_url" = none)
    (h1 : ∀ f ∈ neededFields (decide (IsV1 q)), ∃ v, arg q f = some v) (hl : arg q t!"signed" = some l)
    (h2 : ∀ f ∈ neededSigned (decide (IsV1 q)), ∀ v, arg q f = some v → f ∈ splitOn ',' l)
    (hrt : arg q t!"return_to" = some rt) (h3 : ReturnedTo W q m current rt)
    (h4 : Runs (verifyDiscoveryResults W m s.token) e1 (.ok e))
    (h5 : Runs (idResCheckSignature W C E m e.serverUrl) e2 (.ok ())) (h6 : Runs (idResCheckNonce W C m e) e3 (.ok ())) :
    Runs (complete W C E s q current) (e1 ++ (e2 ++ e3))
      (.ok (cleanup { s with token := none } (.success e m ((splitOn ',' l).map (t!"openid." ++ ·))),
        .ok (.success e m ((splitOn ',' l).map (t!"openid." ++ ·))))) := by
  have hg := got hq hm
  have hv := versions_of hq hm hns
  have e0 : Runs (doIdRes W C E m s.token current) (e1 ++ (e2 ++ e3)) (.ok (.success e m ((splitOn ',' l).map (t!"openid." ++ ·)))) := by
    rw [doIdRes]
    refine runs_py_ok (fields_of hg.toParsed hv h1 hl h2) (runs_py_ok (returnTo_of hg hrt hm2 h3) ?_)
    refine runs_seq h4 (runs_seq h5 ?_)
    rw [← List.append_nil e3]
    refine runs_seq h6 (runs_py_ok (a := l) ?_ ⟨rfl, rfl⟩)
    rw [getArgReq_ok, hg.get _ (by decide) (by decide), hl]
  rw [complete, hm]
  simp only
  rw [runs_handle]
  refine ⟨e1 ++ (e2 ++ e3), [], .ok _, by simp, ?_, ⟨rfl, rfl⟩⟩
  rw [genericComplete]
  refine runs_py_ok (a := some t!"id_res") (by rw [hg.get _ (by decide) (by decide), hmode]) ?_
  rw [if_neg (by decide), if_neg (by decide), if_neg (by decide), if_pos rfl, completeIdRes]
  refine runs_py_ok (a := none) ?_ ?_
  · rw [setupNeeded]
    rcases hv with ⟨ho, hv, h1'⟩ | ⟨ho, hv, h1'⟩
    · rw [h1']; rfl
    · rw [h1', if_pos rfl, getArg_uri ho (by decide), hg.get _ (by decide) (by decide), hset hv]
  · simp only
    rw [runs_handle]
    exact ⟨e1 ++ (e2 ++ e3), [], _, by simp, e0, ⟨rfl, rfl⟩⟩

theorem accepts {W : World} {C : Conf} {E : Env} {s : UserSession} {q : Dict Str Str} {current : Str} {m m2 : Msg}
    {e : Endpoint} {rt l : Str} {e2 e3 : List Ev} (hq : Dict.WF q) (hm : fromPostArgs W.reg q = .ok m)
    (hm2 : fromPostArgs W.reg m.toPostArgs = .ok m2) (hns : arg q t!"ns" ∈ [none, some OPENID1_NS, some OPENID2_NS])
    (hmode : arg q t!"mode" = some t!"id_res") (hset : IsV1 q → arg q t!"user_setup_url" = none)
    (h1 : ∀ f ∈ neededFields (decide (IsV1 q)), ∃ v, arg q f = some v) (hl : arg q t!"signed" = some l)
    (h2 : ∀ f ∈ neededSigned (decide (IsV1 q)), ∀ v, arg q f = some v → f ∈ splitOn ',' l)
    (hrt : arg q t!"return_to" = some rt) (h3 : ReturnedTo W q m current rt) (h4 : Confirmed W s.token q [] e)
    (h5 : Runs (idResCheckSignature W C E m e.serverUrl) e2 (.ok ())) (h6 : Runs (idResCheckNonce W C m e) e3 (.ok ())) :
    Runs (complete W C E s q current) (e2 ++ e3)
      (.ok (cleanup { s with token := none } (.success e m ((splitOn ',' l).map (t!"openid." ++ ·))),
        .ok (.success e m ((splitOn ',' l).map (t!"openid." ++ ·))))) :=
  accepts' (e1 := []) hq hm hm2 hns hmode hset h1 hl h2 hrt h3 (discovery_of (got hq hm) (versions_of hq hm hns) h4) h5 h6

end Consumer
