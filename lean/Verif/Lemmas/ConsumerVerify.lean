import Verif.Lemmas.Consumer
import Verif.Lemmas.MessagePost
/-! # The checks of a completion, one by one -/

namespace Spec
open Py Message Association Cryptutil Store Discover Consumer

theorem Discovered.mono {session : Option Endpoint} {evs evs' : List Ev} {c : Str} {d : Endpoint}
    (h : Discovered session evs c d) (hs : ∀ e ∈ evs, e ∈ evs') : Discovered session evs' c d := by
  rcases h with h | ⟨u, f, h1, h2⟩
  · exact .inl h
  · exact .inr ⟨u, f, hs _ h1, h2⟩

theorem Confirmed.mono {W : World} {session : Option Endpoint} {q : Dict Str Str} {evs evs' : List Ev} {e : Endpoint}
    (h : Confirmed W session q evs e) (hs : ∀ e ∈ evs, e ∈ evs') : Confirmed W session q evs' e := by
  unfold Confirmed at h ⊢
  split
  · next hv =>
    rw [if_pos hv] at h
    obtain ⟨c, i, h1, h2, h3, h4⟩ := h
    exact ⟨c, i, h1, h2, h3.mono hs, h4⟩
  · next hv =>
    rw [if_neg hv] at h
    rcases h with ⟨c, i, d, h1, h2, h3, h4, h5⟩ | h
    · exact .inl ⟨c, i, d, h1, h2, h3, h4.mono hs, h5⟩
    · exact .inr h

theorem SignatureChecked.mono {W : World} {C : Conf} {E : Env} {q : Dict Str Str} {m : Msg} {server : Str}
    {evs evs' : List Ev} (h : SignatureChecked W C E q m server evs) (hs : ∀ e ∈ evs, e ∈ evs') :
    SignatureChecked W C E q m server evs' := by
  rcases h with ⟨h1, a, b, h2, h3, h4⟩ | ⟨a, o, h1, h2, h3⟩
  · exact .inl ⟨h1, a, b, h2, hs _ h3, h4⟩
  · exact .inr ⟨a, o, h1, hs _ h2, h3⟩

theorem NonceFresh.mono {W : World} {C : Conf} {q : Dict Str Str} {server : Str} {evs evs' : List Ev}
    (h : NonceFresh W C q server evs) (hs : ∀ e ∈ evs, e ∈ evs') : NonceFresh W C q server evs' := by
  obtain ⟨n, t, s, h1, h2, h3⟩ := h
  exact ⟨n, t, s, h1, h2, fun hc => hs _ (h3 hc)⟩

end Spec

namespace Consumer
open Py Message Association Cryptutil Store Discover Spec
open Server (Parsed parsed)

/-- a message parsed from a query, with what it is sent as -/
structure Got (reg : Dict Str Str) (m : Msg) (q : Dict Str Str) : Prop extends Parsed m q where
  bare : ∀ k, startsWith k t!"openid." = false → m.getArg .bare k = .ok (q.get? k)
  noBare : ∀ k, startsWith k t!"openid." = true → m.getArg .bare k = .ok none
  post : ∀ k, '.' ∉ k → k ≠ t!"ns" → m.toPostArgs.get? (t!"openid." ++ k) = arg q k
  postBare : ∀ k, startsWith k t!"openid." = false → m.toPostArgs.get? k = q.get? k
  built : Built reg m

theorem got {reg q : Dict Str Str} (hq : Dict.WF q) {m : Msg} (h : fromPostArgs reg q = .ok m) : Got reg m q := by
  have hp := parsed hq h
  obtain ⟨oid, ho⟩ := hp.ns
  refine ⟨hp, fun k hk => ?_, fun k hk => ?_, fun k h1 h2 => ?_, fun k hk => ?_, .parsed q m h⟩
  · simp [Msg.getArg, Msg.fixNS, fromPostArgs_bare hq h, hk]
  · simp [Msg.getArg, Msg.fixNS, fromPostArgs_bare hq h, hk]
  · rw [post_plain m hp.inv oid ho k h1 h2 (by rw [fromPostArgs_bare hq h, openid_prefix]; rfl)]
    have := hp.get k h1 h2
    simpa [Msg.getArg, Msg.fixNS, ho] using this
  · rw [post_bare m hp.inv k hk, fromPostArgs_bare hq h, hk]; rfl

theorem getArg_uri {m : Msg} {oid : Str} (ho : m.getOpenIDNamespace = some oid) (hs : oid ≠ t!"sreg") (k : Str) :
    m.getArg (.uri oid) k = m.getArg .openid k := by
  simp [Msg.getArg, Msg.fixNS, ho, hs]

theorem getArgReq_ok {m : Msg} {ns : Ns} {k v : Str} : m.getArgReq ns k = .ok v ↔ m.getArg ns k = .ok (some v) := by
  unfold Msg.getArgReq Msg.getArg
  cases m.fixNS ns with
  | error e => simp
  | ok n => simp only [ok_bind]; cases m.args.get? (n, k) <;> simp

theorem hasKey_ok {m : Msg} {ns : Ns} {k : Str} {b : Bool} (h : m.hasKey ns k = .ok b) :
    ∃ o, m.getArg ns k = .ok o ∧ b = o.isSome := by
  unfold Msg.hasKey at h
  obtain ⟨n, h1, h2⟩ := bind_eq_ok.1 h
  simp only [pure_eq_ok, Except.ok.injEq] at h2
  exact ⟨_, by rw [Msg.getArg, h1]; rfl, by rw [← h2]; rfl⟩

theorem hasKey_of {m : Msg} {ns : Ns} {k : Str} {o : Option Str} (h : m.getArg ns k = .ok o) :
    m.hasKey ns k = .ok o.isSome := by
  unfold Msg.getArg at h
  obtain ⟨n, h1, h2⟩ := bind_eq_ok.1 h
  simp only [pure_eq_ok, Except.ok.injEq] at h2
  rw [Msg.hasKey, h1, ← h2]; rfl

/-! ## Fields -/

theorem checkPresent_ok {m : Msg} {l : List Str} :
    checkPresent m l = .ok () ↔ ∀ f ∈ l, ∃ v, m.getArg .openid f = .ok (some v) := by
  induction l with
  | nil => simp [checkPresent]
  | cons f r ih =>
    rw [checkPresent]
    simp only [List.mem_cons, forall_eq_or_imp, ← ih]
    constructor
    · intro h
      obtain ⟨b, h1, h2⟩ := bind_eq_ok.1 h
      obtain ⟨o, h3, rfl⟩ := hasKey_ok h1
      cases o with
      | none => simp at h2
      | some v => exact ⟨⟨v, h3⟩, by simpa using h2⟩
    · rintro ⟨⟨v, hv⟩, h⟩
      rw [hasKey_of hv]; simpa using h

theorem checkSigned_ok {m : Msg} {s l : List Str} (hm : ∀ f ∈ l, ∃ o, m.getArg .openid f = .ok o) :
    checkSigned m s l = .ok () ↔ ∀ f ∈ l, ∀ v, m.getArg .openid f = .ok (some v) → f ∈ s := by
  induction l with
  | nil => simp [checkSigned]
  | cons f r ih =>
    obtain ⟨o, ho⟩ := hm f (by simp)
    rw [checkSigned, hasKey_of ho]
    simp only [List.mem_cons, forall_eq_or_imp, ← ih (fun g hg => hm g (by simp [hg])), ok_bind]
    cases o with
    | none => simp [ho]
    | some v =>
      by_cases hf : f ∈ s
      · simp [hf]
      · simp [hf, ho]

/-- which versions have required fields -/
theorem version_of {m : Msg} {q : Dict Str Str} (hp : Parsed m q) {l : List Str}
    (h : requiredFields (m.getOpenIDNamespace.getD []) = .ok l) :
    (m.getOpenIDNamespace = some OPENID2_NS ∧ ¬ IsV1 q ∧ m.isOpenID1 = false) ∨
    (m.getOpenIDNamespace = some OPENID1_NS ∧ IsV1 q ∧ m.isOpenID1 = true) := by
  obtain ⟨oid, ho⟩ := hp.ns
  rw [ho, requiredFields] at h
  simp only [Option.getD_some] at h
  split at h
  · next e =>
    subst e
    have h1 : m.isOpenID1 = false := by simp only [Msg.isOpenID1, ho]; decide
    exact .inl ⟨ho, fun hv => (by rw [hp.v1.2 hv] at h1; cases h1), h1⟩
  · split at h
    · next e =>
      subst e
      have h1 : m.isOpenID1 = true := by simp only [Msg.isOpenID1, ho]; decide
      exact .inr ⟨ho, hp.v1.1 h1, h1⟩
    · cases h

theorem fields_ok {m : Msg} {q : Dict Str Str} (hp : Parsed m q) (h : idResCheckForFields m = .ok ()) :
    ((m.getOpenIDNamespace = some OPENID2_NS ∧ ¬ IsV1 q ∧ m.isOpenID1 = false) ∨
     (m.getOpenIDNamespace = some OPENID1_NS ∧ IsV1 q ∧ m.isOpenID1 = true)) ∧
    (∀ f ∈ neededFields (decide (IsV1 q)), ∃ v, arg q f = some v) ∧
    ∃ l, arg q t!"signed" = some l ∧ ∀ f ∈ neededSigned (decide (IsV1 q)), ∀ v, arg q f = some v → f ∈ splitOn ',' l := by
  unfold idResCheckForFields at h
  obtain ⟨l1, h1, h⟩ := bind_eq_ok.1 h
  obtain ⟨⟨⟩, h2, h⟩ := bind_eq_ok.1 h
  obtain ⟨sg, h3, h⟩ := bind_eq_ok.1 h
  obtain ⟨l2, h4, h5⟩ := bind_eq_ok.1 h
  have hv := version_of hp h1
  have hsg := hp.get t!"signed" (by decide) (by decide)
  rw [getArgReq_ok, hsg] at h3
  simp only [Except.ok.injEq] at h3
  refine ⟨hv, ?_, sg, h3, ?_⟩
  · have key : ∀ f ∈ l1, '.' ∉ f → f ≠ t!"ns" → ∃ v, arg q f = some v := by
      intro f hf a b
      obtain ⟨v, hv⟩ := checkPresent_ok.1 h2 f hf
      rw [hp.get f a b] at hv
      exact ⟨v, by simpa using hv⟩
    have hl : l1 = neededFields (decide (IsV1 q)) := by
      rcases hv with ⟨ho, hv, -⟩ | ⟨ho, hv, -⟩
      · rw [ho] at h1; simp only [hv, decide_false]
        rw [show requiredFields ((some OPENID2_NS).getD []) = .ok (neededFields false) from rfl] at h1
        simpa using h1.symm
      · rw [ho] at h1; simp only [hv, decide_true]
        rw [show requiredFields ((some OPENID1_NS).getD []) = .ok (neededFields true) from rfl] at h1
        simpa using h1.symm
    intro f hf
    rw [← hl] at hf
    have : ∀ b, ∀ f ∈ neededFields b, '.' ∉ f ∧ f ≠ t!"ns" := by decide
    obtain ⟨a, b⟩ := this (decide (IsV1 q)) f (by rw [← hl]; exact hf)
    exact key f hf a b
  · have hl : l2 = neededSigned (decide (IsV1 q)) := by
      rcases hv with ⟨ho, hv, -⟩ | ⟨ho, hv, -⟩
      · rw [ho] at h4; simp only [hv, decide_false]
        rw [show requiredSigs ((some OPENID2_NS).getD []) = .ok (neededSigned false) from rfl] at h4
        simpa using h4.symm
      · rw [ho] at h4; simp only [hv, decide_true]
        rw [show requiredSigs ((some OPENID1_NS).getD []) = .ok (neededSigned true) from rfl] at h4
        simpa using h4.symm
    have hnd : ∀ b, ∀ f ∈ neededSigned b, '.' ∉ f ∧ f ≠ t!"ns" := by decide
    have hget : ∀ f ∈ l2, m.getArg .openid f = .ok (arg q f) := by
      intro f hf
      obtain ⟨a, b⟩ := hnd (decide (IsV1 q)) f (by rw [← hl]; exact hf)
      exact hp.get f a b
    rw [checkSigned_ok (fun f hf => ⟨_, hget f hf⟩)] at h5
    intro f hf v hfv
    rw [← hl] at hf
    exact h5 f hf v (by rw [hget f hf, hfv])

/-! ## Return URL -/

theorem checkReturnToArgs_ok {q : Dict Str Str} {l : List (Str × Str)} :
    checkReturnToArgs q l = .ok () ↔ ∀ k v, (k, v) ∈ l → q.get? k = some v := by
  induction l with
  | nil => simp [checkReturnToArgs]
  | cons p r ih =>
    obtain ⟨k, v⟩ := p
    rw [checkReturnToArgs]
    split
    · next h => rw [ih]; simp only [List.mem_cons, Prod.mk.injEq]; grind
    · next h => simp; exact ⟨k, v, by simp, h⟩

theorem returnTo_ok {W : World} {m : Msg} {q : Dict Str Str} {current rt : Str} (hg : Got W.reg m q)
    (hrt : arg q t!"return_to" = some rt) (h : checkReturnTo W m current = .ok true) : ReturnedTo W q m current rt := by
  have hw : Dict.WF m.toPostArgs := by rw [toPostArgs_eq]; exact Dict.WF_ofPairs _
  unfold checkReturnTo at h
  split at h
  · split at h <;> cases h
  · next hv =>
    obtain ⟨rt', h1, h2⟩ := bind_eq_ok.1 h
    rw [hg.get _ (by decide) (by decide), hrt] at h1
    simp only [Except.ok.injEq] at h1; subst h1
    simp only [Option.getD_some] at h2
    unfold verifyReturnToArgs at hv
    obtain ⟨m2, g1, hv⟩ := bind_eq_ok.1 hv
    obtain ⟨rt2, g2, hv⟩ := bind_eq_ok.1 hv
    have hg2 := got hw g1
    rw [hg2.get _ (by decide) (by decide)] at g2
    have : arg m.toPostArgs t!"return_to" = some rt := by
      rw [arg, hg.post _ (by decide) (by decide)]; exact hrt
    rw [this] at g2
    simp only [Except.ok.injEq] at g2; subst g2
    simp only at hv
    obtain ⟨u, g3, hv⟩ := bind_eq_ok.1 hv
    obtain ⟨⟨⟩, g4, hv⟩ := bind_eq_ok.1 hv
    obtain ⟨b, g5, hv⟩ := bind_eq_ok.1 hv
    have g4 := checkReturnToArgs_ok.1 g4
    have hb : b.all (fun p => (Percent.parseQsl true u.query).contains p) = true := by
      by_cases hb : b.all (fun p => (Percent.parseQsl true u.query).contains p) = true
      · exact hb
      · rw [if_neg hb] at hv; cases hv
    constructor
    · unfold sameBase at h2
      obtain ⟨a, k1, h2⟩ := bind_eq_ok.1 h2
      obtain ⟨x, k2, h2⟩ := bind_eq_ok.1 h2
      obtain ⟨c, k3, h2⟩ := bind_eq_ok.1 h2
      obtain ⟨y, k4, h2⟩ := bind_eq_ok.1 h2
      simp only [pure_eq_ok, Except.ok.injEq, Bool.and_eq_true, decide_eq_true_eq] at h2
      exact ⟨a, c, x, y, k1, k3, k2, k4, h2.1.1, h2.1.2, h2.2⟩
    · refine ⟨u, g3, fun k v hkv => ⟨g4 k v hkv, fun hk => ?_⟩, fun k v hkv hk => ?_⟩
      · rw [← hg.postBare k hk]; exact g4 k v hkv
      · have hd := (Props.c09_getArgs W.reg m2 hg2.built .bare b g5).2 k
        rw [hg2.bare k hk, hg.postBare k hk, hkv] at hd
        simp only [Except.ok.injEq] at hd
        have hmem := Dict.get?_mem _ _ _ hd.symm
        rw [List.all_eq_true] at hb
        simpa using hb _ hmem

/-! ## Discovery -/

theorem localIdOf_eq (d : Endpoint) : d.getLocalID = localIdentifier d := by
  unfold Endpoint.getLocalID localIdOf localIdentifier
  rcases d.localId with _ | _ | _ <;> rcases d.canonicalID with _ | _ <;> simp [given]

theorem localIdOf_given (c : Option Str) (i : Str) : localIdOf c (some i) none = given (some i) := by
  cases i <;> simp [localIdOf, given]

theorem checkTypes_ok {e : Endpoint} {l : List Str} : checkTypes e l = .ok () ↔ ∀ t ∈ l, t ∈ e.typeUris := by
  induction l with
  | nil => simp [checkTypes]
  | cons t r ih =>
    rw [checkTypes]
    by_cases h : t ∈ e.typeUris <;> simp [Endpoint.usesExtension, h, ih]

theorem single_ok {W : World} {d : Endpoint} {t : Str} {claimed : Option Str} {i : Str} {server : Option Str}
    (h : verifyDiscoverySingle W d ⟨[t], claimed, some i, server⟩ = .ok ()) :
    ∃ c, claimed = some c ∧ Agrees W [t] d c i ∧ ∀ u, server = some u → u = d.serverUrl := by
  unfold verifyDiscoverySingle at h
  obtain ⟨⟨⟩, h1, h⟩ := bind_eq_ok.1 h
  obtain ⟨⟨⟩, h2, h⟩ := bind_eq_ok.1 h
  have ht := checkTypes_ok.1 h1
  simp only at h
  rename_i k0 k00
  clear k0 k00
  by_cases hl : localIdOf claimed (some i) none = d.getLocalID
  · rw [if_neg (by simpa using hl)] at h
    rw [localIdOf_given, localIdOf_eq] at hl
    cases claimed with
    | none => simp [checkClaimed] at h2
    | some c =>
      simp only [checkClaimed] at h2
      obtain ⟨⟨b, f⟩, k1, k2⟩ := bind_eq_ok.1 h2
      simp only at k2
      by_cases hc : d.claimedId = some b
      · refine ⟨c, rfl, ⟨⟨t, by simp, ht t (by simp)⟩, ⟨b, f, k1, hc⟩, hl.symm⟩, ?_⟩
        intro u hu
        subst hu
        simp only at h
        by_cases hs : u = d.serverUrl
        · exact hs
        · simp [hs] at h
      · rw [if_neg hc] at k2; cases k2
  · rw [if_pos (by simpa using hl)] at h; cases h

theorem matchesAny_ok {W : World} {d : Endpoint} {l : List ToMatch} (h : matchesAny W d l = .ok true) :
    ∃ t ∈ l, verifyDiscoverySingle W d t = .ok () := by
  induction l with
  | nil => simp [matchesAny] at h
  | cons t r ih =>
    rw [matchesAny] at h
    split at h
    · next h1 => exact ⟨t, by simp, h1⟩
    · split at h
      · obtain ⟨t', h1, h2⟩ := ih h
        exact ⟨t', by simp [h1], h2⟩
      · cases h

theorem services_ok {W : World} {ms : List ToMatch} {l : List Endpoint} {d : Endpoint}
    (h : verifyDiscoveredServices W ms l = .ok d) : d ∈ l ∧ ∃ t ∈ ms, verifyDiscoverySingle W d t = .ok () := by
  induction l with
  | nil => simp [verifyDiscoveredServices] at h
  | cons e r ih =>
    rw [verifyDiscoveredServices] at h
    obtain ⟨b, h1, h2⟩ := bind_eq_ok.1 h
    cases b with
    | false => obtain ⟨h3, h4⟩ := ih (by simpa using h2); exact ⟨by simp [h3], h4⟩
    | true => simp at h2; subst h2; exact ⟨by simp, matchesAny_ok h1⟩

theorem discoverAndVerify_ok {W : World} {ms : List ToMatch} {id : Option Str} {evs : List Ev} {d : Endpoint}
    (h : Runs (discoverAndVerify W ms id) evs (.ok d)) :
    ∃ c url found, id = some c ∧ evs = [.discover c (.ok (url, found))] ∧ d ∈ found ∧
      ∃ t ∈ ms, verifyDiscoverySingle W d t = .ok () := by
  cases id with
  | none => simp [discoverAndVerify] at h
  | some c =>
    rw [discoverAndVerify, runs_bind_ok] at h
    obtain ⟨e1, e2, ⟨url, found⟩, rfl, h1, h2⟩ := h
    obtain ⟨o, rfl, h3⟩ := runs_discover.1 h1
    rw [lift_ok] at h3; subst h3
    obtain ⟨rfl, h2⟩ := h2
    rw [lift_ok] at h2
    obtain ⟨h3, h4⟩ := services_ok h2
    exact ⟨c, url, found, rfl, rfl, h3, h4⟩

theorem endpointFor2_ok {W : World} {t : ToMatch} {session : Option Endpoint} {evs : List Ev} {d : Endpoint}
    (h : Runs (endpointFor2 W t session) evs (.ok d)) :
    verifyDiscoverySingle W d t = .ok () ∧ ∀ c, t.claimedId = some c → Discovered session evs c d := by
  have hd : Runs (discoverAndVerify W [t] t.claimedId) evs (.ok d) →
      verifyDiscoverySingle W d t = .ok () ∧ ∀ c, t.claimedId = some c → Discovered session evs c d := by
    intro h
    obtain ⟨c, url, found, h1, rfl, h3, t', h4, h5⟩ := discoverAndVerify_ok h
    simp at h4; subst h4
    refine ⟨h5, fun c' hc' => .inr ⟨url, found, ?_, h3⟩⟩
    rw [h1] at hc'; cases hc'; simp
  cases session with
  | none => rw [endpointFor2] at h; exact hd h
  | some e =>
    rw [endpointFor2] at h
    split at h
    · next hv =>
      obtain ⟨-, h⟩ := h; cases h
      exact ⟨hv, fun _ _ => .inl rfl⟩
    · split at h
      · exact hd h
      · simp at h

theorem verifyStored1_ok {W : World} {d : Endpoint} {a b : ToMatch} (h : verifyStored1 W d a b = .ok ()) :
    verifyDiscoverySingle W d a = .ok () ∨ verifyDiscoverySingle W d b = .ok () := by
  rw [verifyStored1] at h
  split at h
  · exact .inr h
  · exact .inl h

theorem endpointFor1_ok {W : World} {a b : ToMatch} {claimed : Option Str} {session : Option Endpoint} {evs : List Ev}
    {d : Endpoint} (h : Runs (endpointFor1 W a b claimed session) evs (.ok d)) :
    (verifyDiscoverySingle W d a = .ok () ∨ verifyDiscoverySingle W d b = .ok ()) ∧
    ∀ c, claimed = some c → Discovered session evs c d := by
  have hd : Runs (discoverAndVerify W [a, b] claimed) evs (.ok d) →
      (verifyDiscoverySingle W d a = .ok () ∨ verifyDiscoverySingle W d b = .ok ()) ∧
      ∀ c, claimed = some c → Discovered session evs c d := by
    intro h
    obtain ⟨c, url, found, h1, rfl, h3, t', h4, h5⟩ := discoverAndVerify_ok h
    refine ⟨?_, fun c' hc' => .inr ⟨url, found, ?_, h3⟩⟩
    · simp at h4; rcases h4 with rfl | rfl
      · exact .inl h5
      · exact .inr h5
    · rw [h1] at hc'; cases hc'; simp
  cases session with
  | none => rw [endpointFor1] at h; exact hd h
  | some e =>
    rw [endpointFor1] at h
    split at h
    · next hv =>
      obtain ⟨-, h⟩ := h; cases h
      exact ⟨verifyStored1_ok hv, fun _ _ => .inl rfl⟩
    · split at h
      · exact hd h
      · simp at h

theorem discovery_ok {W : World} {m : Msg} {q : Dict Str Str} {session : Option Endpoint} {evs : List Ev} {e : Endpoint}
    (hg : Got W.reg m q)
    (hv : (m.getOpenIDNamespace = some OPENID2_NS ∧ ¬ IsV1 q ∧ m.isOpenID1 = false) ∨
     (m.getOpenIDNamespace = some OPENID1_NS ∧ IsV1 q ∧ m.isOpenID1 = true))
    (h : Runs (verifyDiscoveryResults W m session) evs (.ok e)) : Confirmed W session q evs e := by
  rw [verifyDiscoveryResults] at h
  rcases hv with ⟨ho, hv, -⟩ | ⟨ho, hv, -⟩
  · rw [if_pos ho, verifyDiscoveryResults2] at h
    obtain ⟨claimed, h1, h⟩ := (runs_py_bind_ok _ _ _ _).1 h
    obtain ⟨ident, h2, h⟩ := (runs_py_bind_ok _ _ _ _).1 h
    obtain ⟨server, h3, h⟩ := (runs_py_bind_ok _ _ _ _).1 h
    rw [getArgReq_ok] at h3
    rw [getArg_uri ho (by decide), hg.get _ (by decide) (by decide)] at h1 h2 h3
    simp only [Except.ok.injEq] at h1 h2 h3
    rw [Confirmed, if_neg hv]
    rcases claimed with _ | c <;> rcases ident with _ | i
    · obtain ⟨rfl, k⟩ := h
      simp only [Except.ok.injEq] at k
      exact .inr ⟨server, h1, h2, h3, k.symm⟩
    · simp at h
    · simp at h
    · simp only at h
      rw [runs_bind_ok] at h
      obtain ⟨e1, e2, d, rfl, k1, ⟨rfl, k2⟩⟩ := h
      simp only [Except.ok.injEq] at k2
      obtain ⟨k4, k3⟩ := endpointFor2_ok k1
      obtain ⟨c', hc, hag, hu⟩ := single_ok k4
      cases hc
      refine .inl ⟨c, i, d, h1, h2, by rw [h3, hu server rfl], ?_, hag, k2.symm⟩
      simpa using k3 c rfl
  · rw [if_neg (by rw [ho]; decide), verifyDiscoveryResults1] at h
    obtain ⟨a, h1, h⟩ := (runs_py_bind_ok _ _ _ _).1 h
    obtain ⟨claimed, h2, h⟩ := (runs_py_bind_ok _ _ _ _).1 h
    obtain ⟨ident, h3, h⟩ := (runs_py_bind_ok _ _ _ _).1 h
    rw [getArg_uri ho (by decide), hg.get _ (by decide) (by decide)] at h3
    rw [hg.bare _ (by decide)] at h1
    simp only [Except.ok.injEq] at h1 h3
    rw [Confirmed, if_pos hv]
    have hc : claimedIn session q = claimed := by
      rw [claimedIn, show q.get? t!"openid1_claimed_id" = a from h1]
      cases a <;> cases session <;> simp [claimedId1] at h2 ⊢ <;> exact h2
    cases ident with
    | none => simp at h
    | some i =>
      simp only at h
      obtain ⟨k1, k2⟩ := endpointFor1_ok h
      rcases k1 with k1 | k1
      · obtain ⟨c, rfl, hag, -⟩ := single_ok k1
        refine ⟨c, i, hc, h3, k2 c rfl, ⟨?_, hag.claimed, hag.identity⟩⟩
        obtain ⟨t, ht, ht2⟩ := hag.type
        simp at ht; subst ht
        exact ⟨_, .head _, ht2⟩
      · obtain ⟨c, rfl, hag, -⟩ := single_ok k1
        refine ⟨c, i, hc, h3, k2 c rfl, ⟨?_, hag.claimed, hag.identity⟩⟩
        obtain ⟨t, ht, ht2⟩ := hag.type
        simp at ht; subst ht
        exact ⟨_, .tail _ (.head _), ht2⟩

/-! ## Signature -/

theorem checked_ok {H : Mac} {a : Assoc} {m : Msg} {q : Dict Str Str} (hp : Parsed m q)
    (h : a.checkMessageSignature H m = .ok true) : SignedWith H a q m := by
  have hsig := hp.get t!"sig" (by decide) (by decide)
  have hsgn := hp.get t!"signed" (by decide) (by decide)
  have h0 := h
  rw [Assoc.checkMessageSignature, hsig] at h
  rcases hs : arg q t!"sig" with _ | _ | ⟨c, r⟩ <;> rw [hs] at h hsig
  · simp at h
  · simp at h
  · simp only [ok_bind] at h
    obtain ⟨cal, h1, -⟩ := bind_eq_ok.1 h
    rw [Assoc.getMessageSignature] at h1
    obtain ⟨pairs, h2, -⟩ := bind_eq_ok.1 h1
    rw [makePairs, hsgn] at h2
    rcases hd : arg q t!"signed" with _ | _ | ⟨c', r'⟩ <;> rw [hd] at h2 hsgn
    · simp at h2
    · simp at h2
    · obtain ⟨-, kv, h3, h4⟩ := (Props.c13_accepts_iff H a m _ _ hsig (by simp) hsgn (by simp)).1 h0
      exact ⟨_, _, kv, hs, hd, h3, h4⟩

/-- a reply that was taken: its status, and the message in it -/
theorem http_ok {W : World} {r : Http} {m : Msg} (h : httpResponseToMessage W r = .ok m) :
    (r.status = 200 ∨ r.status = 206) ∧ ∃ text d, Utf8.decode r.body = .ok text ∧ KVForm.kvToDict text = .ok d ∧
      Dict.WF d ∧ fromOpenIDArgs W.reg d = .ok m := by
  rw [httpResponseToMessage] at h
  obtain ⟨text, h1, h⟩ := bind_eq_ok.1 h
  obtain ⟨m', h2, h⟩ := bind_eq_ok.1 h
  rw [lift_ok] at h1 h2
  have hm : m' = m ∧ (r.status = 200 ∨ r.status = 206) := by
    split at h
    · rw [serverError] at h
      obtain ⟨_, _, k⟩ := bind_eq_ok.1 h
      obtain ⟨_, _, l⟩ := bind_eq_ok.1 k
      cases l
    · split at h
      · next hs => simp at h; exact ⟨h, hs⟩
      · cases h
  obtain ⟨rfl, hst⟩ := hm
  rw [fromKVForm] at h2
  obtain ⟨d, h3, h4⟩ := bind_eq_ok.1 h2
  have hw : Dict.WF d := by
    rw [KVForm.kvToDict] at h3
    obtain ⟨l, -, h5⟩ := bind_eq_ok.1 h3
    simp at h5; subst h5
    exact Dict.WF_ofPairs _
  exact ⟨hst, text, d, h1, h3, hw, h4⟩

theorem reply_ok {W : World} {r : Http} {response : Msg} (h : httpResponseToMessage W r = .ok response) {k : Str}
    (hk : '.' ∉ k) (hn : k ≠ t!"ns") {v : Str} (hv : response.getArg .openid k = .ok (some v)) :
    RepliedWith (.ok r) k v := by
  obtain ⟨hst, text, d, h1, h3, hw, h4⟩ := http_ok h
  have := (fromOpenIDArgs_has hw h4).2 k hk hn
  rw [this] at hv
  exact ⟨r, text, d, rfl, hst, h1, h3, by simpa using hv⟩

theorem present_ok {m : Msg} {q : Dict Str Str} (hp : Parsed m q) : ∀ l : List Str, signedPresent m l = .ok true →
    ∀ f ∈ l, '.' ∉ f → f ≠ t!"ns" → ∃ v, arg q f = some v
  | [], _, f, hf, _, _ => nomatch hf
  | k :: rest, h, f, hf, h1, h2 => by
    rw [signedPresent] at h
    obtain ⟨v, g1, h⟩ := bind_eq_ok.1 h
    cases v with
    | none => simp at h
    | some v =>
      simp only at h
      rcases List.mem_cons.1 hf with rfl | hf
      · refine ⟨v, ?_⟩
        have : m.getAliasedArg f = m.getArg .openid f := by
          obtain ⟨oid, ho⟩ := hp.ns
          have hnd : startsWith f t!"ns." = false := by
            cases hx : startsWith f t!"ns." with
            | false => rfl
            | true =>
              obtain ⟨z, hz⟩ := (startsWith_iff _ _).1 hx
              exact absurd (by rw [hz]; simp) h1
          rw [Msg.getAliasedArg, if_neg h2, if_neg (by simp [hnd])]
          simp only [(cut_eq_none_iff _ _).2 h1, ho]
          have := hp.inv.oid _ ho
          simp only [List.mem_cons, List.not_mem_nil, or_false] at this
          exact getArg_uri ho (by rcases this with rfl | rfl | rfl <;> decide) f
        rw [this, hp.get f h1 h2] at g1
        simpa using g1
      · exact present_ok hp rest h f hf h1 h2

theorem checkAuth_ok {W : World} {C : Conf} {m : Msg} {q : Dict Str Str} (hp : Parsed m q) {url : Str} {evs : List Ev}
    (h : Runs (checkAuth W C m url) evs (.ok true)) :
    ∃ ask o, m.setArg .openid t!"mode" t!"check_authentication" = .ok ask ∧
      .post url ask.toURLEncoded o ∈ evs ∧ RepliedWith o t!"is_valid" t!"true" ∧
    ∀ l, arg q t!"signed" = some l → ∀ f ∈ splitOn ',' l, f ≠ [] → '.' ∉ f → f ≠ t!"ns" → ∃ v, arg q f = some v := by
  rw [checkAuth] at h
  obtain ⟨r, h1, h⟩ := (runs_py_bind_ok _ _ _ _).1 h
  rw [createCheckAuthRequest] at h1
  obtain ⟨sg, hsg, h1⟩ := bind_eq_ok.1 h1
  obtain ⟨b, hb, h1⟩ := bind_eq_ok.1 h1
  cases b with
  | false =>
    simp at h1; subst h1
    simp [postCheckAuth] at h
  | true =>
    rw [if_pos rfl] at h1
    obtain ⟨ask, k1, k2⟩ := bind_eq_ok.1 h1
    simp at k2; subst k2
    simp only [postCheckAuth] at h
    rw [runs_handle] at h
    obtain ⟨e1, e2, o, rfl, g1, g2⟩ := h
    obtain ⟨o', rfl, g3⟩ := runs_makeKVPost.1 g1
    refine ⟨ask, o', k1, by simp, ?_, fun l hl f hf hne => present_ok hp _ hb f (by
      rw [hp.get _ (by decide) (by decide), hl, Except.ok.injEq] at hsg
      rw [← hsg]
      cases l with
      | nil =>
        have : f = [] := by simpa [splitOn] using hf
        exact absurd this hne
      | cons => exact hf)⟩
    rcases g3 with ⟨r, rfl, g3⟩ | ⟨e, rfl, rfl⟩
    · subst g3
      cases hr : httpResponseToMessage W r with
      | error x =>
        rw [hr] at g2
        split at g2 <;> simp_all
      | ok response =>
        rw [hr] at g2
        simp only [processCheckAuthResponse] at g2
        obtain ⟨valid, f1, g2⟩ := (runs_py_bind_ok _ _ _ _).1 g2
        obtain ⟨inv, f2, g2⟩ := (runs_py_bind_ok _ _ _ _).1 g2
        rw [runs_bind_ok] at g2
        obtain ⟨_, _, _, _, _, f3⟩ := g2
        simp only [runs_pure, Except.ok.injEq, decide_eq_true_eq] at f3
        rw [f3.2] at f1
        exact reply_ok hr (by decide) (by decide) f1
    · split at g2 <;> simp_all

theorem signature_ok {W : World} {C : Conf} {E : Env} {m : Msg} {q : Dict Str Str} {url : Str} {evs : List Ev}
    (hp : Parsed m q) (hh : ∃ v, arg q t!"assoc_handle" = some v)
    (h : Runs (idResCheckSignature W C E m url) evs (.ok ())) : SignatureChecked W C E q m url evs := by
  obtain ⟨hd, hh⟩ := hh
  rw [idResCheckSignature] at h
  obtain ⟨handle, h1, h⟩ := (runs_py_bind_ok _ _ _ _).1 h
  rw [hp.get _ (by decide) (by decide), hh] at h1
  simp only [Except.ok.injEq] at h1; subst h1
  rw [runs_bind_ok] at h
  obtain ⟨e1, e2, a, rfl, h2, h3⟩ := h
  cases a with
  | none =>
    simp only at h3
    rw [runs_bind_ok] at h3
    obtain ⟨e3, e4, b, rfl, h4, h5⟩ := h3
    cases b with
    | false => simp at h5
    | true =>
      obtain ⟨ask, o, k1, k2, k3⟩ := checkAuth_ok hp h4
      exact .inr ⟨ask, o, k1, by simp [k2], k3⟩
  | some a =>
    have hs : C.hasStore = true ∧ e1 = [.store (.getAssociation url (some hd)) (.ok (.assoc (some a)))] := by
      rw [storedAssoc] at h2
      split at h2
      · next hs => exact ⟨hs, runs_fetchAssoc_ok.1 h2⟩
      · simp at h2
    obtain ⟨hs, rfl⟩ := hs
    simp only at h3
    split at h3
    · simp at h3
    · next hx =>
      obtain ⟨b, h4, h5⟩ := (runs_py_bind_ok _ _ _ _).1 h3
      cases b with
      | false => simp at h5
      | true =>
        refine .inl ⟨hs, hd, a, hh, by simp, ?_, checked_ok hp h4⟩
        unfold Assoc.getExpiresIn at hx
        unfold expired
        omega

/-! ## Nonce -/

theorem nonce_ok {W : World} {C : Conf} {m : Msg} {q : Dict Str Str} {e : Endpoint} {evs : List Ev} (hg : Got W.reg m q)
    (hv : (m.getOpenIDNamespace = some OPENID2_NS ∧ ¬ IsV1 q ∧ m.isOpenID1 = false) ∨
     (m.getOpenIDNamespace = some OPENID1_NS ∧ IsV1 q ∧ m.isOpenID1 = true))
    (h : Runs (idResCheckNonce W C m e) evs (.ok ())) : NonceFresh W C q e.serverUrl evs := by
  rw [idResCheckNonce] at h
  obtain ⟨⟨n, url⟩, h1, h⟩ := (runs_py_bind_ok _ _ _ _).1 h
  have hn : nonceIn q e.serverUrl = (n, url) := by
    rw [nonceOf] at h1
    rw [nonceIn]
    rcases hv with ⟨ho, hv, h1'⟩ | ⟨ho, hv, h1'⟩
    · simp only [h1', Bool.false_eq_true, if_false] at h1
      rw [getArg_uri ho (by decide), hg.get _ (by decide) (by decide)] at h1
      simpa [hv] using h1
    · simp only [h1', if_true] at h1
      rw [hg.bare _ (by decide)] at h1
      simpa [hv, nonceArg] using h1
  rw [NonceFresh, hn]
  cases n with
  | none => simp at h
  | some n =>
    simp only at h
    obtain ⟨⟨t, salt⟩, h2, h⟩ := (runs_py_bind_ok _ _ _ _).1 h
    have h2 : Nonce.split W.digits n = .ok (t, salt) := by
      cases hn' : Nonce.split W.digits n with
      | ok x => rw [hn'] at h2; exact h2
      | error x => rw [hn'] at h2; simp only [asProtocolError] at h2; split at h2 <;> cases h2
    simp only at h
    rw [runs_bind_ok] at h
    obtain ⟨e1, e2, b, rfl, h3, h4⟩ := h
    refine ⟨n, t, salt, rfl, h2, fun hs => ?_⟩
    rw [nonceFresh, if_pos hs, runs_useNonce_ok] at h3
    cases b with
    | false => simp at h4
    | true => simp [h3]

end Consumer
