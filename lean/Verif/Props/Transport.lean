import Verif.Lemmas.MessageSend
import Verif.Props.Message
import Verif.Props.Oidutil
import Verif.Spec.Transport
/-! # C62: messages between consumer and server, with their extensions -/

namespace Props
open Py Message NamespaceMap Spec

theorem getArg_of_args {m m' : Msg} (hv : m'.getOpenIDNamespace = m.getOpenIDNamespace) {ns : Ns} {k : Str}
    (h : ∀ n, m.fixNS ns = .ok n → m'.args.get? (n, k) = m.args.get? (n, k)) : m'.getArg ns k = m.getArg ns k := by
  have hf : m'.fixNS ns = m.fixNS ns := fixNS_same m m' hv ns
  rw [Msg.getArg, Msg.getArg, hf]
  cases hn : m.fixNS ns with
  | error e => rfl
  | ok n => simp [h n hn]

/-- C62: Whoever parses what is sent of a message has the message: the version, every argument in every namespace but that
    of the arguments outside OpenID, and the name each was sent under.  This holds for any order of what is sent, and with
    other arguments outside OpenID beside it. -/
theorem c62_transport {reg0 reg : Dict Str Str} {m : Msg} {oid : Str} (hm : Built reg0 m) (h : Sendable reg m oid)
    {q : Dict Str Str} (hq : Dict.WF q) (hs : ∀ k, q.get? (t!"openid." ++ k) = m.toPostArgs.get? (t!"openid." ++ k)) :
    ∃ m', fromPostArgs reg q = .ok m' ∧ m'.getOpenIDNamespace = some oid ∧
      (∀ ns k, ns ≠ .bare → m'.getArg ns k = m.getArg ns k) ∧
      (∀ k, m'.getArg .bare k = .ok (if startsWith k t!"openid." then none else q.get? k)) ∧
      (∀ ns k v, ns ≠ .bare → m.getArg ns k = .ok (some v) → m'.getKey ns k = m.getKey ns k) := by
  have hi := minv_built reg0 m hm
  obtain ⟨m', e1, e2, e3, e4, e5⟩ := transport (raw_of hi h) hq hs
  have hv : m'.getOpenIDNamespace = m.getOpenIDNamespace := by rw [h.version]; exact e3.ver
  have hbare : ∀ ns n, ns ≠ Ns.bare → m.fixNS ns = .ok n → ∃ u, n = .uri u := by
    intro ns n hne hn
    cases ns with
    | bare => exact absurd rfl hne
    | openid =>
      simp only [Msg.fixNS] at hn
      split at hn
      · cases hn
      · exact ⟨_, by simpa using hn.symm⟩
    | uri u =>
      simp only [Msg.fixNS] at hn
      split at hn <;> exact ⟨_, by simpa using hn.symm⟩
    | other => cases hn
  refine ⟨m', e1, e3.ver, ?_, ?_, ?_⟩
  · intro ns k hne
    apply getArg_of_args hv
    intro n hn
    obtain ⟨u, rfl⟩ := hbare ns n hne hn
    exact e4 u k
  · intro k
    rw [Msg.getArg, Msg.fixNS]
    simp only [ok_bind, pure_eq_ok]
    rw [fromPostArgs_bare hq e1]
  · intro ns k v hne hk
    have hf : m'.fixNS ns = m.fixNS ns := fixNS_same m m' hv ns
    rw [Msg.getArg] at hk
    obtain ⟨n, h1, h2⟩ := bind_eq_ok.1 hk
    obtain ⟨u, rfl⟩ := hbare ns n hne h1
    simp only [pure_eq_ok, Except.ok.injEq] at h2
    rw [Msg.getKey, Msg.getKey, hf, h1]
    simp only [ok_bind]
    obtain ⟨b, hb⟩ := Option.isSome_iff_exists.1 (e2.known u k ((Dict.mem_keys_iff _ _).2 (by rw [e4, h2]; rfl)))
    have hb2 := (hi.ns.bij _ _).1 (e3.sub _ _ ((e2.ns.bij _ _).2 hb))
    simp only [Msg.keyOf, getAlias, hb, hb2]

/-- an OpenID 2 request, and what is sent of it with an extension -/
def sendMsg0 : Msg :=
  ((Msg.new (some OPENID2_NS)).toOption.bind fun m => (m.setArg .openid t!"mode" t!"checkid_setup").toOption.bind fun m =>
    (m.addExtension t!"http://openid.net/srv/ax/1.0" t!"ax" [(t!"mode", t!"fetch_request"), (t!"type.a", t!"http://a/")]).toOption).getD {}

example : sendMsg0.toPostArgs = [(t!"openid.ns", OPENID2_NS), (t!"openid.ns.ax", t!"http://openid.net/srv/ax/1.0"),
    (t!"openid.mode", t!"checkid_setup"), (t!"openid.ax.mode", t!"fetch_request"), (t!"openid.ax.type.a", t!"http://a/")] := by
  decide +kernel

/-- C62: The same for a message sent as a form. -/
theorem c62_form {reg0 reg : Dict Str Str} {m : Msg} {oid : Str} (hm : Built reg0 m) (h : Sendable reg m oid) :
    ∃ m', fromPostArgs reg (Dict.ofPairs (Percent.parseQsl true m.toURLEncoded)) = .ok m' ∧
      m'.getOpenIDNamespace = some oid ∧ ∀ ns k, m'.getArg ns k = m.getArg ns k := by
  have hw : Dict.WF m.toPostArgs := by rw [toPostArgs_eq]; exact Dict.WF_ofPairs _
  have hp := perm_sortBy KVForm.pairLe m.toPostArgs
  have hws : Dict.WF (sortBy KVForm.pairLe m.toPostArgs) := (List.Perm.nodup_iff (hp.map _)).2 hw
  have hsame : Dict.Same (Dict.ofPairs (Percent.parseQsl true m.toURLEncoded)) m.toPostArgs := by
    intro k
    rw [Msg.toURLEncoded, c06_urlencode_round_trip, Dict.ofPairs, Dict.get?_update_WF _ _ hws]
    rw [Dict.get?_perm hws hp k]
    cases m.toPostArgs.get? k <;> rfl
  obtain ⟨m', e1, e2, e3, e4, -⟩ := c62_transport hm h (Dict.WF_ofPairs _) (fun k => hsame _)
  refine ⟨m', e1, e2, fun ns k => ?_⟩
  by_cases hb : ns = .bare
  · subst hb
    rw [e4, hsame k, Msg.getArg, Msg.fixNS]
    simp only [ok_bind, pure_eq_ok, Except.ok.injEq]
    split
    · next hpre =>
      cases hx : m.args.get? (.bare, k) with
      | none => rfl
      | some v => rw [h.bare k v (by simp [Msg.getArg, Msg.fixNS, hx])] at hpre; cases hpre
    · next hpre => exact post_bare m (minv_built reg0 m hm) k (by simpa using hpre)
  · exact e3 ns k hb

/-- C62: The same for a message sent in a URL, whatever other parameters the URL has, unless they look like OpenID. -/
theorem c62_url {reg0 reg : Dict Str Str} {m : Msg} {oid base : Str} (hm : Built reg0 m) (h : Sendable reg m oid)
    (hf : '#' ∉ base)
    (hb : ∀ p ∈ Percent.parseQsl true (queryOf base), startsWith p.1 t!"openid." = false) :
    ∃ m', fromPostArgs reg (Dict.ofPairs (Percent.parseQsl true (queryOf (m.toURL base)))) = .ok m' ∧
      m'.getOpenIDNamespace = some oid ∧ ∀ ns k, ns ≠ .bare → m'.getArg ns k = m.getArg ns k := by
  have hw : Dict.WF m.toPostArgs := by rw [toPostArgs_eq]; exact Dict.WF_ofPairs _
  obtain ⟨hq, hp⟩ := c06_appendArgs_dict base m.toPostArgs hf
  have hws : Dict.WF (sortBy KVForm.pairLe m.toPostArgs) := (List.Perm.nodup_iff (hp.map _)).2 hw
  have hsame : ∀ k, (Dict.ofPairs (Percent.parseQsl true (queryOf (m.toURL base)))).get? (t!"openid." ++ k) =
      m.toPostArgs.get? (t!"openid." ++ k) := by
    intro k
    rw [Msg.toURL, hq, Dict.ofPairs, Dict.update_append, Dict.get?_update_WF _ _ hws, Dict.get?_perm hws hp]
    have : (Dict.update [] (Percent.parseQsl true (queryOf base))).get? (t!"openid." ++ k) = none := by
      have hk : ∀ (l : List (Str × Str)) (d : Dict Str Str), (∀ p ∈ l, startsWith p.1 t!"openid." = false) →
          (Dict.update d l).get? (t!"openid." ++ k) = d.get? (t!"openid." ++ k) := by
        intro l
        induction l with
        | nil => intro d _; rfl
        | cons p r ih =>
          intro d hl
          rw [Dict.update_cons, ih _ (fun p hp => hl p (by simp [hp])), Dict.get?_set, if_neg]
          intro e
          have := hl p (by simp)
          rw [e, openid_prefix] at this
          cases this
      rw [hk _ _ hb]; rfl
    rw [this]
    cases m.toPostArgs.get? (t!"openid." ++ k) <;> rfl
  obtain ⟨m', e1, e2, e3, -⟩ := c62_transport hm h (Dict.WF_ofPairs _) hsame
  exact ⟨m', e1, e2, e3⟩

/-- C62: A new message of a version can be sent; -/
theorem c62_new {reg : Dict Str Str} {oid : Str} {m : Msg} {i : Option Bool} (h : Msg.new (some oid) i = .ok m)
    (hi : oid = t!"http://openid.net/signon/1.0" ∨ i = some false ∨
      i = none ∧ oid = t!"http://specs.openid.net/auth/2.0") : Built reg m ∧ Sendable reg m oid := by
  have hb : Built reg m := .new _ _ _ h
  simp only [Msg.new, Msg.setOpenIDNamespace] at h
  split at h
  · next hc =>
    obtain ⟨nn, k1, k2⟩ := bind_eq_ok.1 h
    simp only [pure_eq_ok, Except.ok.injEq] at k2
    subst k2
    obtain ⟨-, -, -, -, e⟩ := addAlias_ok _ _ _ _ _ k1
    have hne : oid ≠ t!"sreg" := by rintro rfl; revert hc; decide
    have hargs : ∀ ns k v, Msg.getArg { namespaces := nn, args := [] } ns k ≠ .ok (some v) := by
      intro ns k v hk
      rw [Msg.getArg] at hk
      obtain ⟨n, -, hk2⟩ := bind_eq_ok.1 hk
      simp [Dict.get?_nil] at hk2
    refine ⟨hb, ?_, ?_, ?_, ?_, ?_, ?_⟩
    · simp [e, Msg.getOpenIDNamespace, getNamespaceURI, Dict.get?_set]
    · intro hx
      rcases hi with g | g | ⟨g1, g2⟩
      · exact g
      · subst g
        simp [e, isImplicit] at hx
      · subst g1 g2
        simp [e, isImplicit, OPENID1_NAMESPACES, OPENID1_NS, THE_OTHER_OPENID1_NS] at hx
    · intro k v hk; exact absurd hk (hargs _ _ _)
    · intro k v hk; exact absurd hk (hargs _ _ _)
    · intro u k v _ hk; exact absurd hk (hargs _ _ _)
    · simp [e, getAlias, Dict.get?_set, hne, Dict.get?_nil]
  · cases h

/-- C62: and still after an argument is set, unless the argument looks like another. -/
theorem c62_set {reg0 reg : Dict Str Str} {m : Msg} {oid k v : Str} {ns : Ns} (hm : Built reg0 m) (h : Sendable reg m oid)
    (hk : ns = .openid ∧ '.' ∉ k ∧ k ≠ t!"ns" ∨ ns = .bare ∧ startsWith k t!"openid." = false) :
    ∃ m1, m.setArg ns k v = .ok m1 ∧ Built reg0 m1 ∧ Sendable reg m1 oid ∧ m1.getArg ns k = .ok (some v) ∧
      ∀ ns' k', m.fixNS ns' ≠ m.fixNS ns ∨ k' ≠ k → m1.getArg ns' k' = m.getArg ns' k' := by
  have hi := minv_built reg0 m hm
  have hnu : m.namespaces.nsToAlias.get? oid = some .null := (hi.ns.bij _ _).1 h.version
  have hbare : ∀ ns : Ns, ns = .openid ∨ ns = .bare → ∃ n, m.fixNS ns = .ok n ∧
      m.setArg ns k v = .ok { m with args := m.args.set (n, k) v } := by
    rintro ns (rfl | rfl)
    · refine ⟨.uri oid, by simp [Msg.fixNS, h.version], ?_⟩
      simp [Msg.setArg, Msg.fixNS, h.version, NamespaceMap.add, hnu]
    · exact ⟨.bare, rfl, rfl⟩
  obtain ⟨n, hn, hset⟩ := hbare ns (by rcases hk with g | g <;> simp [g.1])
  obtain ⟨m1, hm1⟩ : ∃ m1, m1 = { m with args := m.args.set (n, k) v } := ⟨_, rfl⟩
  rw [← hm1] at hset
  have hv : m1.getOpenIDNamespace = m.getOpenIDNamespace := by rw [hm1]; rfl
  have harg : ∀ ns' k', m.fixNS ns' ≠ m.fixNS ns ∨ k' ≠ k → m1.getArg ns' k' = m.getArg ns' k' := by
    intro ns' k' hne
    apply getArg_of_args hv
    intro n' hn'
    rw [hm1]
    simp only [Dict.get?_set]
    rw [if_neg]
    intro e
    simp only [Prod.mk.injEq] at e
    rcases hne with g | g
    · exact g (by rw [hn', hn, e.1])
    · exact g e.2.symm
  have hns : ∀ u, m.fixNS (.uri u) = m.fixNS ns → u = oid := by
    intro u hu
    have hoid := hi.oid _ h.version
    rcases hk with ⟨g, -⟩ | ⟨g, -⟩
    · subst g
      by_cases hs : u = t!"sreg"
      · subst hs
        simp [Msg.fixNS, h.version] at hu
        rw [← hu] at hoid
        exact absurd hoid (by decide)
      · simpa [Msg.fixNS, h.version, hs] using hu
    · subst g
      by_cases hs : u = t!"sreg" <;> simp [Msg.fixNS, hs] at hu
  refine ⟨m1, hset, ?_, ⟨by rw [hv]; exact h.version, ?_, ?_, ?_, ?_, ?_⟩, ?_, harg⟩
  · have := Built.step (reg := reg0) m (.set ns k v) hm
    simpa [msgStep, hset, Except.toOption] using this
  · intro hx
    exact h.undeclared (by rw [hm1] at hx; exact hx)
  · intro k' v' hk'
    by_cases e : m.fixNS .openid ≠ m.fixNS ns ∨ k' ≠ k
    · exact h.plain k' v' (by rw [← harg _ _ e]; exact hk')
    · have e' : m.fixNS .openid = m.fixNS ns ∧ k' = k := by
        constructor
        · exact Classical.not_not.1 fun g => e (.inl g)
        · exact Classical.not_not.1 fun g => e (.inr g)
      rcases hk with ⟨-, g⟩ | ⟨g, -⟩
      · rw [e'.2]; exact g
      · rw [g] at e'
        simp [Msg.fixNS, h.version] at e'
  · intro k' v' hk'
    by_cases e : m.fixNS .bare ≠ m.fixNS ns ∨ k' ≠ k
    · exact h.bare k' v' (by rw [← harg _ _ e]; exact hk')
    · have e' : m.fixNS .bare = m.fixNS ns ∧ k' = k := by
        constructor
        · exact Classical.not_not.1 fun g => e (.inl g)
        · exact Classical.not_not.1 fun g => e (.inr g)
      rcases hk with ⟨g, -⟩ | ⟨-, g⟩
      · rw [g] at e'
        simp [Msg.fixNS, h.version] at e'
      · rw [e'.2]; exact g
  · intro u k' v' hu hk' hx
    have ho1 : m1.isOpenID1 = m.isOpenID1 := by rw [Msg.isOpenID1, Msg.isOpenID1, hv]
    have := h.implied u k' v' hu (by rw [← harg _ _ (.inl fun g => hu (hns u g))]; exact hk') (by rw [hm1] at hx; exact hx)
    rw [ho1, hm1]; exact this
  · rw [hm1]; exact h.noSreg
  · rw [Msg.getArg, fixNS_same m m1 hv, hn, hm1]
    simp [Dict.get?_set]

/-- C62: An extension is added to such a message as what it is, if its alias is free, and the message can still be sent;
    in OpenID 1, only if the receiver has the alias registered. -/
theorem c62_extension {reg0 reg : Dict Str Str} {m : Msg} {oid uri alias : Str} {args : Dict Str Str} (hm : Built reg0 m)
    (h : Sendable reg m oid) (hw : Dict.WF args) (hs : uri ≠ t!"sreg")
    (hal : alias ∉ OPENID_PROTOCOL_FIELDS ∧ '.' ∉ alias)
    (hu : m.namespaces.getAlias uri = none) (ha : m.namespaces.getNamespaceURI (.name alias) = none)
    (h1 : m.isOpenID1 = true → reg.get? alias = some uri) :
    ∃ m1, m.addExtension uri alias args = .ok m1 ∧ Built reg0 m1 ∧ Sendable reg m1 oid ∧
      (∀ k, m1.getArg (.uri uri) k = .ok (args.get? k)) ∧
      (∀ ns k, m.fixNS ns ≠ .ok (.uri uri) → m1.getArg ns k = m.getArg ns k) := by
  have hi := minv_built reg0 m hm
  have hok : okAlias (.name alias) = true := by simp [okAlias, hal.1, hal.2]
  obtain ⟨m1, e1, e2, e3, e4⟩ := addExtension_fresh hi hw hs hok hu ha
  have hv : m1.getOpenIDNamespace = m.getOpenIDNamespace := by
    rw [Msg.getOpenIDNamespace, e3]
    simp [getNamespaceURI, Dict.get?_set, Msg.getOpenIDNamespace]
  have hne : oid ≠ uri := by
    rintro rfl
    have := (hi.ns.bij _ _).1 h.version
    rw [getAlias] at hu
    rw [hu] at this; cases this
  have himp : ∀ u, m1.namespaces.isImplicit u = true → u = uri ∨ m.namespaces.isImplicit u = true := by
    intro u hu2
    rw [e3] at hu2
    simp only [isImplicit, List.contains_iff_mem] at hu2 ⊢
    split at hu2
    · simp only [List.mem_append, List.mem_singleton] at hu2; exact hu2.symm
    · exact .inr hu2
  have harg : ∀ ns k, m.fixNS ns ≠ .ok (.uri uri) → m1.getArg ns k = m.getArg ns k := by
    intro ns k hns
    apply getArg_of_args hv
    intro n hn
    rw [e4, if_neg]
    rintro rfl
    exact hns hn
  have hfixu : m1.fixNS (.uri uri) = .ok (.uri uri) := by simp [Msg.fixNS, hs]
  refine ⟨m1, e1, .extended m m1 uri alias args hm e1, ⟨by rw [hv]; exact h.version, ?_, ?_, ?_, ?_, ?_⟩, ?_, harg⟩
  · intro hx
    rcases himp _ hx with g | g
    · exact absurd g hne
    · exact h.undeclared g
  · intro k v hk
    refine h.plain k v ?_
    rw [← harg .openid k ?_]
    · exact hk
    · simp only [Msg.fixNS, h.version]
      simpa using hne
  · intro k v hk
    refine h.bare k v ?_
    rw [← harg .bare k (by simp [Msg.fixNS])]
    exact hk
  · intro u k v hu1 hk hx
    have ho1 : m1.isOpenID1 = m.isOpenID1 := by rw [Msg.isOpenID1, Msg.isOpenID1, hv]
    by_cases huu : u = uri
    · subst huu
      cases hopen : m.isOpenID1 with
      | true =>
        refine ⟨by rw [ho1]; exact hopen, alias, ?_, h1 hopen⟩
        rw [e3]; simp [getAlias, Dict.get?_set]
      | false =>
        exfalso
        rw [e3, hopen] at hx
        simp only [isImplicit, List.contains_iff_mem, Bool.false_eq_true, if_false] at hx
        have := hi.ns.imp _ hx
        rw [getAlias] at hu
        rw [hu] at this; cases this
    · have hgx : m.namespaces.isImplicit u = true := (himp _ hx).resolve_left huu
      have hfu : u ≠ t!"sreg" := by
        rintro rfl
        have := hi.ns.imp t!"sreg" (by simpa [isImplicit] using hgx)
        have hn := h.noSreg
        rw [getAlias] at hn
        rw [hn] at this; cases this
      have hk2 : m.getArg (.uri u) k = .ok (some v) := by
        rw [← harg (.uri u) k (by simp [Msg.fixNS, hfu, huu])]; exact hk
      obtain ⟨g1, a, g2, g3⟩ := h.implied u k v hu1 hk2 hgx
      refine ⟨by rw [ho1]; exact g1, a, ?_, g3⟩
      rw [e3]
      simp only [getAlias, Dict.get?_set, if_neg (Ne.symm huu)]
      exact g2
  · rw [e3]
    simp only [getAlias, Dict.get?_set, if_neg hs]
    exact h.noSreg
  · intro k
    rw [Msg.getArg, hfixu]
    simp [e4]

/-- C62: and its receiver finds the arguments of the extension, under its alias, and no other extension. -/
theorem c62_arrives {reg0 reg : Dict Str Str} {m : Msg} {oid uri alias : Str} {args : Dict Str Str} (hm : Built reg0 m)
    (h : Sendable reg m oid) (hw : Dict.WF args) (hs : uri ≠ t!"sreg")
    (hal : alias ∉ OPENID_PROTOCOL_FIELDS ∧ '.' ∉ alias)
    (hu : m.namespaces.getAlias uri = none) (ha : m.namespaces.getNamespaceURI (.name alias) = none)
    (h1 : m.isOpenID1 = true → reg.get? alias = some uri) :
    ∃ m1, m.addExtension uri alias args = .ok m1 ∧ ∀ q, Dict.WF q →
      (∀ k, q.get? (t!"openid." ++ k) = m1.toPostArgs.get? (t!"openid." ++ k)) →
      ∃ m' d, fromPostArgs reg q = .ok m' ∧ m'.getOpenIDNamespace = some oid ∧
        m'.getArgs (.uri uri) = .ok d ∧ Dict.WF d ∧ Dict.Same d args ∧ (∀ k, m'.getArg (.uri uri) k = .ok (args.get? k)) ∧
        (∀ k v, args.get? k = some v → m'.getKey (.uri uri) k = .ok (some (t!"openid." ++ (alias ++ '.' :: k)))) ∧
        (∀ u, u ≠ uri → m.namespaces.getAlias u = none → m'.namespaces.getAlias u = none) ∧
        (m'.namespaces.getAlias uri = some (.name alias) ∨
          m'.namespaces.getAlias uri = none ∧ m'.namespaces.getNamespaceURI (.name alias) = none ∧
            m.isOpenID1 = true ∧ ∀ k, args.get? k = none) := by
  obtain ⟨m1, e1, e2, e3, e4, -⟩ := c62_extension hm h hw hs hal hu ha h1
  refine ⟨m1, e1, ?_⟩
  intro q hq hsent
  have hi := minv_built reg0 m hm
  have hi1 := minv_built reg0 m1 e2
  have hok : okAlias (.name alias) = true := by simp [okAlias, hal.1, hal.2]
  obtain ⟨m2, f1, -, f3, f4⟩ := addExtension_fresh hi hw hs hok hu ha
  obtain rfl : m1 = m2 := by rw [e1] at f1; simpa using f1
  obtain ⟨m', g1, g2, g3, g4, g5⟩ := transport (raw_of hi1 e3) hq hsent
  have hb : Built reg m' := .parsed q m' g1
  have hfu : ∀ m : Msg, m.fixNS (.uri uri) = .ok (.uri uri) := fun m => by simp [Msg.fixNS, hs]
  have harg : ∀ k, m'.getArg (.uri uri) k = .ok (args.get? k) := by
    intro k
    rw [Msg.getArg, hfu]
    simp [g4, f4]
  obtain ⟨d, hd⟩ : ∃ d, m'.getArgs (.uri uri) = .ok d := by rw [Msg.getArgs, hfu]; exact ⟨_, rfl⟩
  obtain ⟨hdw, hdg⟩ := c09_getArgs reg m' hb _ d hd
  have hname : ∀ b, m'.namespaces.nsToAlias.get? uri = some b → b = .name alias := by
    intro b hx
    have := (hi1.ns.bij _ _).1 (g3.sub _ _ ((g2.ns.bij _ _).2 hx))
    rw [f3] at this
    simpa [Dict.get?_set] using this.symm
  refine ⟨m', d, g1, g3.ver, hd, hdw, ?_, harg, ?_, ?_, ?_⟩
  · intro k
    have := (hdg k).symm.trans (harg k)
    simpa using this
  · intro k v hk
    have : m'.args.get? (.uri uri, k) = some v := by rw [g4, f4]; simp [hk]
    obtain ⟨b, hb⟩ := Option.isSome_iff_exists.1 (g2.known uri k ((Dict.mem_keys_iff _ _).2 (by rw [this]; rfl)))
    obtain rfl := hname b hb
    rw [Msg.getKey, hfu]
    simp [Msg.keyOf, getAlias, hb]
  · intro u hne hn
    cases hx : m'.namespaces.getAlias u with
    | none => rfl
    | some b =>
      rw [getAlias] at hx
      have := (hi1.ns.bij _ _).1 (g3.sub _ _ ((g2.ns.bij _ _).2 hx))
      rw [f3] at this
      simp only [Dict.get?_set, if_neg (Ne.symm hne)] at this
      rw [getAlias] at hn
      rw [hn] at this; cases this
  · cases hx : m'.namespaces.getAlias uri with
    | some b => left; rw [getAlias] at hx; rw [hname b hx]
    | none =>
      right
      have hnone : ∀ k, args.get? k = none := by
        intro k
        cases hk : args.get? k with
        | none => rfl
        | some v =>
          have : m'.args.get? (.uri uri, k) = some v := by rw [g4, f4]; simp [hk]
          have := g2.known uri k ((Dict.mem_keys_iff _ _).2 (by rw [this]; rfl))
          rw [getAlias] at hx
          rw [hx] at this; cases this
      refine ⟨rfl, ?_, ?_, hnone⟩
      · cases hy : m'.namespaces.getNamespaceURI (.name alias) with
        | none => rfl
        | some u =>
          have := g3.sub _ _ hy
          rw [f3] at this
          simp [Dict.get?_set] at this
          subst this
          have := (g2.ns.bij _ _).1 hy
          rw [getAlias] at hx
          rw [hx] at this; cases this
      · cases ho : m.isOpenID1 with
        | true => rfl
        | false =>
          exfalso
          have himp : m1.namespaces.isImplicit uri = false := by
            rw [f3, ho]
            simp only [isImplicit, Bool.false_eq_true, if_false]
            cases hc : m.namespaces.implicit.contains uri with
            | false => rfl
            | true =>
              have := hi.ns.imp uri (by simpa using hc)
              rw [getAlias] at hu
              rw [hu] at this; cases this
          have := (g2.ns.bij _ _).1 (g5 (.name alias) uri (by rw [f3]; simp [Dict.get?_set]) himp)
          rw [getAlias] at hx
          rw [hx] at this; cases this

-- The message above is built this way, from `c62_new`, `c62_set` and `c62_extension`: it can be sent to any receiver.
example (reg : Dict Str Str) : Built reg sendMsg0 ∧ Sendable reg sendMsg0 OPENID2_NS := by
  obtain ⟨m0, e0⟩ : ∃ m0, Msg.new (some OPENID2_NS) none = .ok m0 := ⟨_, rfl⟩
  obtain ⟨b0, s0⟩ := c62_new (reg := reg) e0 (.inr (.inr ⟨rfl, rfl⟩))
  obtain ⟨m1, e1, b1, s1, -⟩ := c62_set (ns := .openid) (k := t!"mode") (v := t!"checkid_setup") b0 s0
    (.inl ⟨rfl, by decide, by decide⟩)
  have h1 : m1.namespaces = { aliasToNs := [(.null, OPENID2_NS)], nsToAlias := [(OPENID2_NS, .null)], implicit := [] } := by
    have : (Msg.new (some OPENID2_NS)).toOption.bind (fun m => (m.setArg .openid t!"mode" t!"checkid_setup").toOption) =
        some m1 := by rw [e0]; simp [Except.toOption, e1]
    have := congrArg (Option.map Msg.namespaces) this
    simp only [Option.map_some] at this
    rw [← Option.some.injEq, ← this]
    decide +kernel
  obtain ⟨m2, e2, b2, s2, -⟩ := c62_extension (uri := t!"http://openid.net/srv/ax/1.0") (alias := t!"ax")
    (args := [(t!"mode", t!"fetch_request"), (t!"type.a", t!"http://a/")]) b1 s1 (by decide) (by decide) (by decide)
    (by rw [h1]; decide) (by rw [h1]; decide) (by intro h; simp [Msg.isOpenID1, s1.version] at h; exact absurd h (by decide))
  have : sendMsg0 = m2 := by
    rw [sendMsg0, e0]
    simp [Except.toOption, e1, e2]
  rw [this]
  exact ⟨b2, s2⟩

/-- C62 fails for other extensions in OpenID 1: the receiver does not find any of their arguments.  (`toMessage` never
    declares an extension in OpenID 1, and the library registers none but simple registration.) -/
theorem c62_openid1_lost {reg0 reg : Dict Str Str} {m m1 m' : Msg} {oid uri alias : Str} {args q : Dict Str Str}
    (hm : Built reg0 m) (h : Sendable reg m oid) (h1 : m.isOpenID1 = true) (hw : Dict.WF args)
    (hs : uri ≠ t!"sreg" ∧ uri ∉ [OPENID1_NS, THE_OTHER_OPENID1_NS, OPENID2_NS])
    (hal : alias ∉ OPENID_PROTOCOL_FIELDS ∧ '.' ∉ alias)
    (hu : m.namespaces.getAlias uri = none) (ha : m.namespaces.getNamespaceURI (.name alias) = none)
    (hreg : ∀ a u, reg.get? a = some u → u ≠ t!"sreg" ∧ u ≠ uri)
    (hadd : m.addExtension uri alias args = .ok m1) (hq : Dict.WF q) (hsent : Dict.Same q m1.toPostArgs)
    (hp : fromPostArgs reg q = .ok m') (k : Str) : m'.getArg (.uri uri) k = .ok none := by
  have hi := minv_built reg0 m hm
  have hok : okAlias (.name alias) = true := by simp [okAlias, hal.1, hal.2]
  obtain ⟨m2, e1, e2, e3, e4⟩ := addExtension_fresh hi hw hs.1 hok hu ha
  rw [hadd] at e1
  obtain rfl : m1 = m2 := by simpa using e1
  have hraw := raw_of hi h
  have hnull : m1.namespaces.aliasToNs.get? .null = some oid := by
    rw [e3]; simp only [Dict.get?_set]; simpa using hraw.version
  -- what is declared in the message sent
  have hdecl : ∀ a u, q.get? (t!"openid.ns." ++ a) = some u →
      m1.namespaces.aliasToNs.get? (.name a) = some u ∧ m1.namespaces.isImplicit u = false := by
    intro a u hau
    have hpre : ∀ a : Str, (t!"openid.ns." ++ a : Str) = t!"openid." ++ (t!"ns" ++ '.' :: a) := fun a => rfl
    rw [hsent, toPostArgs_eq] at hau
    have hmem : (t!"openid.ns." ++ a, u) ∈ nsPairs m1.namespaces ++ argPairs m1 := by
      rw [Association.get?_ofPairs] at hau
      exact List.mem_reverse.1 (Dict.get?_mem _ _ _ hau)
    rcases List.mem_append.1 hmem with g | g
    · obtain ⟨b, b1, b2, b3⟩ := (mem_nsPairs_iff e2.ns).1 g
      cases b with
      | null => exact absurd (congrArg List.length b2) (by simp [nsDefKey])
      | name s =>
        simp only [nsDefKey] at b2
        obtain rfl : s = a := List.append_cancel_left b2
        exact ⟨(e2.ns.bij _ _).2 b1, b3⟩
    · exfalso
      obtain ⟨n, k, c1, c2⟩ := (mem_argPairs_iff e2).1 g
      rw [hpre] at c2
      cases n with
      | bare =>
        simp only [Msg.keyOf, Option.some.injEq] at c2
        rw [e4, if_neg (by simp)] at c1
        exact not_pre (hraw.bare _ _ c1) c2
      | uri w =>
        simp only [Msg.keyOf, getAlias] at c2
        cases hx : m1.namespaces.nsToAlias.get? w with
        | none => rw [hx] at c2; cases c2
        | some b =>
          rw [hx] at c2
          rw [← e2.ns.bij] at hx
          cases b with
          | null =>
            rw [hnull] at hx
            obtain rfl : oid = w := by simpa using hx
            have hne : oid ≠ uri := by
              rintro rfl
              have := (hi.ns.bij _ _).1 hraw.version
              rw [getAlias] at hu
              rw [hu] at this; cases this
            rw [e4, if_neg (by simpa using hne)] at c1
            simp only [Option.some.injEq] at c2
            exact absurd (pre_inj c2).symm (no_dot_eq (hraw.plain _ _ c1).1)
          | name s =>
            obtain ⟨g1, g2⟩ := ok_name (e2.ns.ok _ _ hx)
            simp only [Option.some.injEq] at c2
            obtain ⟨d, -⟩ := dot_split g1 nodot_ns (pre_inj (a := s ++ '.' :: k) (by simpa using c2))
            exact g2 d
  have huimp : m1.namespaces.isImplicit uri = true := by rw [e3, h1]; simp [isImplicit]
  have hno : m'.namespaces.nsToAlias.get? uri = none := by
    have hd : ∀ k v, (t!"openid.ns." ++ k, v) ∈ q → v ≠ t!"sreg" := by
      intro k v hkv
      obtain ⟨g1, -⟩ := hdecl k v (Dict.get?_of_mem q hq _ _ hkv)
      rintro rfl
      rw [e2.ns.bij, e3] at g1
      simp only [Dict.get?_set, if_neg hs.1] at g1
      have := h.noSreg
      rw [getAlias] at this
      rw [this] at g1; cases g1
    obtain ⟨hi', hperm⟩ := roundtrip_pairs reg q hq (fun a u hau => (hreg a u hau).1) hd m' hp
    cases hx : m'.namespaces.nsToAlias.get? uri with
    | none => rfl
    | some b =>
      exfalso
      cases himp : m'.namespaces.isImplicit uri with
      | true =>
        rcases implicit_parsed hp uri (by simpa [isImplicit] using himp) with g | ⟨a, g⟩
        · exact hs.2 (by simp [g])
        · exact (hreg a uri g).2 rfl
      | false =>
        have hmem := hperm.mem_iff.1 (List.mem_append_left _ ((mem_nsPairs_iff hi'.ns).2 ⟨b, hx, rfl, himp⟩))
        cases b with
        | null => exact hs.2 (hi'.oid _ ((hi'.ns.bij _ _).2 hx))
        | name s =>
          have := (hdecl s uri (Dict.get?_of_mem q hq _ _ hmem)).2
          rw [huimp] at this; cases this
  have hi' := minv_fromPostArgs _ _ _ hp
  rw [Msg.getArg]
  simp only [Msg.fixNS, if_neg hs.1, ok_bind, pure_eq_ok, Except.ok.injEq]
  cases hx : m'.args.get? (.uri uri, k) with
  | none => rfl
  | some v =>
    have := hi'.known uri k ((Dict.mem_keys_iff _ _).2 (by rw [hx]; rfl))
    rw [hno] at this; cases this

/-- An attribute exchange request in OpenID 1, as it is sent and as it is parsed: the arguments end up in no extension. -/
example : ((((Msg.new (some OPENID1_NS)).toOption.bind fun m =>
      (m.addExtension t!"http://openid.net/srv/ax/1.0" t!"ax" [(t!"mode", t!"fetch_request")]).toOption).bind fun m =>
      (fromPostArgs libReg m.toPostArgs).toOption).map fun m =>
        (m.getArg (.uri t!"http://openid.net/srv/ax/1.0") t!"mode", m.getArg .openid t!"ax.mode")) =
    some (.ok none, .ok (some t!"fetch_request")) := by decide +kernel

/-- ... and simple registration 1.1, which the library registers, arrives. -/
example : ((((Msg.new (some OPENID1_NS)).toOption.bind fun m =>
      (m.addExtension t!"http://openid.net/extensions/sreg/1.1" t!"sreg" [(t!"required", t!"email")]).toOption).bind fun m =>
      (fromPostArgs libReg m.toPostArgs).toOption).map fun m =>
        m.getArg (.uri t!"http://openid.net/extensions/sreg/1.1") t!"required") =
    some (.ok (some t!"email")) := by decide +kernel

end Props
