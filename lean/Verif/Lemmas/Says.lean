import Verif.Lemmas.Authentic
import Verif.Lemmas.MessageSend
/-! # Positive answers as messages a program can hold, and what extensions leave alone -/

namespace Authentic
open Py Message Association Store Spec Server

theorem built_set {reg : Dict Str Str} {r r' : Server.Response} {k v : Str} (hb : Built reg r.fields)
    (h : r.set k v = .ok r') : Built reg r'.fields := by
  have := Built.step _ (.set .openid k v) hb
  simp only [msgStep, (Response.set_ok h).2, Except.toOption, Option.getD_some] at this
  exact this

theorem built_update {reg : Dict Str Str} {r r' : Server.Response} {kvs : Dict Str Str} (hb : Built reg r.fields)
    (h : r.update kvs = .ok r') : Built reg r'.fields := by
  have := Built.step _ (.update .openid kvs) hb
  simp only [msgStep, (Response.update_ok h).2, Except.toOption, Option.getD_some] at this
  exact this

/-- a positive answer is made by the methods of a message -/
theorem built_answer {reg : Dict Str Str} {V : Server.World} {E : Server.Env} {r : CheckIDRequest}
    {serverUrl identity claimedId : Option Str} {resp : Server.Response}
    (h : r.answer V E true serverUrl identity claimedId = .ok resp) : Built reg resp.fields := by
  unfold CheckIDRequest.answer at h
  split at h
  · cases h
  · cases h
  · obtain ⟨server, -, h⟩ := bind_eq_ok.1 h
    obtain ⟨resp0, h2, h⟩ := bind_eq_ok.1 h
    have b0 : Built reg resp0.fields := by
      rw [Response.new] at h2
      obtain ⟨f, h3, h4⟩ := bind_eq_ok.1 h2
      simp only [pure_eq_ok, Except.ok.injEq] at h4
      subst h4
      exact .new _ _ _ (lift_ok.1 h3)
    split at h
    · cases h
    · simp only [if_true] at h
      unfold CheckIDRequest.answerYes at h
      obtain ⟨⟨i, c⟩, -, h⟩ := bind_eq_ok.1 h
      simp only at h
      split at h
      · cases h
      · obtain ⟨resp1, h4, h⟩ := bind_eq_ok.1 h
        have b1 := built_update b0 h4
        unfold CheckIDRequest.putIdentity at h
        obtain ⟨resp2, h5, h⟩ := bind_eq_ok.1 h
        have b2 : Built reg resp2.fields := by
          unfold Response.setTruthy at h5
          split at h5
          · exact built_set b1 h5
          · cases h5; exact b1
        cases i with
        | none => cases h; exact b2
        | some i =>
          simp only at h
          obtain ⟨resp3, h6, h⟩ := bind_eq_ok.1 h
          have b3 := built_set b2 h6
          split at h
          · cases c with
            | none => cases h
            | some c => exact built_set b3 h
          · cases h; exact b3

/-- what is sent under a name without a dot, version included -/
theorem post_undotted {m : Msg} (hm : MInv m) {oid : Str} (ho : m.getOpenIDNamespace = some oid)
    (hb : ∀ K, m.args.get? (.bare, K) = none) {k : Str} (hk : '.' ∉ k) :
    m.toPostArgs.get? (t!"openid." ++ k) =
      (m.args.get? (.uri oid, k)).or (if k = t!"ns" ∧ m.namespaces.isImplicit oid = false then some oid else none) := by
  by_cases hn : k = t!"ns"
  · subst hn
    have hal : m.namespaces.nsToAlias.get? oid = some .null := (hm.ns.bij _ _).1 ho
    have hA : ∀ v, (t!"openid." ++ t!"ns", v) ∈ argPairs m ↔ m.args.get? (.uri oid, t!"ns") = some v := by
      intro v
      rw [mem_argPairs_iff hm]
      constructor
      · rintro ⟨n, k', h1, h2⟩
        cases n with
        | bare => rw [hb] at h1; cases h1
        | uri u =>
          simp only [Msg.keyOf] at h2
          split at h2
          · cases h2
          · next ha =>
            have hu : m.namespaces.aliasToNs.get? .null = some u := (hm.ns.bij _ _).2 ha
            have : some u = some oid := by rw [← hu]; exact ho
            cases this
            have : k' = t!"ns" := by simpa using h2
            subst this
            exact h1
          · next a _ =>
            have : t!"openid." ++ (a ++ '.' :: k') = t!"openid." ++ t!"ns" := by simpa using h2
            exact absurd (List.append_cancel_left this) (no_dot_eq hk)
      · intro h
        exact ⟨_, _, h, by simp [Msg.keyOf, NamespaceMap.getAlias, hal]⟩
    have hN : ∀ v, (t!"openid." ++ t!"ns", v) ∈ nsPairs m.namespaces ↔ v = oid ∧ m.namespaces.isImplicit oid = false := by
      intro v
      rw [mem_nsPairs_iff hm.ns]
      constructor
      · rintro ⟨a, h1, h2, h3⟩
        cases a with
        | null =>
          have hu := (hm.ns.bij _ _).2 h1
          have : some v = some oid := by rw [← hu]; exact ho
          cases this
          exact ⟨rfl, h3⟩
        | name s =>
          have : t!"openid." ++ (t!"ns" ++ '.' :: s) = t!"openid." ++ t!"ns" := h2
          exact absurd (List.append_cancel_left this) (no_dot_eq hk)
      · rintro ⟨rfl, h⟩
        exact ⟨.null, hal, rfl, h⟩
    rw [toPostArgs_eq, get?_ofPairs, List.reverse_append, get?_append]
    have e1 := ofPairs_get_of (argPairs m) _ _ hA
    have e2 := ofPairs_get_of (nsPairs m.namespaces) (t!"openid." ++ t!"ns")
      (if m.namespaces.isImplicit oid = false then some oid else none) (by
        intro v
        rw [hN]
        split
        · next h => simp [h, eq_comm]
        · next h => simp [h])
    rw [get?_ofPairs] at e1 e2
    rw [e1, e2]
    cases m.args.get? (.uri oid, t!"ns") <;> simp
  · rw [post_plain m hm oid ho k hk hn (hb _)]
    simp [hn]

/-- what adding an extension does, whether or not its alias is there already -/
theorem addExtension_keeps {m m1 : Msg} (hm : MInv m) {uri alias : Str} {args : Dict Str Str} (hs : uri ≠ t!"sreg")
    (h : m.addExtension uri alias args = .ok m1) :
    MInv m1 ∧ m1.namespaces.nsToAlias = m.namespaces.nsToAlias.set uri (.name alias) ∧
      (∀ u, u ≠ uri → (m1.namespaces.isImplicit u = m.namespaces.isImplicit u)) ∧
      (∀ n k, n ≠ .uri uri → m1.args.get? (n, k) = m.args.get? (n, k)) ∧
      ∀ k v, m1.args.get? (.uri uri, k) = some v → m.args.get? (.uri uri, k) = some v ∨ k ∈ Dict.keys args := by
  rw [Msg.addExtension] at h
  obtain ⟨nm, h1, h2⟩ := bind_eq_ok.1 h
  have hnm : MInv { m with namespaces := nm } ∧ nm.nsToAlias = m.namespaces.nsToAlias.set uri (.name alias) ∧
      ∀ u, u ≠ uri → (nm.isImplicit u = m.namespaces.isImplicit u) := by
    unfold Msg.extensionAlias at h1
    split at h1
    · next n hn =>
      simp only [Except.ok.injEq] at h1
      subst h1
      refine ⟨minv_addAlias m hm _ _ _ _ hn, ?_⟩
      obtain ⟨-, -, -, -, e⟩ := NamespaceMap.addAlias_ok _ _ _ _ _ hn
      rw [e]
      refine ⟨rfl, fun u hu => ?_⟩
      simp only [NamespaceMap.isImplicit]
      split <;> simp [hu]
    · split at h1
      · next hc =>
        simp only [Except.ok.injEq] at h1
        subst h1
        simp only [Bool.and_eq_true, decide_eq_true_eq] at hc
        exact ⟨hm, (Dict.set_same _ _ _ hc.2).symm, fun _ _ => rfl⟩
      · cases h1
  obtain ⟨i1, i2, i3⟩ := hnm
  rw [Msg.updateArgs] at h2
  simp only [Msg.fixNS, if_neg hs, ok_bind, NsKey.toNs] at h2
  have key : ∀ (kvs : List (Str × Str)) (m0 m1 : Msg), MInv m0 → m0.namespaces.nsToAlias.get? uri = some (.name alias) →
      kvs.foldlM (fun m p => m.setArg (.uri uri) p.1 p.2) m0 = .ok m1 →
      MInv m1 ∧ m1.namespaces = m0.namespaces ∧ (∀ n k, n ≠ .uri uri → m1.args.get? (n, k) = m0.args.get? (n, k)) ∧
      ∀ k v, m1.args.get? (.uri uri, k) = some v → m0.args.get? (.uri uri, k) = some v ∨ k ∈ kvs.map Prod.fst := by
    intro kvs
    induction kvs with
    | nil =>
      intro m0 m1 hi _ h
      simp only [List.foldlM_nil, pure_eq_ok, Except.ok.injEq] at h
      subst h
      exact ⟨hi, rfl, fun _ _ _ => rfl, fun _ _ h => .inl h⟩
    | cons p r ih =>
      intro m0 m1 hi hu h
      rw [List.foldlM_cons] at h
      obtain ⟨m2, e, h⟩ := bind_eq_ok.1 h
      obtain ⟨m2', e1, e2, e3, -, -, -, e7⟩ := setArg_ok m0 hi (.uri uri) p.1 p.2 (.uri uri) (by simp [Msg.fixNS, hs])
      rw [e] at e1; cases e1
      have hns := e7 uri rfl (by rw [hu]; rfl)
      obtain ⟨g1, g2, g3, g4⟩ := ih m2 m1 e3 (by rw [hns]; exact hu) h
      refine ⟨g1, by rw [g2, hns], fun n k hn => ?_, fun k v hk => ?_⟩
      · rw [g3 n k hn, e2, Dict.get?_set, if_neg]
        intro e; cases e; exact hn rfl
      · rcases g4 k v hk with h | h
        · rw [e2, Dict.get?_set] at h
          split at h
          · next e => cases e; exact .inr (by simp)
          · exact .inl h
        · exact .inr (by simp [h])
  obtain ⟨g1, g2, g3, g4⟩ := key args _ m1 i1 (by rw [i2, Dict.get?_set, if_pos rfl]) h2
  exact ⟨g1, by rw [g2]; exact i2, fun u hu => by rw [g2]; exact i3 u hu, g3, g4⟩

/-- adding an extension changes nothing that is sent under a name without a dot -/
theorem extension_post {m m1 : Msg} (hm : MInv m) {oid : Str} (ho : m.getOpenIDNamespace = some oid)
    (hb : ∀ K, m.args.get? (.bare, K) = none) {uri alias : Str} {args : Dict Str Str} (hs : uri ≠ t!"sreg")
    (hne : uri ≠ oid) (h : m.addExtension uri alias args = .ok m1) :
    m1.getOpenIDNamespace = some oid ∧ (∀ K, m1.args.get? (.bare, K) = none) ∧
      ∀ k, '.' ∉ k → m1.toPostArgs.get? (t!"openid." ++ k) = m.toPostArgs.get? (t!"openid." ++ k) := by
  obtain ⟨i1, i2, i3, i4, -⟩ := addExtension_keeps hm hs h
  have ho1 : m1.getOpenIDNamespace = some oid := by
    refine (i1.ns.bij _ _).2 ?_
    rw [i2, Dict.get?_set, if_neg hne]
    exact (hm.ns.bij _ _).1 ho
  have hb1 : ∀ K, m1.args.get? (.bare, K) = none := fun K => by rw [i4 _ _ (by simp)]; exact hb K
  refine ⟨ho1, hb1, fun k hk => ?_⟩
  rw [post_undotted i1 ho1 hb1 hk, post_undotted hm ho hb hk, i4 _ _ (by simpa using Ne.symm hne), i3 _ (Ne.symm hne)]

/-- nothing is sent under a name with a comma, if there is none in the aliases and the names of the arguments -/
theorem names_of {m : Msg} (hm : MInv m) (hal : ∀ u s, m.namespaces.nsToAlias.get? u = some (.name s) → ',' ∉ s)
    (hb : ∀ K, m.args.get? (.bare, K) = none) (hk : ∀ u k v, m.args.get? (.uri u, k) = some v → ',' ∉ k)
    (k v : Str) (h : m.toPostArgs.get? (t!"openid." ++ k) = some v) : ',' ∉ k := by
  rw [toPostArgs_eq] at h
  have hmem : (t!"openid." ++ k, v) ∈ nsPairs m.namespaces ++ argPairs m := by
    rw [get?_ofPairs] at h
    exact List.mem_reverse.1 (Dict.get?_mem _ _ _ h)
  rcases List.mem_append.1 hmem with h | h
  · obtain ⟨a, h1, h2, -⟩ := (mem_nsPairs_iff hm.ns).1 h
    cases a with
    | null =>
      have : t!"openid." ++ t!"ns" = t!"openid." ++ k := h2
      rw [← List.append_cancel_left this]; decide
    | name s =>
      have : t!"openid." ++ (t!"ns." ++ s) = t!"openid." ++ k := h2
      rw [← List.append_cancel_left this]
      have := hal _ _ h1
      simp [this]
  · obtain ⟨n, k', h1, h2⟩ := (mem_argPairs_iff hm).1 h
    cases n with
    | bare => rw [hb] at h1; cases h1
    | uri u =>
      have hk' := hk _ _ _ h1
      simp only [Msg.keyOf] at h2
      split at h2
      · cases h2
      · have : k' = k := by simpa using h2
        rw [← this]; exact hk'
      · next a ha =>
        have : t!"openid." ++ (a ++ '.' :: k') = t!"openid." ++ k := by simpa using h2
        rw [← List.append_cancel_left this]
        have := hal _ _ ha
        simp [this, hk']

end Authentic
