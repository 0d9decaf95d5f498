import Verif.Lemmas.MessageSend
/-! What a parsed message says its version is. -/

namespace Message
open Py NamespaceMap Spec

/-- what a step of parsing keeps: whether the OpenID namespace is implicit -/
def Keeps (oid : Str) (m m' : Msg) : Prop :=
  m'.namespaces.isImplicit oid = m.namespaces.isImplicit oid

theorem keeps_set {m m' : Msg} {oid w k v : Str} (hi : MInv m) (hs : m.setArg (.uri w) k v = .ok m') : Keeps oid m m' := by
  have : m'.namespaces.implicit = m.namespaces.implicit := by
    rw [Msg.setArg] at hs
    obtain ⟨n, h1, h2⟩ := bind_eq_ok.1 hs
    cases n with
    | bare => simp at h2; subst h2; rfl
    | uri w2 =>
      simp only at h2
      obtain ⟨nn, h3, h4⟩ := bind_eq_ok.1 h2
      simp at h4
      subst h4
      simp only
      rcases add_total _ hi.ns w2 with ⟨a, _, e⟩ | ⟨_, j, m2, _, _, e1, e2⟩
      · rw [e] at h3; simp at h3; rw [h3]
      · rw [e2] at h3; simp at h3; subst h3
        obtain ⟨-, -, -, -, e⟩ := addAlias_ok _ _ _ _ _ e1
        rw [e]; rfl
  rw [Keeps, isImplicit, isImplicit, this]

theorem keeps_place {reg : Dict Str Str} {m m' : Msg} {oid : Str} (h : Has m oid) {p : Alias × Str × Str}
    (hp : placeArg reg m p = .ok m') : Keeps oid m m' := by
  rw [placeArg] at hp
  split at hp
  · exact keeps_set h.inv hp
  · split at hp
    · cases hp
    · split at hp
      · split at hp
        · exact keeps_set h.inv hp
        · cases hp
      · obtain ⟨nss, h1, h2⟩ := bind_eq_ok.1 hp
        obtain ⟨h3, h4⟩ := h.addAlias h1
        rw [Keeps, show m'.namespaces.isImplicit oid = _ from keeps_set h3.inv h2]
        obtain ⟨-, -, -, -, e⟩ := addAlias_ok _ _ _ _ _ h1
        simp only [e, isImplicit, if_true, List.contains_eq_any_beq, List.any_append]
        simp [h4.symm]

theorem keeps_placeAll {reg : Dict Str Str} {A : List (Alias × Str × Str)} {m m' : Msg} {oid : Str} (h : Has m oid)
    (hp : A.foldlM (placeArg reg) m = .ok m') : Keeps oid m m' := by
  induction A generalizing m with
  | nil => simp at hp; subst hp; rfl
  | cons p r ih =>
    rw [List.foldlM_cons] at hp
    obtain ⟨m1, g1, g2⟩ := bind_eq_ok.1 hp
    exact (ih (h.place g1).1 g2).trans (keeps_place h g1)

theorem startMsg_implicit {ns : Option Str} {m : Msg} (h : startMsg ns = .ok m) :
    m.namespaces.isImplicit (ns.getD OPENID1_NS) = ns.isNone := by
  have key : ∀ u i, Msg.new (some u) (some i) = .ok m → m.namespaces.isImplicit u = i := by
    intro u i h
    simp only [Msg.new, Msg.setOpenIDNamespace] at h
    split at h
    · obtain ⟨nm, g1, g2⟩ := bind_eq_ok.1 h
      simp only [pure_eq_ok, Except.ok.injEq] at g2
      subst g2
      obtain ⟨-, -, -, -, rfl⟩ := addAlias_ok _ _ _ _ _ g1
      cases i <;> simp [isImplicit]
    · simp at h
  unfold startMsg at h
  split at h
  · exact key _ _ h
  · exact key _ _ h

theorem lastNull_none {A : List (Alias × Str × Str)} {k : Str} (h : ∀ v, (.null, k, v) ∉ A) : lastNull A k none = none := by
  have : ∀ (A : List (Alias × Str × Str)) (o : Option Str), (∀ v, (.null, k, v) ∉ A) → lastNull A k o = o := by
    intro A
    induction A with
    | nil => intro o _; rfl
    | cons p r ih =>
      intro o h
      obtain ⟨a, k', v⟩ := p
      have h1 : ¬ (a = .null ∧ k' = k) := by
        rintro ⟨rfl, rfl⟩; exact h v (by simp)
      have := ih o fun v hv => h v (by simp [hv])
      simpa [lastNull, h1] using this
  exact this A none h

/-- the version of a parsed query is sent as it was declared, and no argument is called `ns` -/
theorem fromOpenIDArgs_version {reg O : Dict Str Str} (hO : Dict.WF O) {m : Msg} (h : fromOpenIDArgs reg O = .ok m) :
    m.namespaces.isImplicit ((O.get? t!"ns").getD OPENID1_NS) = (O.get? t!"ns").isNone ∧
    m.args.get? (.uri ((O.get? t!"ns").getD OPENID1_NS), t!"ns") = none := by
  rw [fromOpenIDArgs] at h
  obtain ⟨m0, h0, h⟩ := bind_eq_ok.1 h
  obtain ⟨nss, h1, h2⟩ := bind_eq_ok.1 h
  rw [collect_ns O hO] at h0
  simp only [Option.or_none] at h0
  obtain ⟨g1, g2⟩ := startMsg_ok h0
  have g3 := g1.declare h1
  constructor
  · rw [show m.namespaces.isImplicit _ = _ from keeps_placeAll g3 h2]
    simp only
    rw [isImplicit, implicit_declare _ h1]
    exact startMsg_implicit h0
  · rw [(g3.placeAll h2).2 t!"ns" (by decide)]
    simp only [g2, Dict.get?_nil]
    apply lastNull_none
    intro v hv
    rw [mem_collect] at hv
    rcases hv with hv | ⟨p, -, hp⟩
    · simp at hv
    · rw [argOf] at hp
      split at hp
      · split at hp
        · cases hp
        · next hn => simp at hp; exact hn hp.1
      · split at hp <;> simp at hp

theorem fromPostArgs_version {reg q : Dict Str Str} (hq : Dict.WF q) {m : Msg} (h : fromPostArgs reg q = .ok m) :
    m.namespaces.isImplicit ((q.get? t!"openid.ns").getD OPENID1_NS) = (q.get? t!"openid.ns").isNone ∧
    m.args.get? (.uri ((q.get? t!"openid.ns").getD OPENID1_NS), t!"ns") = none := by
  rw [fromPostArgs] at h
  have hO : Dict.WF (partitionArgs q).1 := by
    obtain ⟨O, B, e, h1, -⟩ := partitionArgs_spec q hq
    rw [e]; exact h1
  have hg : (partitionArgs q).1.get? t!"ns" = q.get? t!"openid.ns" := by
    have := partition_get q hq [] [] t!"ns"
    simpa [partitionArgs] using this
  obtain ⟨m1, h1, h2⟩ := bind_eq_ok.1 h
  simp only [pure_eq_ok, Except.ok.injEq] at h2
  obtain ⟨g1, g2⟩ := fromOpenIDArgs_version hO h1
  rw [hg] at g1 g2
  rw [← h2]
  exact ⟨g1, by rw [bare_get]; exact g2⟩

/-- `openid.ns` is sent as it came -/
theorem post_ns {reg q : Dict Str Str} (hq : Dict.WF q) {m : Msg} (h : fromPostArgs reg q = .ok m) :
    m.toPostArgs.get? t!"openid.ns" = q.get? t!"openid.ns" := by
  obtain ⟨hh, -⟩ := fromPostArgs_has hq h
  obtain ⟨hv, hns⟩ := fromPostArgs_version hq h
  have hbare := fromPostArgs_bare hq h t!"openid.ns"
  have hm := hh.inv
  generalize ho : (q.get? t!"openid.ns").getD OPENID1_NS = oid at *
  have hal : m.namespaces.nsToAlias.get? oid = some .null := (hm.ns.bij _ _).1 hh.ns
  rw [toPostArgs_eq]
  apply ofPairs_get_of
  intro v
  rw [List.mem_append, mem_nsPairs_iff hm.ns, mem_argPairs_iff hm]
  constructor
  · rintro (⟨a, h1, h2, h3⟩ | ⟨n, k, h1, h2⟩)
    · cases a with
      | null =>
        have := (hm.ns.bij _ _).2 h1
        rw [hh.ns] at this; cases this
        rw [hv] at h3
        cases hq' : q.get? t!"openid.ns" with
        | none => rw [hq'] at h3; simp at h3
        | some x => rw [hq'] at ho; simpa using ho
      | name s =>
        have : t!"openid." ++ (t!"ns" ++ '.' :: s) = t!"openid." ++ t!"ns" := h2
        exact absurd (List.append_cancel_left this) (no_dot_eq (by decide))
    · cases n with
      | bare =>
        simp [Msg.keyOf] at h2; subst h2
        rw [hbare] at h1
        simp [show startsWith t!"openid.ns" t!"openid." = true from by decide] at h1
      | uri u =>
        simp only [Msg.keyOf] at h2
        split at h2
        · cases h2
        · next ha =>
          have hu : m.namespaces.aliasToNs.get? .null = some u := (hm.ns.bij _ _).2 ha
          rw [hh.ns] at hu; cases hu
          have : t!"openid." ++ k = t!"openid." ++ t!"ns" := by simpa using h2
          cases List.append_cancel_left this
          rw [hns] at h1; cases h1
        · next a _ =>
          have : t!"openid." ++ (a ++ '.' :: k) = t!"openid." ++ t!"ns" := by simpa using h2
          exact absurd (List.append_cancel_left this) (no_dot_eq (by decide))
  · intro hq'
    rw [hq'] at ho hv
    simp at ho; subst ho
    exact .inl ⟨.null, hal, rfl, by simpa using hv⟩

end Message
