import Verif.Lemmas.MessageNs
/-! What a parsed message has of a declared extension. -/

namespace Message
open Py NamespaceMap Spec

/-- no alias stands for the literal `sreg` -/
def NoLiteral (nm : NamespaceMap) : Prop := ∀ a u, nm.aliasToNs.get? a = some u → u ≠ t!"sreg"

theorem set_known {m m' : Msg} (hm : MInv m) {w k v : Str} (hs : w ≠ t!"sreg")
    (hk : (m.namespaces.nsToAlias.get? w).isSome = true) (h : m.setArg (.uri w) k v = .ok m') :
    MInv m' ∧ m'.namespaces = m.namespaces ∧ m'.args = m.args.set (.uri w, k) v := by
  obtain ⟨m2, e1, e2, e3, -, -, -, e7⟩ := setArg_ok m hm (.uri w) k v (.uri w) (by simp [Msg.fixNS, hs])
  rw [h] at e1; cases e1
  exact ⟨e3, e7 w rfl hk, e2⟩

theorem place_ext {reg : Dict Str Str} {m m' : Msg} {oid a u : Str} (h : Has m oid) (hS : NoLiteral m.namespaces)
    (hreg : ∀ b w, reg.get? b = some w → w ≠ t!"sreg") (ha : m.namespaces.aliasToNs.get? (.name a) = some u)
    {p : Alias × Str × Str} (hp : placeArg reg m p = .ok m') :
    NoLiteral m'.namespaces ∧ m'.namespaces.aliasToNs.get? (.name a) = some u ∧
      ∀ k, m'.args.get? (.uri u, k) = if p.1 = .name a ∧ p.2.1 = k then some p.2.2 else m.args.get? (.uri u, k) := by
  obtain ⟨b, k0, v⟩ := p
  have hna := (h.inv.ns.bij _ _).1 ha
  simp only [placeArg, getNamespaceURI] at hp
  split at hp
  · next w hw =>
    have hnw := (h.inv.ns.bij _ _).1 hw
    obtain ⟨-, e1, e2⟩ := set_known h.inv (hS _ _ hw) (by rw [hnw]; rfl) hp
    refine ⟨by rw [e1]; exact hS, by rw [e1]; exact ha, fun k => ?_⟩
    rw [e2, Dict.get?_set]
    have : (NsKey.uri w, k0) = (NsKey.uri u, k) ↔ b = .name a ∧ k0 = k := by
      simp only [Prod.mk.injEq, NsKey.uri.injEq]
      constructor
      · rintro ⟨rfl, h2⟩
        rw [hna] at hnw
        exact ⟨by simpa using hnw.symm, h2⟩
      · rintro ⟨rfl, h2⟩
        rw [ha] at hw
        exact ⟨by simpa using hw.symm, h2⟩
    simp only [this]
  · next hw =>
    split at hp
    · cases hp
    · next b =>
      have hne : b ≠ a := by rintro rfl; rw [ha] at hw; cases hw
      have hno : ¬ (Alias.name b = .name a ∧ k0 = k0) := by simp [hne]
      split at hp
      · split at hp
        · next w hw' =>
          have hwo : w = oid := by
            simp only [Msg.getOpenIDNamespace, getNamespaceURI, h.ns, Option.some.injEq] at hw'; exact hw'.symm
          subst hwo
          have hno := (h.inv.ns.bij _ _).1 h.ns
          obtain ⟨-, e1, e2⟩ := set_known h.inv (hS _ _ h.ns) (by rw [hno]; rfl) hp
          refine ⟨by rw [e1]; exact hS, by rw [e1]; exact ha, fun k => ?_⟩
          rw [e2, Dict.get?_set, if_neg, if_neg]
          · simp [hne]
          · intro e
            simp only [Prod.mk.injEq, NsKey.uri.injEq] at e
            rw [e.1, hna] at hno; cases hno
        · cases hp
      · next w hw' =>
        obtain ⟨nm, g1, g2⟩ := bind_eq_ok.1 hp
        have hi := minv_addAlias m h.inv _ _ _ _ g1
        obtain ⟨a1, a2, a3, a4, a5⟩ := addAlias_ok _ _ _ _ _ g1
        have hws : w ≠ t!"sreg" := by
          rw [Msg.getDefaultNamespace] at hw'
          split at hw'
          · exact hreg _ _ hw'
          · cases hw'
        have hwu : w ≠ u := by
          rintro rfl
          rcases a3 with e | e
          · rw [hna] at e; cases e
          · rw [hna] at e; simp at e; exact hne e.symm
        have hS1 : NoLiteral nm := by
          intro c x hx
          rw [a5, Dict.get?_set] at hx
          split at hx
          · cases hx; exact hws
          · exact hS _ _ hx
        have ha1 : nm.aliasToNs.get? (.name a) = some u := by
          rw [a5]
          simp only [Dict.get?_set]
          rw [if_neg (by simp [hne])]; exact ha
        obtain ⟨-, e1, e2⟩ := set_known hi hws (by simp [a5, Dict.get?_set]) g2
        refine ⟨by rw [e1]; exact hS1, by rw [e1]; exact ha1, fun k => ?_⟩
        rw [e2, Dict.get?_set, if_neg, if_neg]
        · simp [hne]
        · intro e; simp only [Prod.mk.injEq, NsKey.uri.injEq] at e; exact hwu e.1

/-- the last argument with this alias and name -/
def lastName (a k : Str) (A : List (Alias × Str × Str)) (o : Option Str) : Option Str :=
  A.foldl (fun o p => if p.1 = .name a ∧ p.2.1 = k then some p.2.2 else o) o

theorem placeAll_ext {reg : Dict Str Str} {oid a u : Str} (hreg : ∀ b w, reg.get? b = some w → w ≠ t!"sreg")
    (A : List (Alias × Str × Str)) {m m' : Msg} (h : Has m oid) (hS : NoLiteral m.namespaces)
    (ha : m.namespaces.aliasToNs.get? (.name a) = some u) (hp : A.foldlM (placeArg reg) m = .ok m') :
    m'.namespaces.aliasToNs.get? (.name a) = some u ∧
      ∀ k, m'.args.get? (.uri u, k) = lastName a k A (m.args.get? (.uri u, k)) := by
  induction A generalizing m with
  | nil => simp at hp; subst hp; exact ⟨ha, fun _ => rfl⟩
  | cons p r ih =>
    rw [List.foldlM_cons] at hp
    obtain ⟨m1, g1, g2⟩ := bind_eq_ok.1 hp
    obtain ⟨e1, e2, e3⟩ := place_ext h hS hreg ha g1
    obtain ⟨f1, f2⟩ := ih (h.place g1).1 e1 e2 g2
    refine ⟨f1, fun k => ?_⟩
    rw [f2, e3]
    rfl

theorem lastName_of {a k : Str} {A : List (Alias × Str × Str)} {o : Option Str}
    (h : ∀ v, (.name a, k, v) ∈ A ↔ o = some v) : lastName a k A none = o := by
  have key : ∀ (A : List (Alias × Str × Str)) (i : Option Str), (∀ v, (.name a, k, v) ∈ A → o = some v) →
      (i = o ∨ i = none ∧ ∀ v, o = some v → (.name a, k, v) ∈ A) → lastName a k A i = o := by
    intro A
    induction A with
    | nil =>
      rintro i - (h | ⟨h1, h2⟩)
      · exact h
      · rw [h1]
        cases ho : o with
        | none => rfl
        | some v => exact absurd (h2 v ho) (by simp)
    | cons p r ih =>
      intro i hA hi
      obtain ⟨b, k', v⟩ := p
      show lastName a k r (if b = .name a ∧ k' = k then some v else i) = o
      by_cases hb : b = .name a ∧ k' = k
      · obtain ⟨rfl, rfl⟩ := hb
        rw [if_pos ⟨rfl, rfl⟩]
        exact ih _ (fun v hv => hA v (by simp [hv])) (.inl (hA v (by simp)).symm)
      · rw [if_neg hb]
        refine ih _ (fun v hv => hA v (by simp [hv])) ?_
        rcases hi with hi | ⟨h1, h2⟩
        · exact .inl hi
        · refine .inr ⟨h1, fun w hw => ?_⟩
          have := h2 w hw
          simp only [List.mem_cons, Prod.mk.injEq] at this
          rcases this with ⟨e1, e2, -⟩ | h
          · exact absurd ⟨e1.symm, e2.symm⟩ hb
          · exact h
  exact key A none (fun v hv => (h v).1 hv) (.inr ⟨rfl, fun v hv => (h v).2 hv⟩)

theorem declare_mem (N : List (Str × Str)) {nm nm' : NamespaceMap}
    (h : N.foldlM (fun n p => NamespaceMap.addAlias n p.2 (.name p.1)) nm = .ok nm') :
    (∀ p ∈ N, nm'.aliasToNs.get? (.name p.1) = some p.2 ∧ okAlias (.name p.1) = true) ∧
    (∀ b w, nm.aliasToNs.get? b = some w → nm'.aliasToNs.get? b = some w) ∧
    ∀ b w, nm'.aliasToNs.get? b = some w → nm.aliasToNs.get? b = some w ∨ ∃ p ∈ N, p.2 = w := by
  induction N generalizing nm with
  | nil => simp at h; subst h; exact ⟨by simp, fun _ _ h => h, fun _ _ h => .inl h⟩
  | cons p r ih =>
    rw [List.foldlM_cons] at h
    obtain ⟨n1, h1, h2⟩ := bind_eq_ok.1 h
    obtain ⟨e1, e2, e3⟩ := ih h2
    obtain ⟨a1, -, -, -, a5⟩ := addAlias_ok _ _ _ _ _ h1
    have k1 := (addAlias_keeps _ _ _ _ _ h1).1
    refine ⟨?_, fun b w hb => e2 b w (k1 b w hb), fun b w hb => ?_⟩
    · intro q hq
      simp only [List.mem_cons] at hq
      rcases hq with rfl | hq
      · exact ⟨e2 _ _ (by rw [a5]; simp [Dict.get?_set]), a1⟩
      · exact e1 q hq
    · rcases e3 b w hb with h | ⟨q, hq, e⟩
      · rw [a5, Dict.get?_set] at h
        split at h
        · exact .inr ⟨p, by simp, by simpa using h⟩
        · exact .inl h
      · exact .inr ⟨q, by simp [hq], e⟩

theorem fromOpenIDArgs_declared {reg O : Dict Str Str} (hO : Dict.WF O)
    (hreg : ∀ b w, reg.get? b = some w → w ≠ t!"sreg") (hdecl : ∀ b w, O.get? (t!"ns." ++ b) = some w → w ≠ t!"sreg")
    {m : Msg} (h : fromOpenIDArgs reg O = .ok m) {a u : Str} (hau : O.get? (t!"ns." ++ a) = some u) :
    m.namespaces.aliasToNs.get? (.name a) = some u ∧ ∀ k, m.args.get? (.uri u, k) = O.get? (a ++ '.' :: k) := by
  rw [fromOpenIDArgs] at h
  obtain ⟨m0, h0, h⟩ := bind_eq_ok.1 h
  obtain ⟨nss, h1, h2⟩ := bind_eq_ok.1 h
  obtain ⟨g1, g2⟩ := startMsg_ok h0
  have hN : ∀ b, (O.foldl collectStep {}).namespaces.get? b = O.get? (t!"ns." ++ b) := by
    intro b
    rw [collect_namespaces O hO]
    cases Dict.get? O (t!"ns." ++ b) <;> rfl
  have hw : Dict.WF (O.foldl collectStep {}).namespaces := by
    have : ∀ (O : List (Str × Str)) (c : Collected), Dict.WF c.namespaces → Dict.WF (O.foldl collectStep c).namespaces := by
      intro O
      induction O with
      | nil => intro c h; exact h
      | cons p r ih =>
        intro c h
        rw [List.foldl_cons]
        apply ih
        rw [collectStep]
        split
        · split <;> exact h
        · split
          · exact Dict.WF_set _ h _ _
          · exact h
    exact this O {} Dict.WF_nil
  obtain ⟨d1, d2, d3⟩ := declare_mem _ h1
  have hmem : (a, u) ∈ (O.foldl collectStep {}).namespaces := Dict.get?_mem _ _ _ (by rw [hN]; exact hau)
  obtain ⟨ha, hok⟩ := d1 _ hmem
  obtain ⟨hd, hnns⟩ := ok_name hok
  have hS : NoLiteral nss := by
    intro b w hb
    rcases d3 b w hb with hb | ⟨p, hp, rfl⟩
    · have hmi := g1.inv
      rcases Decidable.em (b = .null) with rfl | hb'
      · have := hmi.oid _ hb
        rintro rfl
        revert this; decide
      · have hs : m0.namespaces.aliasToNs.get? b = none := by
          have key : ∀ x i, Msg.new (some x) (some i) = .ok m0 → m0.namespaces.aliasToNs.get? b = none := by
            intro x i hx
            simp only [Msg.new, Msg.setOpenIDNamespace] at hx
            split at hx
            · obtain ⟨nn, k1, k2⟩ := bind_eq_ok.1 hx
              simp only [pure_eq_ok, Except.ok.injEq] at k2
              subst k2
              obtain ⟨-, -, -, -, e⟩ := addAlias_ok _ _ _ _ _ k1
              rw [e]
              simp only [Dict.get?_set]
              rw [if_neg (Ne.symm hb')]; rfl
            · cases hx
          rw [startMsg.eq_def] at h0
          split at h0
          · exact key _ _ h0
          · exact key _ _ h0
        rw [hs] at hb; cases hb
    · exact hdecl p.1 _ (by rw [← hN]; exact Dict.get?_of_mem _ hw _ _ hp)
  obtain ⟨f1, f2⟩ := placeAll_ext hreg _ (g1.declare h1) hS ha h2
  refine ⟨f1, fun k => ?_⟩
  rw [f2]
  simp only [g2, Dict.get?_nil]
  apply lastName_of
  intro v
  rw [mem_collect]
  simp only [List.not_mem_nil, false_or]
  constructor
  · rintro ⟨p, hp, e⟩
    rw [argOf] at e
    split at e
    · split at e <;> simp at e
    · next b k' hc =>
      split at e
      · cases e
      · simp only [Option.some.injEq, Prod.mk.injEq, Alias.name.injEq] at e
        obtain ⟨rfl, rfl, rfl⟩ := e
        rw [← cut_some_eq hc]
        exact Dict.get?_of_mem _ hO _ _ hp
  · intro hv
    refine ⟨_, Dict.get?_mem _ _ _ hv, ?_⟩
    rw [argOf]
    simp only [cut_append _ _ _ hd]
    rw [if_neg hnns]

/-- A declared extension of a query that parses: its alias, and its arguments. -/
theorem fromPostArgs_declared {reg q : Dict Str Str} (hq : Dict.WF q)
    (hreg : ∀ b w, reg.get? b = some w → w ≠ t!"sreg")
    (hdecl : ∀ b w, q.get? (t!"openid.ns." ++ b) = some w → w ≠ t!"sreg")
    {m : Msg} (h : fromPostArgs reg q = .ok m) {a u : Str} (hau : q.get? (t!"openid.ns." ++ a) = some u) :
    m.namespaces.aliasToNs.get? (.name a) = some u ∧
      ∀ k, m.args.get? (.uri u, k) = q.get? (t!"openid." ++ (a ++ '.' :: k)) := by
  rw [fromPostArgs] at h
  have hO : Dict.WF (partitionArgs q).1 := by
    obtain ⟨O, B, e, h1, -⟩ := partitionArgs_spec q hq
    rw [e]; exact h1
  have hg : ∀ k, (partitionArgs q).1.get? k = q.get? (t!"openid." ++ k) := by
    intro k
    have := partition_get q hq [] [] k
    simpa [partitionArgs] using this
  obtain ⟨m1, h1, h2⟩ := bind_eq_ok.1 h
  simp only [pure_eq_ok, Except.ok.injEq] at h2
  obtain ⟨g1, g2⟩ := fromOpenIDArgs_declared hO hreg (by intro b w hb; rw [hg] at hb; exact hdecl b w hb) h1
    (a := a) (u := u) (by rw [hg]; exact hau)
  rw [← h2]
  refine ⟨g1, fun k => ?_⟩
  rw [bare_get, g2, hg]

/-- in OpenID 2 nothing is implied -/
theorem place_two {reg : Dict Str Str} {m m' : Msg} (h : Has m OPENID2_NS) {p : Alias × Str × Str}
    (hp : placeArg reg m p = .ok m') : m'.namespaces.implicit = m.namespaces.implicit := by
  have hset : ∀ (m1 m2 : Msg) (w k v : Str), m1.setArg (.uri w) k v = .ok m2 → MInv m1 →
      m2.namespaces.implicit = m1.namespaces.implicit := by
    intro m1 m2 w k v hs hi
    rw [Msg.setArg] at hs
    obtain ⟨n, h1, h2⟩ := bind_eq_ok.1 hs
    cases n with
    | bare => simp at h2; subst h2; rfl
    | uri w2 =>
      simp only at h2
      obtain ⟨nn, h3, h4⟩ := bind_eq_ok.1 h2
      simp at h4
      subst h4
      simp only
      rcases add_total _ hi.ns w2 with ⟨a, _, e⟩ | ⟨_, j, m2, _, _, e1, e2⟩
      · rw [e] at h3; simp at h3; rw [h3]
      · rw [e2] at h3; simp at h3; subst h3
        obtain ⟨-, -, -, -, e⟩ := addAlias_ok _ _ _ _ _ e1
        rw [e]; rfl
  have h1 : m.isOpenID1 = false := by
    rw [Msg.isOpenID1, Msg.getOpenIDNamespace, getNamespaceURI, h.ns]; decide
  rw [placeArg] at hp
  split at hp
  · exact hset _ _ _ _ _ hp h.inv
  · split at hp
    · cases hp
    · split at hp
      · split at hp
        · exact hset _ _ _ _ _ hp h.inv
        · cases hp
      · next hd =>
        rw [Msg.getDefaultNamespace, h1] at hd
        cases hd

theorem implicit_two {reg q : Dict Str Str} (hq : Dict.WF q) {m : Msg} (h : fromPostArgs reg q = .ok m)
    (hv : q.get? t!"openid.ns" = some OPENID2_NS) : m.namespaces.implicit = [] := by
  rw [fromPostArgs] at h
  have hO : Dict.WF (partitionArgs q).1 := by
    obtain ⟨O, B, e, h1, -⟩ := partitionArgs_spec q hq
    rw [e]; exact h1
  have hg : (partitionArgs q).1.get? t!"ns" = q.get? t!"openid.ns" := by
    have := partition_get q hq [] [] t!"ns"
    simpa [partitionArgs] using this
  obtain ⟨m1, h1, h2⟩ := bind_eq_ok.1 h
  simp only [pure_eq_ok, Except.ok.injEq] at h2
  rw [← h2]
  simp only
  rw [fromOpenIDArgs] at h1
  obtain ⟨m0, g0, h1⟩ := bind_eq_ok.1 h1
  obtain ⟨nss, g1, g2⟩ := bind_eq_ok.1 h1
  change startMsg (List.foldl collectStep { } (partitionArgs q).1).ns = _ at g0
  rw [collect_ns _ hO, hg, hv] at g0
  have hall : ∀ (A : List (Alias × Str × Str)) (m m' : Msg), Has m OPENID2_NS → A.foldlM (placeArg reg) m = .ok m' →
      m'.namespaces.implicit = m.namespaces.implicit := by
    intro A
    induction A with
    | nil => intro m m' _ h; simp at h; rw [h]
    | cons p r ih =>
      intro m m' hm h
      rw [List.foldlM_cons] at h
      obtain ⟨m1, k1, k2⟩ := bind_eq_ok.1 h
      rw [ih m1 m' (hm.place k1).1 k2, place_two hm k1]
  have hs := (startMsg_ok g0).1
  rw [hall _ _ _ (hs.declare g1) g2]
  simp only
  rw [implicit_declare _ g1]
  simp only [Option.some_or, startMsg, Msg.new, Msg.setOpenIDNamespace] at g0
  split at g0
  · obtain ⟨nn, k1, k2⟩ := bind_eq_ok.1 g0
    simp only [pure_eq_ok, Except.ok.injEq] at k2
    subst k2
    obtain ⟨-, -, -, -, e⟩ := addAlias_ok _ _ _ _ _ k1
    rw [e]; rfl
  · cases g0

end Message
