import Verif.Spec.Clash
import Verif.Spec.ServerCodec
import Verif.Lemmas.MessageDecl
/-! When the arguments of a message cannot be read. -/

namespace Message
open Py NamespaceMap Spec

theorem addAlias_why {nm : NamespaceMap} {u : Str} {a : Alias} {i : Bool} {e : PyErr} (hi : Inv nm)
    (hn : nm.aliasToNs.get? a = none) (h : nm.addAlias u a i = .error e) :
    e = .assertionError ∧ okAlias a = false ∨ e = .invalidNamespace ∧ ∃ b, b ≠ a ∧ nm.aliasToNs.get? b = some u := by
  unfold addAlias at h
  change (if (!okAlias a) = true then _ else _) = _ at h
  split at h
  · next ho => left; cases h; exact ⟨rfl, by simpa using ho⟩
  · right
    rw [hn] at h
    simp only [differs, Bool.false_eq_true, if_false] at h
    have hb : ∀ b, nm.nsToAlias.get? u = some b → b ≠ a := by
      intro b hb e
      rw [← hi.bij] at hb
      rw [e, hn] at hb; cases hb
    cases hg : nm.nsToAlias.get? u with
    | none =>
      rw [hg] at h
      simp only [Bool.false_eq_true, if_false] at h
      split at h
      · next hc =>
        have := hi.imp u (by simpa using hc)
        rw [hg] at this; cases this
      · cases h
    | some b =>
      rw [hg] at h
      simp only [bne_iff_ne, ne_eq, hb b hg, not_false_eq_true, if_true] at h
      cases h
      exact ⟨rfl, b, hb b hg, (hi.bij b u).2 hg⟩

theorem bad_name {a : Str} (h : okAlias (.name a) = false) : a ∈ reserved ∨ '.' ∈ a := by
  simp only [okAlias, Bool.and_eq_false_iff, Bool.not_eq_false', List.contains_eq_mem, decide_eq_true_eq] at h
  exact h

/-- what the declarations do -/
theorem declare_why {O : Dict Str Str} {reg : Dict Str Str} {oid : Str} (N : List (Str × Str)) {nm : NamespaceMap}
    (hi : Inv nm) (hw : (N.map Prod.fst).Nodup)
    (hN : ∀ p ∈ N, O.get? (t!"ns." ++ p.1) = some p.2)
    (hfree : ∀ p ∈ N, nm.aliasToNs.get? (.name p.1) = none)
    (hJ : ∀ b w, nm.aliasToNs.get? b = some w → b = .null ∧ w = oid ∨ ∃ a, b = .name a ∧ O.get? (t!"ns." ++ a) = some w)
    {e : PyErr} (h : N.foldlM (fun n p => NamespaceMap.addAlias n p.2 (.name p.1)) nm = .error e) :
    Clash reg oid O.get? e := by
  induction N generalizing nm with
  | nil => simp at h
  | cons p r ih =>
    obtain ⟨a, u⟩ := p
    simp only [List.map_cons, List.nodup_cons] at hw
    have hau := hN (a, u) (by simp)
    rw [List.foldlM_cons] at h
    rcases bind_eq_error.1 h with h | ⟨n1, h1, h2⟩
    · rcases addAlias_why hi (hfree (a, u) (by simp)) h with ⟨rfl, ho⟩ | ⟨rfl, b, hne, hb⟩
      · exact .name a u hau (bad_name ho)
      · rcases hJ b _ hb with ⟨-, ho⟩ | ⟨c, rfl, hc⟩
        · dsimp only at ho
          exact .version a (by rw [← ho]; exact hau)
        · exact .twice a c u (fun e => hne (by rw [e])) hau hc
    · have hset : ∀ b, n1.aliasToNs.get? b = if Alias.name a = b then some u else nm.aliasToNs.get? b := by
        obtain ⟨-, -, -, -, e⟩ := addAlias_ok _ _ _ _ _ h1
        intro b
        rw [e]; exact Dict.get?_set _ _ _ _
      apply ih (inv_addAlias _ hi _ _ _ _ h1) hw.2 (fun p hp => hN p (by simp [hp])) ?_ ?_ h2
      · intro p hp
        rw [hset, if_neg]
        · exact hfree p (by simp [hp])
        · intro e
          simp only [Alias.name.injEq] at e
          exact hw.1 (e ▸ List.mem_map_of_mem hp)
      · intro b w hb
        rw [hset] at hb
        split at hb
        · next e =>
          simp only [Option.some.injEq] at hb
          subst hb
          exact .inr ⟨a, e.symm, hau⟩
        · exact hJ b w hb

theorem set_new {m m' : Msg} (hm : MInv m) {u k v : Str} (hk : (m.namespaces.nsToAlias.get? u).isSome = true)
    (h : m.setArg (.uri u) k v = .ok m') {b : Alias} {w : Str} (hb : m'.namespaces.aliasToNs.get? b = some w) :
    m.namespaces.aliasToNs.get? b = some w ∨ u = t!"sreg" ∧ w = SREG_URI := by
  by_cases hs : u = t!"sreg"
  · subst hs
    rw [Msg.setArg, show m.fixNS (.uri t!"sreg") = .ok (.uri SREG_URI) from rfl] at h
    simp only [ok_bind] at h
    obtain ⟨nss, h1, h2⟩ := bind_eq_ok.1 h
    cases h2
    rcases add_total m.namespaces hm.ns SREG_URI with ⟨a, _, e⟩ | ⟨_, j, m2, _, _, e1, e2⟩
    · rw [e] at h1; cases h1; exact .inl hb
    · rw [e2] at h1; cases h1
      obtain ⟨-, -, -, -, e⟩ := addAlias_ok _ _ _ _ _ e1
      rw [e] at hb
      simp only [Dict.get?_set] at hb
      split at hb
      · exact .inr ⟨rfl, by simpa using hb.symm⟩
      · exact .inl hb
  · obtain ⟨-, e, -⟩ := set_known hm hs hk h
    rw [e] at hb; exact .inl hb

/-- where the names of a message come from -/
structure From (reg O : Dict Str Str) (oid : Str) (m : Msg) : Prop where
  has : Has m oid
  names : ∀ b w, m.namespaces.aliasToNs.get? b = some w → b = .null ∧ w = oid ∨
    (∃ a, b = .name a ∧ (O.get? (t!"ns." ++ a) = some w ∨ Implied reg oid O.get? a w)) ∨
    w = SREG_URI ∧ ∃ a, O.get? (t!"ns." ++ a) = some t!"sreg" ∨ Implied reg oid O.get? a t!"sreg"
  declared : ∀ a w, O.get? (t!"ns." ++ a) = some w → m.namespaces.aliasToNs.get? (.name a) = some w

theorem From.set {reg O : Dict Str Str} {oid : Str} {m m' : Msg} (hf : From reg O oid m) {b : Alias} {u k v : Str}
    (hb : m.namespaces.aliasToNs.get? b = some u) (h : m.setArg (.uri u) k v = .ok m') : From reg O oid m' := by
  have hkn : (m.namespaces.nsToAlias.get? u).isSome = true := by rw [(hf.has.inv.ns.bij b u).1 hb]; rfl
  obtain ⟨n, hn⟩ : ∃ n, m.fixNS (.uri u) = .ok n := by
    simp only [Msg.fixNS]; split <;> exact ⟨_, rfl⟩
  obtain ⟨m2, e1, -, -, e2, -⟩ := setArg_ok m hf.has.inv (.uri u) k v n hn
  rw [h] at e1; cases e1
  refine ⟨(hf.has.set h).1, fun c w hc => ?_, fun a w ha => e2 _ _ (hf.declared a w ha)⟩
  rcases set_new hf.has.inv hkn h hc with hc | ⟨rfl, rfl⟩
  · exact hf.names c w hc
  · rcases hf.names b _ hb with ⟨-, e⟩ | ⟨a, -, h'⟩ | ⟨e, -⟩
    · have := hf.has.inv.oid _ hf.has.ns
      rw [← e] at this
      exact absurd this (by decide)
    · exact .inr (.inr ⟨rfl, a, h'⟩)
    · exact absurd e (by decide)

theorem From.place {reg O : Dict Str Str} {oid : Str} {m : Msg} (hf : From reg O oid m) {p : Alias × Str × Str}
    (hp : ∀ a, p.1 = .name a → '.' ∉ a ∧ a ≠ t!"ns" ∧ O.get? (a ++ '.' :: p.2.1) = some p.2.2) :
    (∀ m', placeArg reg m p = .ok m' → From reg O oid m') ∧
    ∀ e, placeArg reg m p = .error e → Clash reg oid O.get? e := by
  obtain ⟨c, k, v⟩ := p
  simp only [placeArg, getNamespaceURI]
  split
  · next u hu =>
    refine ⟨fun m' h => hf.set hu h, fun e h => ?_⟩
    obtain ⟨m', hm'⟩ := hf.has.can u k v
    rw [hm'] at h; cases h
  · next hu =>
    split
    · rw [hf.has.ns] at hu; cases hu
    · next a =>
      obtain ⟨hd, hne, hv⟩ := hp a rfl
      split
      · have ho : m.getOpenIDNamespace = some oid := by simp [Msg.getOpenIDNamespace, getNamespaceURI, hf.has.ns]
        rw [ho]
        dsimp only
        refine ⟨fun m' h => hf.set hf.has.ns h, fun e h => ?_⟩
        obtain ⟨m', hm'⟩ := hf.has.can oid (a ++ '.' :: k) v
        rw [hm'] at h; cases h
      · next u hr =>
        have himp : Implied reg oid O.get? a u := by
          simp only [Msg.getDefaultNamespace] at hr
          split at hr
          · next h1 =>
            refine ⟨?_, hd, hne, ⟨k, v, hv⟩, ?_, hr⟩
            · simp only [Msg.isOpenID1, Msg.getOpenIDNamespace, getNamespaceURI, hf.has.ns] at h1
              have h2 : oid = OPENID1_NS ∨ oid = THE_OTHER_OPENID1_NS := by simpa [OPENID1_NAMESPACES] using h1
              rcases h2 with h2 | h2
              · rw [h2]; exact List.mem_cons_self
              · rw [h2]; exact List.mem_cons_of_mem _ List.mem_cons_self
            · cases hg : O.get? (t!"ns." ++ a) with
              | none => rfl
              | some w => rw [hf.declared a w hg] at hu; cases hu
          · cases hr
        refine ⟨fun m' h => ?_, fun e h => ?_⟩
        · obtain ⟨nm, h1, h2⟩ := bind_eq_ok.1 h
          have hset : ∀ b, nm.aliasToNs.get? b = if Alias.name a = b then some u else m.namespaces.aliasToNs.get? b := by
            obtain ⟨-, -, -, -, e⟩ := addAlias_ok _ _ _ _ _ h1
            intro b
            rw [e]; exact Dict.get?_set _ _ _ _
          have hf' : From reg O oid { m with namespaces := nm } := by
            refine ⟨(hf.has.addAlias h1).1, fun b w hb => ?_, fun b w hb => ?_⟩
            · dsimp only at hb
              rw [hset] at hb
              split at hb
              · next e =>
                simp only [Option.some.injEq] at hb
                subst hb
                exact .inr (.inl ⟨a, e.symm, .inr himp⟩)
              · exact hf.names b w hb
            · dsimp only
              rw [hset, if_neg]
              · exact hf.declared b w hb
              · intro e
                simp only [Alias.name.injEq] at e
                subst e
                rw [hf.declared _ w hb] at hu; cases hu
          exact hf'.set (b := .name a) (by dsimp only; rw [hset, if_pos rfl]) h2
        · rcases bind_eq_error.1 h with h | ⟨nm, h1, h2⟩
          · rcases addAlias_why hf.has.inv.ns hu h with ⟨rfl, ho⟩ | ⟨rfl, b, hne, hb⟩
            · rcases bad_name ho with h | h
              · exact .registered a u himp h
              · exact absurd h hd
            · refine .implied a u himp ?_
              rcases hf.names b u hb with ⟨-, e⟩ | ⟨c, rfl, h⟩ | ⟨e, h⟩
              · exact .inl e
              · exact .inr (.inl ⟨c, fun e => hne (by rw [e]), h⟩)
              · exact .inr (.inr ⟨e, h⟩)
          · obtain ⟨m', hm'⟩ := (hf.has.addAlias h1).1.can u k v
            rw [hm'] at h2; cases h2

theorem From.placeAll {reg O : Dict Str Str} {oid : Str} (A : List (Alias × Str × Str)) {m : Msg} (hf : From reg O oid m)
    (hA : ∀ p ∈ A, ∀ a, p.1 = .name a → '.' ∉ a ∧ a ≠ t!"ns" ∧ O.get? (a ++ '.' :: p.2.1) = some p.2.2) :
    (∀ m', A.foldlM (placeArg reg) m = .ok m' → From reg O oid m') ∧
    ∀ e, A.foldlM (placeArg reg) m = .error e → Clash reg oid O.get? e := by
  induction A generalizing m with
  | nil =>
    refine ⟨fun m' h => ?_, fun e h => ?_⟩
    · simp only [List.foldlM_nil, pure_eq_ok, Except.ok.injEq] at h; subst h; exact hf
    · simp at h
  | cons p r ih =>
    obtain ⟨h1, h2⟩ := hf.place (hA p (by simp))
    refine ⟨fun m' h => ?_, fun e h => ?_⟩
    · rw [List.foldlM_cons] at h
      obtain ⟨m1, g1, g2⟩ := bind_eq_ok.1 h
      exact (ih (h1 m1 g1) (fun p hp => hA p (by simp [hp]))).1 m' g2
    · rw [List.foldlM_cons] at h
      rcases bind_eq_error.1 h with h | ⟨m1, g1, g2⟩
      · exact h2 e h
      · exact (ih (h1 m1 g1) (fun p hp => hA p (by simp [hp]))).2 e g2

theorem start_names {ns : Option Str} {m : Msg} (h : startMsg ns = .ok m) {b : Alias} {w : Str}
    (hb : m.namespaces.aliasToNs.get? b = some w) : b = .null := by
  apply Classical.byContradiction
  intro hne
  have key : ∀ x i, Msg.new (some x) (some i) = .ok m → m.namespaces.aliasToNs.get? b = none := by
    intro x i hx
    simp only [Msg.new, Msg.setOpenIDNamespace] at hx
    split at hx
    · obtain ⟨nn, k1, k2⟩ := bind_eq_ok.1 hx
      simp only [pure_eq_ok, Except.ok.injEq] at k2
      subst k2
      obtain ⟨-, -, -, -, e⟩ := addAlias_ok _ _ _ _ _ k1
      rw [e]
      simp only [Dict.get?_set]
      rw [if_neg (Ne.symm hne)]; rfl
    · cases hx
  rw [startMsg.eq_def] at h
  have : m.namespaces.aliasToNs.get? b = none := by
    split at h
    · exact key _ _ h
    · exact key _ _ h
  rw [this] at hb; cases hb

theorem WF_declared (O : List (Str × Str)) : Dict.WF (O.foldl collectStep {}).namespaces := by
  have : ∀ (O : List (Str × Str)) (c : Collected), Dict.WF c.namespaces → Dict.WF (O.foldl collectStep c).namespaces := by
    intro O
    induction O with
    | nil => intro c h; exact h
    | cons p r ih =>
      intro c h
      rw [List.foldl_cons]
      apply ih
      rw [collectStep]
      split
      · split <;> exact h
      · split
        · exact Dict.WF_set _ h _ _
        · exact h
  exact this O {} Dict.WF_nil

theorem collected_arg {O : Dict Str Str} (hO : Dict.WF O) {p : Alias × Str × Str}
    (hp : p ∈ (O.foldl collectStep {}).args) {a : Str} (ha : p.1 = .name a) :
    '.' ∉ a ∧ a ≠ t!"ns" ∧ O.get? (a ++ '.' :: p.2.1) = some p.2.2 := by
  rw [mem_collect] at hp
  rcases hp with hp | ⟨x, hx, e⟩
  · simp at hp
  · obtain ⟨c, k, v⟩ := p
    dsimp only at ha
    subst ha
    rw [argOf] at e
    split at e
    · split at e <;> simp at e
    · next b k' hc =>
      split at e
      · cases e
      · next hne =>
        simp only [Option.some.injEq, Prod.mk.injEq, Alias.name.injEq] at e
        obtain ⟨rfl, rfl, rfl⟩ := e
        refine ⟨((cut_eq_some_iff '.' _ _ _).1 hc).2, hne, ?_⟩
        rw [← cut_some_eq hc]
        exact Dict.get?_of_mem _ hO _ _ hx

theorem startMsg_ok' {O : Dict Str Str} {m0 : Msg} (h : startMsg (O.get? t!"ns") = .ok m0) : Has m0 (versionIn O.get?) :=
  (startMsg_ok h).1

theorem parse_declared {reg O : Dict Str Str} (hO : Dict.WF O) {m0 : Msg} {nss : NamespaceMap}
    (hs : startMsg (O.foldl collectStep {}).ns = .ok m0)
    (h1 : (O.foldl collectStep {}).namespaces.foldlM (fun n p => NamespaceMap.addAlias n p.2 (.name p.1)) m0.namespaces = .ok nss) :
    From reg O (versionIn O.get?) { m0 with namespaces := nss } := by
  have h0 : startMsg (O.get? t!"ns") = .ok m0 := by
    rw [collect_ns O hO {}] at hs
    simpa only [Option.or_none] using hs
  have hN : ∀ b, (O.foldl collectStep {}).namespaces.get? b = O.get? (t!"ns." ++ b) := by
    intro b
    rw [collect_namespaces O hO]
    cases Dict.get? O (t!"ns." ++ b) <;> rfl
  have hNm : ∀ p ∈ (O.foldl collectStep {}).namespaces, O.get? (t!"ns." ++ p.1) = some p.2 := by
    intro p hp
    rw [← hN]
    exact Dict.get?_of_mem _ (WF_declared O) _ _ hp
  obtain ⟨d1, d2, -⟩ := declare_mem _ h1
  refine ⟨((startMsg_ok' h0)).declare h1, ?_, fun a w ha => ?_⟩
  · have : ∀ (N : List (Str × Str)) (nm nm' : NamespaceMap), (∀ p ∈ N, O.get? (t!"ns." ++ p.1) = some p.2) →
        (∀ b w, nm.aliasToNs.get? b = some w → b = .null ∧ w = versionIn O.get? ∨
          ∃ a, b = .name a ∧ O.get? (t!"ns." ++ a) = some w) →
        N.foldlM (fun n p => NamespaceMap.addAlias n p.2 (.name p.1)) nm = .ok nm' →
        ∀ b w, nm'.aliasToNs.get? b = some w → b = .null ∧ w = versionIn O.get? ∨
          ∃ a, b = .name a ∧ O.get? (t!"ns." ++ a) = some w := by
      intro N
      induction N with
      | nil => intro nm nm' _ h1 h2; simp at h2; subst h2; exact h1
      | cons p r ih =>
        intro nm nm' h1 h2 h3
        rw [List.foldlM_cons] at h3
        obtain ⟨n1, g1, g2⟩ := bind_eq_ok.1 h3
        refine ih n1 nm' (fun q hq => h1 q (by simp [hq])) (fun b w hb => ?_) g2
        obtain ⟨-, -, -, -, e⟩ := addAlias_ok _ _ _ _ _ g1
        rw [e] at hb
        simp only [Dict.get?_set] at hb
        split at hb
        · next e' =>
          simp only [Option.some.injEq] at hb
          subst hb
          exact .inr ⟨p.1, e'.symm, h1 p (by simp)⟩
        · exact h2 b w hb
    intro b w hb
    rcases this _ _ _ hNm (fun b w hb => by
      have hbn := start_names h0 hb
      subst hbn
      rw [((startMsg_ok' h0)).ns] at hb
      exact .inl ⟨rfl, by simpa using hb.symm⟩) h1 b w hb with h | ⟨a, h1, h2⟩
    · exact .inl h
    · exact .inr (.inl ⟨a, h1, .inl h2⟩)
  · exact (d1 (a, w) (Dict.get?_mem _ _ _ (by rw [hN]; exact ha))).1

theorem parse_from {reg O : Dict Str Str} (hO : Dict.WF O) :
    (∀ m, fromOpenIDArgs reg O = .ok m → From reg O (versionIn O.get?) m) ∧
    ∀ e, fromOpenIDArgs reg O = .error e →
      e = .invalidOpenIDNamespace ∧
        (∃ u, O.get? t!"ns" = some u ∧ u ∉ [OPENID1_NS, THE_OTHER_OPENID1_NS, OPENID2_NS]) ∨
      (∀ u, O.get? t!"ns" = some u → u ∈ [OPENID1_NS, THE_OTHER_OPENID1_NS, OPENID2_NS]) ∧
        Clash reg (versionIn O.get?) O.get? e := by
  have hN : ∀ b, (O.foldl collectStep {}).namespaces.get? b = O.get? (t!"ns." ++ b) := by
    intro b
    rw [collect_namespaces O hO]
    cases Dict.get? O (t!"ns." ++ b) <;> rfl
  have hNm : ∀ p ∈ (O.foldl collectStep {}).namespaces, O.get? (t!"ns." ++ p.1) = some p.2 := by
    intro p hp
    rw [← hN]
    exact Dict.get?_of_mem _ (WF_declared O) _ _ hp
  have hstart : ∀ {m0}, startMsg (O.get? t!"ns") = .ok m0 → Has m0 (versionIn O.get?) := fun h => (startMsg_ok h).1
  have hns := collect_ns O hO {}
  simp only [Option.or_none] at hns
  refine ⟨fun m h => ?_, fun e h => ?_⟩
  · rw [fromOpenIDArgs, hns] at h
    obtain ⟨m0, h0, h⟩ := bind_eq_ok.1 h
    obtain ⟨nss, h1, h2⟩ := bind_eq_ok.1 h
    exact ((parse_declared hO (by rw [hns]; exact h0) h1).placeAll _ (fun p hp a ha => collected_arg hO hp ha)).1 m h2
  · rw [fromOpenIDArgs, hns] at h
    rcases bind_eq_error.1 h with h | ⟨m0, h0, h⟩
    · exact .inl (startMsg_error h)
    · right
      refine ⟨fun u hu => ?_, ?_⟩
      · have := (startMsg_ok h0).1
        rw [hu] at this
        exact this.inv.oid _ this.ns
      · rcases bind_eq_error.1 h with h | ⟨nss, h1, h2⟩
        · refine declare_why _ (hstart h0).inv.ns (WF_declared O) hNm (fun p hp => ?_) (fun b w hb => ?_) h
          · cases hg : m0.namespaces.aliasToNs.get? (.name p.1) with
            | none => rfl
            | some w => have := start_names h0 hg; cases this
          · have hbn := start_names h0 hb
            subst hbn
            rw [(hstart h0).ns] at hb
            exact .inl ⟨rfl, by simpa using hb.symm⟩
        · exact ((parse_declared hO (by rw [hns]; exact h0) h1).placeAll _ (fun p hp a ha => collected_arg hO hp ha)).2 e h2

theorem holds_place {reg : Dict Str Str} {m m' : Msg} {oid : Str} (h : Has m oid) {p : Alias × Str × Str}
    (hp : placeArg reg m p = .ok m') {b : Alias} {w : Str} (hb : m.namespaces.aliasToNs.get? b = some w) :
    m'.namespaces.aliasToNs.get? b = some w := by
  have hset : ∀ (m1 m2 : Msg) (u k v : Str), MInv m1 → m1.setArg (.uri u) k v = .ok m2 →
      m1.namespaces.aliasToNs.get? b = some w → m2.namespaces.aliasToNs.get? b = some w := by
    intro m1 m2 u k v hi hs hb
    obtain ⟨n, hn⟩ : ∃ n, m1.fixNS (.uri u) = .ok n := by
      simp only [Msg.fixNS]; split <;> exact ⟨_, rfl⟩
    obtain ⟨m3, e1, -, -, e2, -⟩ := setArg_ok m1 hi (.uri u) k v n hn
    rw [hs] at e1; cases e1
    exact e2 _ _ hb
  obtain ⟨c, k, v⟩ := p
  simp only [placeArg, getNamespaceURI] at hp
  split at hp
  · exact hset _ _ _ _ _ h.inv hp hb
  · split at hp
    · cases hp
    · split at hp
      · split at hp
        · exact hset _ _ _ _ _ h.inv hp hb
        · cases hp
      · obtain ⟨nm, g1, g2⟩ := bind_eq_ok.1 hp
        exact hset _ _ _ _ _ (h.addAlias g1).1.inv g2 ((addAlias_keeps _ _ _ _ _ g1).1 _ _ hb)

theorem holds_placeAll {reg : Dict Str Str} {oid : Str} (A : List (Alias × Str × Str)) {m m' : Msg} (h : Has m oid)
    (hp : A.foldlM (placeArg reg) m = .ok m') {b : Alias} {w : Str} (hb : m.namespaces.aliasToNs.get? b = some w) :
    m'.namespaces.aliasToNs.get? b = some w := by
  induction A generalizing m with
  | nil => simp at hp; subst hp; exact hb
  | cons p r ih =>
    rw [List.foldlM_cons] at hp
    obtain ⟨m1, g1, g2⟩ := bind_eq_ok.1 hp
    exact ih (h.place g1).1 g2 (holds_place h g1 hb)

theorem implied_place {reg O : Dict Str Str} {oid : Str} {m m' : Msg} (hf : From reg O oid m)
    (hreg : ∀ a w, reg.get? a = some w → w ≠ t!"sreg") (hdecl : ∀ a w, O.get? (t!"ns." ++ a) = some w → w ≠ t!"sreg")
    {a u k v : Str} (hi : Implied reg oid O.get? a u) (hp : placeArg reg m (.name a, k, v) = .ok m') :
    m'.namespaces.aliasToNs.get? (.name a) = some u := by
  cases hg : m.namespaces.aliasToNs.get? (.name a) with
  | some w =>
    have hw : w = u := by
      rcases hf.names _ _ hg with ⟨h, -⟩ | ⟨c, h, h'⟩ | ⟨-, c, h⟩
      · cases h
      · cases h
        rcases h' with h' | h'
        · rw [hi.2.2.2.2.1] at h'; cases h'
        · have := hi.2.2.2.2.2
          rw [h'.2.2.2.2.2] at this
          exact Option.some.inj this
      · rcases h with h | h
        · exact absurd rfl (hdecl _ _ h)
        · exact absurd rfl (hreg _ _ h.2.2.2.2.2)
    subst hw
    exact holds_place hf.has hp hg
  | none =>
    have hv1 : m.isOpenID1 = true := by
      have := hi.1
      simp only [Msg.isOpenID1, Msg.getOpenIDNamespace, getNamespaceURI, hf.has.ns]
      simp only [List.mem_cons, List.not_mem_nil, or_false] at this
      rcases this with h | h <;> · rw [h]; decide
    simp only [placeArg, getNamespaceURI, hg, Msg.getDefaultNamespace, hv1, if_true, hi.2.2.2.2.2] at hp
    obtain ⟨nm, g1, g2⟩ := bind_eq_ok.1 hp
    obtain ⟨-, -, -, -, e⟩ := addAlias_ok _ _ _ _ _ g1
    have hnm : nm.aliasToNs.get? (.name a) = some u := by rw [e]; simp [Dict.get?_set]
    obtain ⟨n, hn⟩ : ∃ n, Msg.fixNS { m with namespaces := nm } (.uri u) = .ok n := by
      simp only [Msg.fixNS]; split <;> exact ⟨_, rfl⟩
    obtain ⟨m3, e1, -, -, e2, -⟩ := setArg_ok { m with namespaces := nm } (hf.has.addAlias g1).1.inv (.uri u) k v n hn
    rw [g2] at e1; cases e1
    exact e2 _ _ hnm

theorem implied_placeAll {reg O : Dict Str Str} {oid : Str} (A : List (Alias × Str × Str)) {m m' : Msg}
    (hf : From reg O oid m)
    (hA : ∀ p ∈ A, ∀ a, p.1 = .name a → '.' ∉ a ∧ a ≠ t!"ns" ∧ O.get? (a ++ '.' :: p.2.1) = some p.2.2)
    (hreg : ∀ a w, reg.get? a = some w → w ≠ t!"sreg") (hdecl : ∀ a w, O.get? (t!"ns." ++ a) = some w → w ≠ t!"sreg")
    (hp : A.foldlM (placeArg reg) m = .ok m') {a u k v : Str} (hi : Implied reg oid O.get? a u)
    (hm : (.name a, k, v) ∈ A) : m'.namespaces.aliasToNs.get? (.name a) = some u := by
  induction A generalizing m with
  | nil => cases hm
  | cons p r ih =>
    rw [List.foldlM_cons] at hp
    obtain ⟨m1, g1, g2⟩ := bind_eq_ok.1 hp
    have hf1 := (hf.place (hA p (by simp))).1 m1 g1
    simp only [List.mem_cons] at hm
    rcases hm with hm | hm
    · rw [← hm] at g1
      exact holds_placeAll r hf1.has g2 (implied_place hf hreg hdecl hi g1)
    · exact ih hf1 (fun p hp => hA p (by simp [hp])) g2 hm

/-- Arguments that can be read do not clash. -/
theorem parse_noclash {reg O : Dict Str Str} (hO : Dict.WF O) {m : Msg} (h : fromOpenIDArgs reg O = .ok m)
    (hreg : ∀ a w, reg.get? a = some w → w ≠ t!"sreg") (hdecl : ∀ a w, O.get? (t!"ns." ++ a) = some w → w ≠ t!"sreg")
    (e : PyErr) : ¬ Clash reg (versionIn O.get?) O.get? e := by
  have hF := (parse_from (reg := reg) hO).1 m h
  have hbij := hF.has.inv.ns.bij
  have hok := hF.has.inv.ns.ok
  have hnull : ∀ a, m.namespaces.aliasToNs.get? (.name a) ≠ some (versionIn O.get?) := by
    intro a ha
    have h1 := (hbij _ _).1 ha
    have h2 := (hbij _ _).1 hF.has.ns
    rw [h1] at h2; cases h2
  have huniq : ∀ a b u, m.namespaces.aliasToNs.get? (.name a) = some u → m.namespaces.aliasToNs.get? (.name b) = some u →
      a = b := by
    intro a b u ha hb
    have h1 := (hbij _ _).1 ha
    have h2 := (hbij _ _).1 hb
    rw [h1] at h2; cases h2; rfl
  have himp : ∀ a u, Implied reg (versionIn O.get?) O.get? a u → m.namespaces.aliasToNs.get? (.name a) = some u := by
    intro a u hi
    have h' := h
    rw [fromOpenIDArgs] at h'
    obtain ⟨m0, h0, h1⟩ := bind_eq_ok.1 h'
    obtain ⟨nss, h2, h3⟩ := bind_eq_ok.1 h1
    obtain ⟨-, hd, hne, ⟨k, v, hk⟩, -⟩ := id hi
    have hf0 : From reg O (versionIn O.get?) { m0 with namespaces := nss } := parse_declared hO h0 h2
    refine implied_placeAll _ hf0 (fun p hp a ha => collected_arg hO hp ha) hreg hdecl h3 hi (k := k) (v := v) ?_
    rw [mem_collect]
    refine .inr ⟨_, Dict.get?_mem _ _ _ hk, ?_⟩
    rw [argOf]
    simp only [cut_append _ _ _ hd]
    rw [if_neg hne]
  have hname : ∀ a u, m.namespaces.aliasToNs.get? (.name a) = some u → ¬ (a ∈ reserved ∨ '.' ∈ a) := by
    intro a u ha
    have := hok _ _ ha
    simp only [okAlias, Bool.and_eq_true, Bool.not_eq_true', List.contains_eq_mem, decide_eq_false_iff_not] at this
    rintro (h | h)
    · exact this.1 h
    · exact this.2 h
  intro hc
  cases hc with
  | name a u h1 h2 => exact hname a u (hF.declared a u h1) h2
  | version a h1 => exact hnull a (hF.declared a _ h1)
  | twice a b u h1 h2 h3 => exact h1 (huniq a b u (hF.declared a u h2) (hF.declared b u h3))
  | registered a u h1 h2 => exact hname a u (himp a u h1) (.inl h2)
  | implied a u h1 h2 =>
    have ha := himp a u h1
    rcases h2 with h2 | ⟨b, hne, h2 | h2⟩ | ⟨-, b, h2 | h2⟩
    · exact hnull a (h2 ▸ ha)
    · exact hne (huniq b a u (hF.declared b u h2) ha)
    · exact hne (huniq b a u (himp b u h2) ha)
    · exact hdecl _ _ h2 rfl
    · exact hreg _ _ h2.2.2.2.2.2 rfl

/-- only what an argument of an extension, or a declaration, is -/
theorem _root_.Spec.Clash.congr {reg : Dict Str Str} {v : Str} {f g : Str → Option Str} {e : PyErr}
    (hfg : ∀ k, '.' ∈ k → f k = g k) (h : Clash reg v f e) : Clash reg v g e := by
  have h1 : ∀ a, f (t!"ns." ++ a) = g (t!"ns." ++ a) := fun a => hfg _ (by simp)
  have h2 : ∀ a u, Implied reg v f a u → Implied reg v g a u := by
    rintro a u ⟨i1, i2, i3, ⟨k, x, i4⟩, i5, i6⟩
    exact ⟨i1, i2, i3, ⟨k, x, by rw [← hfg _ (by simp)]; exact i4⟩, by rw [← h1]; exact i5, i6⟩
  cases h with
  | name a u g1 g2 => exact .name a u (by rw [← h1]; exact g1) g2
  | version a g1 => exact .version a (by rw [← h1]; exact g1)
  | twice a b u g1 g2 g3 => exact .twice a b u g1 (by rw [← h1]; exact g2) (by rw [← h1]; exact g3)
  | registered a u g1 g2 => exact .registered a u (h2 a u g1) g2
  | implied a u g1 g2 =>
    refine .implied a u (h2 a u g1) ?_
    rcases g2 with g2 | ⟨b, hne, g2 | g2⟩ | ⟨e, b, g2 | g2⟩
    · exact .inl g2
    · exact .inr (.inl ⟨b, hne, .inl (by rw [← h1]; exact g2)⟩)
    · exact .inr (.inl ⟨b, hne, .inr (h2 b u g2)⟩)
    · exact .inr (.inr ⟨e, b, .inl (by rw [← h1]; exact g2)⟩)
    · exact .inr (.inr ⟨e, b, .inr (h2 b _ g2)⟩)

theorem post_part {q : Dict Str Str} (hq : Dict.WF q) :
    Dict.WF (partitionArgs q).1 ∧ Dict.get? (partitionArgs q).1 = arg q := by
  constructor
  · obtain ⟨O, B, e, h1, -⟩ := partitionArgs_spec q hq
    rw [e]; exact h1
  · funext k
    have := partition_get q hq [] [] k
    simpa [partitionArgs, arg] using this

/-- Why a query cannot be read. -/
theorem fromPostArgs_why {reg q : Dict Str Str} (hq : Dict.WF q) {e : PyErr} (h : fromPostArgs reg q = .error e) :
    e = .invalidOpenIDNamespace ∧
      (∃ u, arg q t!"ns" = some u ∧ u ∉ [OPENID1_NS, THE_OTHER_OPENID1_NS, OPENID2_NS]) ∨
    (∀ u, arg q t!"ns" = some u → u ∈ [OPENID1_NS, THE_OTHER_OPENID1_NS, OPENID2_NS]) ∧
      Clash reg (versionIn (arg q)) (arg q) e := by
  obtain ⟨hO, hg⟩ := post_part hq
  rw [fromPostArgs] at h
  rcases bind_eq_error.1 h with h | ⟨m, -, h⟩
  · have := (parse_from (reg := reg) hO).2 e h
    rw [hg] at this
    exact this
  · cases h

theorem fromPostArgs_noclash {reg q : Dict Str Str} (hq : Dict.WF q) {m : Msg} (h : fromPostArgs reg q = .ok m)
    (hreg : ∀ a w, reg.get? a = some w → w ≠ t!"sreg") (hdecl : ∀ a, arg q (t!"ns." ++ a) ≠ some t!"sreg")
    (e : PyErr) : ¬ Clash reg (versionIn (arg q)) (arg q) e := by
  obtain ⟨hO, hg⟩ := post_part hq
  rw [fromPostArgs] at h
  obtain ⟨m1, h1, -⟩ := bind_eq_ok.1 h
  have := parse_noclash (reg := reg) hO h1 hreg (fun a w ha he => hdecl a (by rw [← hg, ha, he])) e
  rw [hg] at this
  exact this

end Message
