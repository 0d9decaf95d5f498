import Verif.Lemmas.MessageClash
import Verif.Lemmas.MessageSend
/-! What a parsed message has of an extension that is registered and not declared, and of arguments that are of none. -/

namespace Message
open Py NamespaceMap Spec

theorem From.noLiteral {reg O : Dict Str Str} {oid : Str} {m : Msg} (hf : From reg O oid m)
    (hreg : ∀ a w, reg.get? a = some w → w ≠ t!"sreg") (hdecl : ∀ a w, O.get? (t!"ns." ++ a) = some w → w ≠ t!"sreg") :
    NoLiteral m.namespaces := by
  intro b w hb
  rcases hf.names b w hb with ⟨-, rfl⟩ | ⟨a, -, h | h⟩ | ⟨rfl, -⟩
  · have := hf.has.inv.oid _ hf.has.ns
    rintro rfl
    revert this; decide
  · exact hdecl _ _ h
  · exact hreg _ _ h.2.2.2.2.2
  · decide

/-- an argument with another alias does not bring an alias in -/
theorem place_other {reg O : Dict Str Str} {oid : Str} {m m' : Msg} (hf : From reg O oid m)
    (hreg : ∀ a w, reg.get? a = some w → w ≠ t!"sreg") (hdecl : ∀ a w, O.get? (t!"ns." ++ a) = some w → w ≠ t!"sreg")
    {a : Str} (ha : m.namespaces.aliasToNs.get? (.name a) = none) {p : Alias × Str × Str} (hne : p.1 ≠ .name a)
    (hp : placeArg reg m p = .ok m') : m'.namespaces.aliasToNs.get? (.name a) = none := by
  obtain ⟨b, k0, v⟩ := p
  have hS := hf.noLiteral hreg hdecl
  simp only [placeArg, getNamespaceURI] at hp
  split at hp
  · next w hw =>
    have hnw := (hf.has.inv.ns.bij _ _).1 hw
    obtain ⟨-, e1, -⟩ := set_known hf.has.inv (hS _ _ hw) (by rw [hnw]; rfl) hp
    rw [e1]; exact ha
  · split at hp
    · cases hp
    · split at hp
      · split at hp
        · next w hw =>
          have hnw := (hf.has.inv.ns.bij _ _).1 hw
          obtain ⟨-, e1, -⟩ := set_known hf.has.inv (hS _ _ hw) (by rw [hnw]; rfl) hp
          rw [e1]; exact ha
        · cases hp
      · next w hw =>
        have hws : w ≠ t!"sreg" := by
          rw [Msg.getDefaultNamespace] at hw
          split at hw
          · exact hreg _ _ hw
          · cases hw
        obtain ⟨nm, g1, g2⟩ := bind_eq_ok.1 hp
        have hi := minv_addAlias m hf.has.inv _ _ _ _ g1
        obtain ⟨-, -, -, -, e⟩ := addAlias_ok _ _ _ _ _ g1
        obtain ⟨-, e1, -⟩ := set_known hi hws (by simp [e, Dict.get?_set]) g2
        rw [e1, e]
        simp only [Dict.get?_set]
        rw [if_neg hne]; exact ha

theorem implied_args {reg O : Dict Str Str} {oid : Str} (A : List (Alias × Str × Str)) {m m' : Msg}
    (hf : From reg O oid m)
    (hA : ∀ p ∈ A, ∀ a, p.1 = .name a → '.' ∉ a ∧ a ≠ t!"ns" ∧ O.get? (a ++ '.' :: p.2.1) = some p.2.2)
    (hreg : ∀ a w, reg.get? a = some w → w ≠ t!"sreg") (hdecl : ∀ a w, O.get? (t!"ns." ++ a) = some w → w ≠ t!"sreg")
    (hp : A.foldlM (placeArg reg) m = .ok m') {a u : Str} (hi : Implied reg oid O.get? a u)
    (hna : m.namespaces.aliasToNs.get? (.name a) = none) {k0 v0 : Str} (hm : (.name a, k0, v0) ∈ A) (k : Str) :
    m'.args.get? (.uri u, k) = lastName a k A none := by
  induction A generalizing m with
  | nil => cases hm
  | cons p r ih =>
    by_cases hpa : p.1 = .name a
    · obtain ⟨b, k1, v1⟩ := p
      simp only at hpa
      subst hpa
      have hp0 := hp
      rw [List.foldlM_cons] at hp
      obtain ⟨m1, g1, g2⟩ := bind_eq_ok.1 hp
      have hv1 : m.isOpenID1 = true := by
        have := hi.1
        simp only [Msg.isOpenID1, Msg.getOpenIDNamespace, getNamespaceURI, hf.has.ns]
        simp only [List.mem_cons, List.not_mem_nil, or_false] at this
        rcases this with h | h <;> · rw [h]; decide
      have g1' := g1
      simp only [placeArg, getNamespaceURI, hna, Msg.getDefaultNamespace, hv1, if_true, hi.2.2.2.2.2] at g1
      obtain ⟨nm, n1, n2⟩ := bind_eq_ok.1 g1
      obtain ⟨-, -, hnew, -, e⟩ := addAlias_ok _ _ _ _ _ n1
      have hunk : m.namespaces.nsToAlias.get? u = none := by
        rcases hnew with h | h
        · exact h
        · have := (hf.has.inv.ns.bij _ _).2 h
          rw [hna] at this; cases this
      have hno : m.args.get? (.uri u, k) = none := by
        rw [Dict.get?_none_iff]
        intro hk
        have := hf.has.inv.known _ _ hk
        rw [hunk] at this; cases this
      have hnm : nm.aliasToNs.get? (.name a) = some u := by rw [e]; simp [Dict.get?_set]
      have hs : NoLiteral nm := by
        intro c x hx
        rw [e] at hx
        simp only [Dict.get?_set] at hx
        split at hx
        · cases hx; exact hreg _ _ hi.2.2.2.2.2
        · exact hf.noLiteral hreg hdecl _ _ hx
      have hsame : ((Alias.name a, k1, v1) :: r).foldlM (placeArg reg) { m with namespaces := nm } = .ok m' := by
        rw [List.foldlM_cons]
        have : placeArg reg { m with namespaces := nm } (Alias.name a, k1, v1) = .ok m1 := by
          simp only [placeArg, getNamespaceURI, hnm]
          exact n2
        rw [this]
        exact g2
      rw [(placeAll_ext hreg _ (hf.has.addAlias n1).1 hs hnm hsame).2 k]
      simp only [hno]
    · rw [List.foldlM_cons] at hp
      obtain ⟨m1, g1, g2⟩ := bind_eq_ok.1 hp
      have hf1 := (hf.place (hA p (by simp))).1 m1 g1
      have hm' : (Alias.name a, k0, v0) ∈ r := by
        rcases List.mem_cons.1 hm with h | h
        · rw [← h] at hpa; exact absurd rfl hpa
        · exact h
      rw [ih hf1 (fun p hp => hA p (by simp [hp])) g2 (place_other hf hreg hdecl hna hpa g1) hm']
      show _ = lastName a k r (if p.1 = .name a ∧ p.2.1 = k then some p.2.2 else none)
      rw [if_neg (by rintro ⟨h, -⟩; exact hpa h)]

/-- An extension that is registered and not declared, with arguments in what is parsed. -/
theorem fromOpenIDArgs_implied {reg O : Dict Str Str} (hO : Dict.WF O)
    (hreg : ∀ b w, reg.get? b = some w → w ≠ t!"sreg") (hdecl : ∀ b w, O.get? (t!"ns." ++ b) = some w → w ≠ t!"sreg")
    {m : Msg} (h : fromOpenIDArgs reg O = .ok m) {a u : Str} (hi : Implied reg (versionIn O.get?) O.get? a u) :
    m.namespaces.aliasToNs.get? (.name a) = some u ∧ ∀ k, m.args.get? (.uri u, k) = O.get? (a ++ '.' :: k) := by
  rw [fromOpenIDArgs] at h
  obtain ⟨m0, h0, h1⟩ := bind_eq_ok.1 h
  obtain ⟨nss, h2, h3⟩ := bind_eq_ok.1 h1
  obtain ⟨-, hd, hne, ⟨k, v, hk⟩, hnd, -⟩ := id hi
  have hf0 : From reg O (versionIn O.get?) { m0 with namespaces := nss } := parse_declared hO h0 h2
  have hmem : ∀ k v, (Alias.name a, k, v) ∈ (O.foldl collectStep {}).args ↔ O.get? (a ++ '.' :: k) = some v := by
    intro k v
    rw [mem_collect]
    simp only [List.not_mem_nil, false_or]
    constructor
    · rintro ⟨p, hp, e⟩
      rw [argOf] at e
      split at e
      · split at e <;> simp at e
      · next b k' hc =>
        split at e
        · cases e
        · simp only [Option.some.injEq, Prod.mk.injEq, Alias.name.injEq] at e
          obtain ⟨rfl, rfl, rfl⟩ := e
          rw [← cut_some_eq hc]
          exact Dict.get?_of_mem _ hO _ _ hp
    · intro hv
      refine ⟨_, Dict.get?_mem _ _ _ hv, ?_⟩
      rw [argOf]
      simp only [cut_append _ _ _ hd]
      rw [if_neg hne]
  refine ⟨implied_placeAll _ hf0 (fun p hp a ha => collected_arg hO hp ha) hreg hdecl h3 hi ((hmem k v).2 hk), fun k1 => ?_⟩
  rw [implied_args _ hf0 (fun p hp a ha => collected_arg hO hp ha) hreg hdecl h3 hi ?_ ((hmem k v).2 hk) k1]
  · exact lastName_of (fun v => hmem k1 v)
  · cases hg : nss.aliasToNs.get? (.name a) with
    | none => rfl
    | some w =>
      exfalso
      have hnames : ∀ (N : List (Str × Str)) (n1 n2 : NamespaceMap),
          N.foldlM (fun n p => NamespaceMap.addAlias n p.2 (.name p.1)) n1 = .ok n2 → n1.aliasToNs.get? (.name a) = none →
          (∀ p ∈ N, p.1 ≠ a) → n2.aliasToNs.get? (.name a) = none := by
        intro N
        induction N with
        | nil => intro n1 n2 h hn _; simp at h; subst h; exact hn
        | cons p r ih =>
          intro n1 n2 h hn hN
          rw [List.foldlM_cons] at h
          obtain ⟨n3, e1, e2⟩ := bind_eq_ok.1 h
          obtain ⟨-, -, -, -, e⟩ := addAlias_ok _ _ _ _ _ e1
          refine ih n3 n2 e2 ?_ (fun p hp => hN p (by simp [hp]))
          rw [e]
          simp only [Dict.get?_set]
          rw [if_neg (by simpa using hN p (by simp))]; exact hn
      have := hnames _ _ _ h2 ?_ ?_
      · rw [this] at hg; cases hg
      · cases hg0 : m0.namespaces.aliasToNs.get? (.name a) with
        | none => rfl
        | some x => have := start_names h0 hg0; cases this
      · rintro p hp rfl
        have := Dict.get?_of_mem _ (WF_declared O) _ _ hp
        rw [collect_namespaces O hO, hnd] at this
        cases this

theorem fromPostArgs_implied {reg q : Dict Str Str} (hq : Dict.WF q)
    (hreg : ∀ b w, reg.get? b = some w → w ≠ t!"sreg") (hdecl : ∀ b w, arg q (t!"ns." ++ b) = some w → w ≠ t!"sreg")
    {m : Msg} (h : fromPostArgs reg q = .ok m) {a u : Str} (hi : Implied reg (versionIn (arg q)) (arg q) a u) :
    m.namespaces.aliasToNs.get? (.name a) = some u ∧ ∀ k, m.args.get? (.uri u, k) = arg q (a ++ '.' :: k) := by
  obtain ⟨hO, hg⟩ := post_part hq
  rw [fromPostArgs] at h
  obtain ⟨m1, h1, h2⟩ := bind_eq_ok.1 h
  simp only [pure_eq_ok, Except.ok.injEq] at h2
  obtain ⟨g1, g2⟩ := fromOpenIDArgs_implied hO hreg (by rw [hg]; exact hdecl) h1 (a := a) (u := u) (by rw [hg]; exact hi)
  rw [← h2]
  refine ⟨g1, fun k => ?_⟩
  rw [bare_get, g2, hg]

/-- where the names of a parsed query come from -/
theorem fromPostArgs_names {reg q : Dict Str Str} (hq : Dict.WF q)
    (hreg : ∀ b w, reg.get? b = some w → w ≠ t!"sreg") (hdecl : ∀ b w, arg q (t!"ns." ++ b) = some w → w ≠ t!"sreg")
    {m : Msg} (h : fromPostArgs reg q = .ok m) {b : Alias} {w : Str} (hb : m.namespaces.aliasToNs.get? b = some w) :
    b = .null ∧ w = versionIn (arg q) ∨
      ∃ a, b = .name a ∧ (arg q (t!"ns." ++ a) = some w ∨ Implied reg (versionIn (arg q)) (arg q) a w) := by
  obtain ⟨hO, hg⟩ := post_part hq
  rw [fromPostArgs] at h
  obtain ⟨m1, h1, h2⟩ := bind_eq_ok.1 h
  simp only [pure_eq_ok, Except.ok.injEq] at h2
  have hF := (parse_from (reg := reg) hO).1 _ h1
  rw [← h2] at hb
  have := hF.names b w hb
  rw [hg] at this
  rcases this with h | h | ⟨-, a, h | h⟩
  · exact .inl h
  · exact .inr h
  · exact absurd rfl (hdecl _ _ h)
  · exact absurd rfl (hreg _ _ h.2.2.2.2.2)

/-- an argument with a dot that is of no extension -/
theorem fromPostArgs_dotted {reg q : Dict Str Str} (hq : Dict.WF q)
    (hreg : ∀ b w, reg.get? b = some w → w ≠ t!"sreg") (hdecl : ∀ b w, arg q (t!"ns." ++ b) = some w → w ≠ t!"sreg")
    {m : Msg} (h : fromPostArgs reg q = .ok m) {a : Str} (ha : '.' ∉ a) (hns : a ≠ t!"ns")
    (hnd : arg q (t!"ns." ++ a) = none) (hni : ∀ u, ¬ Implied reg (versionIn (arg q)) (arg q) a u) (k : Str) :
    m.args.get? (.uri (versionIn (arg q)), a ++ '.' :: k) = arg q (a ++ '.' :: k) := by
  obtain ⟨hi, hp⟩ := roundtrip_pairs reg q hq hreg
    (fun k v hkv => hdecl k v (Dict.get?_of_mem q hq _ _ hkv)) m h
  have hnull : m.namespaces.aliasToNs.get? .null = some (versionIn (arg q)) := (fromPostArgs_has hq h).1.ns
  have hnull' := (hi.ns.bij _ _).1 hnull
  apply Option.ext
  intro v
  constructor
  · intro hv
    have : (t!"openid." ++ (a ++ '.' :: k), v) ∈ argPairs m :=
      mem_argPairs.2 ⟨_, _, Dict.get?_mem _ _ _ hv, by simp [Msg.keyOf, getAlias, hnull']⟩
    exact Dict.get?_of_mem _ hq _ _ (hp.mem_iff.1 (List.mem_append_right _ this))
  · intro hv
    have hmem := hp.mem_iff.2 (Dict.get?_mem _ _ _ hv)
    rcases List.mem_append.1 hmem with hmem | hmem
    · exfalso
      obtain ⟨b, -, e, -⟩ := mem_nsPairs hmem
      cases b with
      | null =>
        have e' : t!"openid." ++ t!"ns" = t!"openid." ++ (a ++ '.' :: k) := e
        have := pre_inj e'
        exact no_dot_eq nodot_ns this.symm
      | name s =>
        have e' : t!"openid." ++ (t!"ns" ++ '.' :: s) = t!"openid." ++ (a ++ '.' :: k) := e
        have := (dot_split nodot_ns ha (pre_inj e')).1
        exact hns this.symm
    · obtain ⟨n, k', hm, hk⟩ := mem_argPairs.1 hmem
      cases n with
      | bare =>
        exfalso
        simp only [Msg.keyOf, Option.some.injEq] at hk
        have h1 := fromPostArgs_bare hq h k'
        rw [Dict.get?_of_mem _ hi.wf _ _ hm, hk, openid_prefix] at h1
        cases h1
      | uri w =>
        simp only [Msg.keyOf, getAlias] at hk
        split at hk
        · cases hk
        · next hw =>
          have hw' := (hi.ns.bij _ _).2 hw
          rw [hnull] at hw'
          cases hw'
          simp only [Option.some.injEq] at hk
          rw [← pre_inj hk]
          exact Dict.get?_of_mem _ hi.wf _ _ hm
        · next b hw =>
          exfalso
          simp only [Option.some.injEq, List.append_assoc] at hk
          have hw' := (hi.ns.bij _ _).2 hw
          have hb := (ok_name (hi.ns.ok _ _ hw')).1
          obtain ⟨rfl, -⟩ := dot_split hb ha (pre_inj hk)
          rcases fromPostArgs_names hq hreg hdecl h hw' with ⟨e, -⟩ | ⟨c, e, h1⟩
          · cases e
          · cases e
            rcases h1 with h1 | h1
            · rw [hnd] at h1; cases h1
            · exact hni _ h1

end Message
