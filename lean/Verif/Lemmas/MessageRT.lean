import Verif.Lemmas.Message
/-! Helper lemmas: message invariants, message round trip. -/

namespace Py.Dict
variable {α β : Type} [DecidableEq α]

theorem set_fresh (d : Dict α β) (k : α) (v : β) (h : k ∉ keys d) : set d k v = d ++ [(k, v)] := by
  induction d with
  | nil => rfl
  | cons p r ih =>
    obtain ⟨a, b⟩ := p
    simp only [keys, List.map_cons, List.mem_cons, not_or] at h
    rw [set, if_neg (Ne.symm h.1), ih h.2]; rfl

theorem update_fresh (d e : Dict α β) (h : WF (d ++ e)) : update d e = d ++ e := by
  induction e generalizing d with
  | nil => simp [update]
  | cons p r ih =>
    rw [update_cons, set_fresh, ih]
    · simp
    · simpa using h
    · rw [WF, keys, List.map_append, List.nodup_append] at h
      intro hm; exact h.2.2 _ hm p.1 (by simp) rfl

/-- the value of an existing key is replaced in place -/
theorem set_same (d : Dict α β) (k : α) (v : β) (h : get? d k = some v) : set d k v = d := by
  induction d with
  | nil => simp at h
  | cons p r ih =>
    obtain ⟨a, b⟩ := p
    rw [get?_cons] at h
    rw [set]
    split
    · next e => rw [if_pos e] at h; simp at h; rw [h]
    · next e => rw [if_neg e] at h; rw [ih h]

end Py.Dict

namespace Message
open Py NamespaceMap

/-- the invariant of a message -/
structure MInv (m : Msg) : Prop where
  ns : NamespaceMap.Inv m.namespaces
  wf : Dict.WF m.args
  known : ∀ u k, (NsKey.uri u, k) ∈ Dict.keys m.args → (m.namespaces.nsToAlias.get? u).isSome = true
  oid : ∀ u, m.namespaces.aliasToNs.get? .null = some u → u ∈ [OPENID1_NS, THE_OTHER_OPENID1_NS, OPENID2_NS]

theorem minv_empty : MInv {} := ⟨inv_empty, Dict.WF_nil, by simp [Dict.keys], by simp⟩

/-- every argument of a message has a key to be sent under -/
theorem keyOf_isSome (m : Msg) (hm : MInv m) (p) (hp : p ∈ m.args) : (m.keyOf p.1.1 p.1.2).isSome = true := by
  obtain ⟨⟨n, k⟩, v⟩ := p
  cases n with
  | bare => rfl
  | uri u =>
    have := hm.known u k (List.mem_map.2 ⟨_, hp, rfl⟩)
    simp only [Msg.keyOf, getAlias]
    cases h : m.namespaces.nsToAlias.get? u with
    | none => rw [h] at this; simp at this
    | some a => cases a <;> rfl

/-- `setArg` succeeds whenever the namespace can be resolved; it sets this one argument and keeps all
    aliases -/
theorem setArg_ok (m : Msg) (hm : MInv m) (ns : Ns) (k v : Str) (n : NsKey) (h : m.fixNS ns = .ok n) :
    ∃ m', m.setArg ns k v = .ok m' ∧ m'.args = m.args.set (n, k) v ∧ MInv m' ∧
      (∀ b u, m.namespaces.aliasToNs.get? b = some u → m'.namespaces.aliasToNs.get? b = some u) ∧
      (∀ u b, m.namespaces.nsToAlias.get? u = some b → m'.namespaces.nsToAlias.get? u = some b) ∧
      (m'.namespaces.aliasToNs.get? .null = m.namespaces.aliasToNs.get? .null) ∧
      (∀ u, n = .uri u → (m.namespaces.nsToAlias.get? u).isSome = true →
        m'.namespaces = m.namespaces) := by
  cases n with
  | bare =>
    refine ⟨{ m with args := m.args.set (.bare, k) v }, ?_, rfl, ⟨hm.ns, Dict.WF_set _ hm.wf _ _, ?_, hm.oid⟩,
      fun _ _ h => h, fun _ _ h => h, rfl, by simp⟩
    · rw [Msg.setArg, h]; rfl
    · intro u k' hk
      simp only [Dict.keys_set] at hk
      split at hk
      · exact hm.known u k' hk
      · simp at hk; exact hm.known u k' hk
  | uri u =>
    have hadd : ∃ nss, m.namespaces.add u = .ok nss := by
      rcases add_total m.namespaces hm.ns u with ⟨_, _, e⟩ | ⟨_, _, m', _, _, _, e⟩
      · exact ⟨_, e⟩
      · exact ⟨_, e⟩
    obtain ⟨nss, hnss⟩ := hadd
    have hk := add_keeps _ hm.ns u nss hnss
    have hin : (nss.nsToAlias.get? u).isSome = true := by
      rcases add_total m.namespaces hm.ns u with ⟨a, h1, e⟩ | ⟨_, j, m', _, _, e1, e2⟩
      · rw [e] at hnss; simp at hnss; subst hnss; simp [h1]
      · rw [e2] at hnss; simp at hnss; subst hnss
        obtain ⟨-, -, -, -, rfl⟩ := addAlias_ok _ _ _ _ _ e1
        simp [Dict.get?_set]
    have hnull : nss.aliasToNs.get? .null = m.namespaces.aliasToNs.get? .null := by
      rcases add_total m.namespaces hm.ns u with ⟨a, h1, e⟩ | ⟨_, j, m', _, _, e1, e2⟩
      · rw [e] at hnss; simp at hnss; subst hnss; rfl
      · rw [e2] at hnss; simp at hnss; subst hnss
        obtain ⟨-, -, -, -, rfl⟩ := addAlias_ok _ _ _ _ _ e1
        simp [Dict.get?_set]
    refine ⟨⟨m.args.set (.uri u, k) v, nss⟩, ?_, rfl, ⟨inv_add _ hm.ns u _ hnss, Dict.WF_set _ hm.wf _ _, ?_,
      by rw [hnull]; exact hm.oid⟩, hk.1, hk.2, hnull, ?_⟩
    · rw [Msg.setArg, h]; simp [hnss]
    · intro u' k' hk'
      simp only [Dict.keys_set] at hk'
      have hold : ∀ u', (m.namespaces.nsToAlias.get? u').isSome = true →
          (nss.nsToAlias.get? u').isSome = true := by
        intro u' h'
        obtain ⟨b, hb⟩ := Option.isSome_iff_exists.1 h'
        rw [hk.2 _ _ hb]; rfl
      split at hk'
      · exact hold _ (hm.known u' k' hk')
      · simp only [List.mem_append, List.mem_singleton, Prod.mk.injEq, NsKey.uri.injEq] at hk'
        rcases hk' with h' | ⟨rfl, -⟩
        · exact hold _ (hm.known u' k' h')
        · exact hin
    · intro u' hu' hs
      simp at hu'; subst hu'
      obtain ⟨b, hb⟩ := Option.isSome_iff_exists.1 hs
      rw [add, hb] at hnss; simp at hnss; exact hnss.symm

theorem setArg_error (m : Msg) (ns : Ns) (k v : Str) (e : PyErr) (h : m.fixNS ns = .error e) :
    m.setArg ns k v = .error e := by
  rw [Msg.setArg, h]; rfl

theorem delArg_spec (m : Msg) (hm : MInv m) (ns : Ns) (k : Str) (m' : Msg) (h : m.delArg ns k = .ok m') :
    ∃ n, m.fixNS ns = .ok n ∧ (m.args.get? (n, k)).isSome = true ∧
      m' = { m with args := m.args.del (n, k) } ∧ MInv m' := by
  rw [Msg.delArg] at h
  obtain ⟨n, hn, h⟩ := bind_eq_ok.1 h
  refine ⟨n, hn, ?_⟩
  split at h
  · next hh =>
    simp at h
    refine ⟨hh, h.symm, ?_⟩
    subst h
    refine ⟨hm.ns, Dict.WF_del _ hm.wf _, ?_, hm.oid⟩
    intro u k' hk'
    exact hm.known u k' ((Dict.keys_del_sub _ _).subset hk')
  · simp at h

/-! ### Parsing -/

/-- what is sent back for the namespaces -/
def nsPairs (nm : NamespaceMap) : List (Str × Str) :=
  nm.nsToAlias.filterMap fun p =>
    if nm.isImplicit p.1 then none else some (nsDefKey p.2, p.1)

/-- what is sent back for the arguments -/
def argPairs (m : Msg) : List (Str × Str) :=
  m.args.filterMap fun p => (m.keyOf p.1.1 p.1.2).map fun k => (k, p.2)

theorem toPostArgs_eq (m : Msg) :
    m.toPostArgs = Dict.ofPairs (nsPairs m.namespaces ++ argPairs m) := by
  have h1 : ∀ (l : List (Str × Alias)) (d : Dict Str Str),
      l.foldl m.putNs d =
      Dict.update d (l.filterMap fun p =>
        if m.namespaces.isImplicit p.1 then none else some (nsDefKey p.2, p.1)) := by
    intro l
    induction l with
    | nil => intro d; rfl
    | cons p r ih =>
      intro d
      rw [List.foldl_cons, ih, List.filterMap_cons, Msg.putNs]
      by_cases hi : m.namespaces.isImplicit p.1 = true <;> simp [hi, Dict.update_cons]
  have h2 : ∀ (l : List ((NsKey × Str) × Str)) (d : Dict Str Str),
      l.foldl m.putArg d =
      Dict.update d (l.filterMap fun p => (m.keyOf p.1.1 p.1.2).map fun k => (k, p.2)) := by
    intro l
    induction l with
    | nil => intro d; rfl
    | cons p r ih =>
      intro d
      rw [List.foldl_cons, ih, List.filterMap_cons, Msg.putArg]
      cases m.keyOf p.1.1 p.1.2 <;> simp [Dict.update_cons]
  rw [Msg.toPostArgs, h1, h2, Dict.ofPairs, Dict.update_append]
  rfl

/-- the key under which a collected argument arrived, after `openid.` -/
def enc (p : Alias × Str × Str) : Str × Str :=
  match p.1 with
  | .null => (p.2.1, p.2.2)
  | .name a => (a ++ '.' :: p.2.1, p.2.2)

def unC (c : Collected) : List (Str × Str) :=
  (c.ns.map fun u => (t!"ns", u)).toList ++ c.namespaces.map (fun p => (t!"ns." ++ p.1, p.2)) ++
    c.args.map enc

theorem collectStep_perm (c : Collected) (p : Str × Str) (h : p.1 ∉ Dict.keys (unC c)) :
    (unC (collectStep c p)).Perm (unC c ++ [p]) := by
  obtain ⟨k, v⟩ := p
  simp only at h
  rw [collectStep]
  simp only
  cases hc : cut '.' k with
  | none =>
    simp only
    split
    · next e =>
      subst e
      have hn : c.ns = none := by
        cases hn : c.ns with
        | none => rfl
        | some u => exact absurd (by simp [unC, hn, Dict.keys]) h
      simp only [unC, hn, Option.map_some, Option.toList_some, Option.map_none, Option.toList_none,
        List.nil_append, List.append_assoc, List.singleton_append]
      rw [← List.append_assoc]
      exact (List.perm_append_singleton _ _).symm
    · simp [unC, enc]
  | some r =>
    obtain ⟨a, b⟩ := r
    simp only
    have hk := ((cut_eq_some_iff '.' k a b).1 hc).1
    split
    · next e =>
      subst e
      have hf : b ∉ Dict.keys c.namespaces := by
        intro hb
        apply h
        obtain ⟨q, hq, rfl⟩ := List.mem_map.1 hb
        rw [hk]
        refine List.mem_map.2 ⟨(t!"ns." ++ q.1, q.2), ?_, rfl⟩
        rw [unC]
        exact List.mem_append_left _ (List.mem_append_right _ (List.mem_map.2 ⟨q, hq, rfl⟩))
      simp only [unC, Dict.set_fresh _ _ _ hf, List.map_append, List.map_cons, List.map_nil]
      simp only [List.append_assoc]
      refine List.Perm.append_left _ (List.Perm.append_left _ ?_)
      rw [hk]
      exact List.perm_append_comm
    · simp [unC, enc, hk]

theorem unC_foldl (O : List (Str × Str)) (c : Collected) (h : Dict.WF (unC c ++ O)) :
    (unC (O.foldl collectStep c)).Perm (unC c ++ O) := by
  induction O generalizing c with
  | nil => simp
  | cons p r ih =>
    rw [List.foldl_cons]
    have hf : p.1 ∉ Dict.keys (unC c) := by
      rw [Dict.WF, Dict.keys, List.map_append, List.nodup_append] at h
      intro hm; exact h.2.2 _ hm p.1 (by simp) rfl
    have hp := collectStep_perm c p hf
    have hp2 : (unC (collectStep c p) ++ r).Perm (unC c ++ p :: r) := by
      have := hp.append_right r
      simpa using this
    have hw : Dict.WF (unC (collectStep c p) ++ r) := by
      rw [Dict.WF] at *; exact (List.Perm.nodup_iff (hp2.map _)).2 h
    exact (ih _ hw).trans hp2

theorem collect_perm (O : Dict Str Str) (h : Dict.WF O) :
    (unC (O.foldl collectStep {})).Perm O := by
  have := unC_foldl O {} (by simpa [unC] using h)
  simpa [unC] using this

theorem collect_wf (O : List (Str × Str)) (c : Collected) (h : Dict.WF c.namespaces) :
    Dict.WF (O.foldl collectStep c).namespaces := by
  induction O generalizing c with
  | nil => exact h
  | cons p r ih =>
    apply ih
    rw [collectStep]
    split
    · split <;> exact h
    · split
      · exact Dict.WF_set _ h _ _
      · exact h

/-! ### declared namespaces -/

theorem addAlias_fresh (nm : NamespaceMap) (hm : Inv nm) (u : Str) (a : Alias) (i : Bool)
    (nm' : NamespaceMap) (h : nm.addAlias u a i = .ok nm') (ha : nm.aliasToNs.get? a = none) :
    nm.nsToAlias.get? u = none ∧ nm'.nsToAlias = nm.nsToAlias ++ [(u, a)] ∧
    nm'.aliasToNs = nm.aliasToNs ++ [(a, u)] ∧
    nm'.implicit = if i then nm.implicit ++ [u] else nm.implicit := by
  obtain ⟨_, _, h3, _, rfl⟩ := addAlias_ok nm u a i nm' h
  have hu : nm.nsToAlias.get? u = none := by
    rcases h3 with h3 | h3
    · exact h3
    · rw [← hm.bij, ha] at h3; simp at h3
  exact ⟨hu, Dict.set_fresh _ _ _ ((Dict.get?_none_iff _ _).1 hu),
    Dict.set_fresh _ _ _ ((Dict.get?_none_iff _ _).1 ha), rfl⟩

theorem declared (N : List (Str × Str)) (nm : NamespaceMap) (hm : Inv nm) (hw : Dict.WF N)
    (hf : ∀ a ∈ Dict.keys N, nm.aliasToNs.get? (.name a) = none) (nm' : NamespaceMap)
    (h : N.foldlM (fun n p => n.addAlias p.2 (.name p.1)) nm = .ok nm') :
    Inv nm' ∧ nm'.nsToAlias = nm.nsToAlias ++ N.map (fun p => (p.2, Alias.name p.1)) ∧
    nm'.aliasToNs = nm.aliasToNs ++ N.map (fun p => (Alias.name p.1, p.2)) ∧
    nm'.implicit = nm.implicit ∧ nsPairs nm' = nsPairs nm ++ N.map (fun p => (t!"openid.ns." ++ p.1, p.2)) := by
  induction N generalizing nm with
  | nil => simp at h; subst h; simp [hm]
  | cons p r ih =>
    rw [List.foldlM_cons] at h
    obtain ⟨nm1, h1, h2⟩ := bind_eq_ok.1 h
    have hinv := inv_addAlias _ hm _ _ _ _ h1
    obtain ⟨f0, f1, f2, f3⟩ := addAlias_fresh nm hm _ _ _ _ h1 (hf p.1 (by simp [Dict.keys]))
    rw [Dict.WF, Dict.keys, List.map_cons, List.nodup_cons] at hw
    obtain ⟨g1, g2, g3, g4, g5⟩ := ih nm1 hinv hw.2 (by
      intro a ha
      have hold := hf a (by simp [Dict.keys] at ha ⊢; exact .inr ha)
      rw [Dict.get?_none_iff] at hold ⊢
      rw [f2, Dict.keys, List.map_append]
      intro hm'
      rcases List.mem_append.1 hm' with hm' | hm'
      · exact hold hm'
      · simp at hm'; subst hm'; exact hw.1 ha) h2
    refine ⟨g1, by rw [g2, f1]; simp, by rw [g3, f2]; simp, by rw [g4, f3]; rfl, ?_⟩
    rw [g5]
    have : nsPairs nm1 = nsPairs nm ++ [(t!"openid.ns." ++ p.1, p.2)] := by
      have himp : nm.isImplicit p.2 = false := by
        simp only [isImplicit, List.contains_eq_mem, decide_eq_false_iff_not]
        intro hmem
        have := hm.imp _ hmem
        rw [f0] at this; simp at this
      have hi2 : ∀ u, nm1.isImplicit u = nm.isImplicit u := by
        intro u; simp [isImplicit, f3]
      simp only [nsPairs, f1, hi2, List.filterMap_append, List.filterMap_cons, List.filterMap_nil, himp]
      rfl
    rw [this]; simp

/-! ### placing the arguments -/

/-- a map whose URIs are usable as namespaces -/
def NoSreg (nm : NamespaceMap) : Prop := ∀ a u, nm.aliasToNs.get? a = some u → u ≠ t!"sreg"

theorem keyOf_congr (m m' : Msg) (hm : MInv m)
    (hk : ∀ u b, m.namespaces.nsToAlias.get? u = some b → m'.namespaces.nsToAlias.get? u = some b)
    (p) (hp : p ∈ m.args) : m'.keyOf p.1.1 p.1.2 = m.keyOf p.1.1 p.1.2 := by
  obtain ⟨⟨n, k⟩, v⟩ := p
  cases n with
  | bare => rfl
  | uri u =>
    have := hm.known u k (List.mem_map.2 ⟨_, hp, rfl⟩)
    obtain ⟨b, hb⟩ := Option.isSome_iff_exists.1 this
    simp only [Msg.keyOf, getAlias, hb, hk u b hb]

theorem filterMap_congr' {f g : α → Option β} (l : List α) (h : ∀ x ∈ l, f x = g x) :
    l.filterMap f = l.filterMap g := by
  induction l with
  | nil => rfl
  | cons a r ih =>
    rw [List.filterMap_cons, List.filterMap_cons, h a (by simp), ih (fun x hx => h x (by simp [hx]))]

/-- setting a new argument in a known namespace appends it to what is sent -/
theorem setArg_place (m : Msg) (hm : MInv m) (u k v key : Str) (hs : u ≠ t!"sreg")
    (hu : (m.namespaces.nsToAlias.get? u).isSome = true) (hkey : m.keyOf (.uri u) k = some key)
    (hf : key ∉ Dict.keys (argPairs m)) (m' : Msg) (h : m.setArg (.uri u) k v = .ok m') :
    MInv m' ∧ m'.namespaces = m.namespaces ∧ argPairs m' = argPairs m ++ [(key, v)] ∧
    m'.args = m.args ++ [((.uri u, k), v)] := by
  have hfix : m.fixNS (.uri u) = .ok (.uri u) := by simp [Msg.fixNS, hs]
  obtain ⟨m2, e1, e2, e3, -, -, -, e7⟩ := setArg_ok m hm (.uri u) k v _ hfix
  rw [e1] at h; simp at h; subst h
  have hns := e7 u rfl hu
  have hfresh : (NsKey.uri u, k) ∉ Dict.keys m.args := by
    intro hmem
    obtain ⟨⟨⟨n, k'⟩, v'⟩, hq, he⟩ := List.mem_map.1 hmem
    simp at he
    obtain ⟨rfl, rfl⟩ := he
    apply hf
    refine List.mem_map.2 ⟨(key, v'), ?_, rfl⟩
    exact List.mem_filterMap.2 ⟨_, hq, by simp [hkey]⟩
  have hargs : m2.args = m.args ++ [((.uri u, k), v)] := by rw [e2, Dict.set_fresh _ _ _ hfresh]
  refine ⟨e3, hns, ?_, hargs⟩
  have hk2 : ∀ n k, m2.keyOf n k = m.keyOf n k := by intro n k; simp [Msg.keyOf, hns]
  simp only [argPairs, hargs, hk2, List.filterMap_append, List.filterMap_cons, List.filterMap_nil,
    hkey, Option.map_some]

theorem minv_addAlias (m : Msg) (hm : MInv m) (u a : Str) (i : Bool) (nm : NamespaceMap)
    (h : m.namespaces.addAlias u (.name a) i = .ok nm) : MInv { m with namespaces := nm } := by
  refine ⟨inv_addAlias _ hm.ns _ _ _ _ h, hm.wf, ?_, ?_⟩
  · intro u' k' hk'
    obtain ⟨b, hb⟩ := Option.isSome_iff_exists.1 (hm.known u' k' hk')
    simp [(addAlias_keeps _ _ _ _ _ h).2 _ _ hb]
  · obtain ⟨-, -, -, -, rfl⟩ := addAlias_ok _ _ _ _ _ h
    simpa [Dict.get?_set] using hm.oid

theorem placeArg_spec (reg : Dict Str Str) (m : Msg) (hm : MInv m) (hs : NoSreg m.namespaces)
    (hreg : ∀ a u, reg.get? a = some u → u ≠ t!"sreg")
    (oid : Str) (ho : m.namespaces.aliasToNs.get? .null = some oid)
    (p : Alias × Str × Str) (hf : t!"openid." ++ (enc p).1 ∉ Dict.keys (argPairs m))
    (m' : Msg) (h : placeArg reg m p = .ok m') :
    MInv m' ∧ NoSreg m'.namespaces ∧ m'.namespaces.aliasToNs.get? .null = some oid ∧
    nsPairs m'.namespaces = nsPairs m.namespaces ∧
    argPairs m' = argPairs m ++ [(t!"openid." ++ (enc p).1, (enc p).2)] ∧
    (∃ u k v, m'.args = m.args ++ [((NsKey.uri u, k), v)]) := by
  obtain ⟨a, k, v⟩ := p
  rw [placeArg] at h
  simp only [getNamespaceURI] at h
  cases hg : m.namespaces.aliasToNs.get? a with
  | some u =>
    rw [hg] at h
    simp only at h
    have hb := (hm.ns.bij a u).1 hg
    have hkey : m.keyOf (.uri u) k = some (t!"openid." ++ (enc (a, k, v)).1) := by
      simp only [Msg.keyOf, getAlias, hb]
      cases a <;> simp [enc]
    obtain ⟨e1, e2, e3, e4⟩ := setArg_place m hm u k v _ (hs a u hg) (by simp [hb]) hkey hf m' h
    refine ⟨e1, by rw [e2]; exact hs, by rw [e2]; exact ho, by rw [e2], ?_, ⟨_, _, _, e4⟩⟩
    rw [e3]; cases a <;> rfl
  | none =>
    rw [hg] at h
    cases a with
    | null => rw [ho] at hg; simp at hg
    | name a =>
      simp only at h
      cases hd : m.getDefaultNamespace reg a with
      | none =>
        rw [hd] at h
        simp only [Msg.getOpenIDNamespace, getNamespaceURI, ho] at h
        have hb := (hm.ns.bij .null oid).1 ho
        have hkey : m.keyOf (.uri oid) (a ++ '.' :: k) = some (t!"openid." ++ (enc (.name a, k, v)).1) := by
          simp [Msg.keyOf, getAlias, hb, enc]
        obtain ⟨e1, e2, e3, e4⟩ := setArg_place m hm oid _ v _ (hs .null oid ho) (by simp [hb]) hkey hf m' h
        exact ⟨e1, by rw [e2]; exact hs, by rw [e2]; exact ho, by rw [e2], e3, ⟨_, _, _, e4⟩⟩
      | some u =>
        rw [hd] at h
        simp only at h
        obtain ⟨nm1, h1, h2⟩ := bind_eq_ok.1 h
        have hus : u ≠ t!"sreg" := by
          rw [Msg.getDefaultNamespace] at hd
          split at hd
          · exact hreg a u hd
          · simp at hd
        have hinv := inv_addAlias _ hm.ns _ _ _ _ h1
        have hkeep := addAlias_keeps _ _ _ _ _ h1
        obtain ⟨f0, f1, f2, f3⟩ := addAlias_fresh _ hm.ns _ _ _ _ h1 hg
        have hm1 : MInv { m with namespaces := nm1 } := minv_addAlias m hm _ _ _ nm1 h1
        have hap : argPairs { m with namespaces := nm1 } = argPairs m := by
          rw [argPairs, argPairs]
          apply filterMap_congr'
          intro q hq
          rw [keyOf_congr m { m with namespaces := nm1 } hm hkeep.2 q hq]
        have hua : nm1.aliasToNs.get? (.name a) = some u := by
          apply Dict.get?_of_mem _ hinv.wfA
          rw [f2]; simp
        have hb := (hinv.bij (.name a) u).1 hua
        have hkey : Msg.keyOf { m with namespaces := nm1 } (.uri u) k =
            some (t!"openid." ++ (enc (.name a, k, v)).1) := by
          simp [Msg.keyOf, getAlias, hb, enc]
        have hs1 : NoSreg nm1 := by
          intro b w hbw
          have := Dict.get?_mem _ _ _ hbw
          rw [f2] at this
          rcases List.mem_append.1 this with h' | h'
          · exact hs b w (Dict.get?_of_mem _ hm.ns.wfA _ _ h')
          · simp at h'; rw [h'.2]; exact hus
        obtain ⟨e1, e2, e3, e4⟩ := setArg_place _ hm1 u k v _ hus (by simp [hb]) hkey (by rw [hap]; exact hf) m' h2
        refine ⟨e1, by rw [e2]; exact hs1, by rw [e2]; exact hkeep.1 _ _ ho, ?_, by rw [e3, hap]; rfl,
          ⟨_, _, _, e4⟩⟩
        rw [e2]
        simp only [nsPairs, f1, List.filterMap_append]
        have hnew : nm1.isImplicit u = true := by simp [isImplicit, f3]
        have hold : ∀ q ∈ m.namespaces.nsToAlias, nm1.isImplicit q.1 = m.namespaces.isImplicit q.1 := by
          intro q hq
          have : q.1 ≠ u := by
            rintro rfl
            rw [Dict.get?_none_iff] at f0
            exact f0 (List.mem_map.2 ⟨q, hq, rfl⟩)
          simp [isImplicit, f3, this]
        rw [filterMap_congr' m.namespaces.nsToAlias (fun q hq => by rw [hold q hq])]
        simp [hnew]

theorem placeAll (reg : Dict Str Str) (A : List (Alias × Str × Str)) (m : Msg) (hm : MInv m)
    (hs : NoSreg m.namespaces) (hreg : ∀ a u, reg.get? a = some u → u ≠ t!"sreg")
    (oid : Str) (ho : m.namespaces.aliasToNs.get? .null = some oid)
    (hu : ∀ q ∈ m.args, ∃ u, q.1.1 = NsKey.uri u)
    (hw : Dict.WF (argPairs m ++ A.map fun p => (t!"openid." ++ (enc p).1, (enc p).2)))
    (m' : Msg) (h : A.foldlM (placeArg reg) m = .ok m') :
    MInv m' ∧ NoSreg m'.namespaces ∧ m'.namespaces.aliasToNs.get? .null = some oid ∧
    nsPairs m'.namespaces = nsPairs m.namespaces ∧
    argPairs m' = argPairs m ++ A.map (fun p => (t!"openid." ++ (enc p).1, (enc p).2)) ∧
    (∀ q ∈ m'.args, ∃ u, q.1.1 = NsKey.uri u) := by
  induction A generalizing m with
  | nil => simp at h; subst h; exact ⟨hm, hs, ho, rfl, by simp, hu⟩
  | cons p r ih =>
    rw [List.foldlM_cons] at h
    obtain ⟨m1, h1, h2⟩ := bind_eq_ok.1 h
    have hf : t!"openid." ++ (enc p).1 ∉ Dict.keys (argPairs m) := by
      rw [Dict.WF, Dict.keys, List.map_append, List.nodup_append] at hw
      intro hm'; exact hw.2.2 _ hm' _ (by simp) rfl
    obtain ⟨e1, e2, e3, e4, e5, u, k, v, e6⟩ := placeArg_spec reg m hm hs hreg oid ho p hf m1 h1
    obtain ⟨g1, g2, g3, g4, g5, g6⟩ := ih m1 e1 e2 e3 (by
      intro q hq
      rw [e6] at hq
      rcases List.mem_append.1 hq with hq | hq
      · exact hu q hq
      · simp at hq; subst hq; exact ⟨u, rfl⟩) (by rw [e5]; simpa using hw) h2
    exact ⟨g1, g2, g3, by rw [g4, e4], by rw [g5, e5]; simp, g6⟩

/-- the pairs a message built from `openid.` arguments sends back -/
theorem fromOpenIDArgs_spec (reg O : Dict Str Str) (hO : Dict.WF O)
    (hreg : ∀ a u, reg.get? a = some u → u ≠ t!"sreg")
    (hdecl : ∀ k v, (t!"ns." ++ k, v) ∈ O → v ≠ t!"sreg")
    (m : Msg) (h : fromOpenIDArgs reg O = .ok m) :
    MInv m ∧ (∀ q ∈ m.args, ∃ u, q.1.1 = NsKey.uri u) ∧
    (nsPairs m.namespaces ++ argPairs m).Perm (O.map fun p => (t!"openid." ++ p.1, p.2)) := by
  rw [fromOpenIDArgs] at h
  generalize hc : O.foldl collectStep {} = c at h
  have hperm := collect_perm O hO
  rw [hc] at hperm
  have hcwf : Dict.WF c.namespaces := by rw [← hc]; exact collect_wf O {} Dict.WF_nil
  obtain ⟨m0, h0, h⟩ := bind_eq_ok.1 h
  obtain ⟨nss, h1, h2⟩ := bind_eq_ok.1 h
  have hm0 : ∃ (oid : Str) (imp : Bool), m0 = ⟨[], ⟨[(.null, oid)], [(oid, .null)], if imp then [oid] else []⟩⟩ ∧
      oid ∈ [OPENID1_NS, THE_OTHER_OPENID1_NS, OPENID2_NS] ∧ (if imp then none else some oid) = c.ns := by
    have key : ∀ u b, Msg.new (some u) (some b) = .ok m0 →
        m0 = ⟨[], ⟨[(.null, u)], [(u, .null)], if b then [u] else []⟩⟩ ∧ u ∈ [OPENID1_NS, THE_OTHER_OPENID1_NS, OPENID2_NS] := by
      intro u b hb
      simp only [Msg.new, Msg.setOpenIDNamespace] at hb
      split at hb
      · next hmem =>
        obtain ⟨nm, g1, g2⟩ := bind_eq_ok.1 hb
        obtain ⟨-, -, -, -, rfl⟩ := addAlias_ok _ _ _ _ _ g1
        simp only [pure_eq_ok, Except.ok.injEq] at g2
        exact ⟨by rw [← g2]; simp [Dict.set], by simpa using hmem⟩
      · simp at hb
    cases hn : c.ns with
    | none =>
      rw [hn, startMsg] at h0
      obtain ⟨e1, e2⟩ := key _ _ h0
      exact ⟨_, true, e1, e2, rfl⟩
    | some u =>
      rw [hn, startMsg] at h0
      obtain ⟨e1, e2⟩ := key _ _ h0
      exact ⟨_, false, e1, e2, rfl⟩
  obtain ⟨oid, imp, rfl, hoid', hcns⟩ := hm0
  have hoid : oid ≠ t!"sreg" := by rintro rfl; revert hoid'; decide
  have hinv0 : NamespaceMap.Inv ⟨[(.null, oid)], [(oid, .null)], if imp then [oid] else []⟩ := by
    have h := inv_addAlias {} inv_empty oid .null imp _ (addAlias_of {} oid .null imp rfl (.inl rfl) (.inl rfl) (by simp))
    simpa [Dict.set] using h
  obtain ⟨d1, d2, d3, d4, d5⟩ := declared c.namespaces _ hinv0 hcwf (by intro a _; rfl) nss h1
  have hNo : NoSreg nss := by
    intro a u hau
    have := Dict.get?_mem _ _ _ hau
    rw [d3] at this
    rcases List.mem_append.1 this with h' | h'
    · simp at h'; rw [h'.2]; exact hoid
    · obtain ⟨q, hq, he⟩ := List.mem_map.1 h'
      simp at he
      rw [← he.2]
      apply hdecl q.1
      apply hperm.mem_iff.1
      rw [unC]
      exact List.mem_append_left _ (List.mem_append_right _ (List.mem_map.2 ⟨q, hq, rfl⟩))
  have hnull : nss.aliasToNs.get? .null = some oid := by
    rw [d3]; rfl
  have hm1 : MInv ⟨[], nss⟩ := ⟨d1, Dict.WF_nil, by simp [Dict.keys], by
    intro u hu; simp only [hnull, Option.some.injEq] at hu; subst hu; exact hoid'⟩
  have hOperm : ((unC c).map fun p => (t!"openid." ++ p.1, p.2)).Perm
      (O.map fun p => (t!"openid." ++ p.1, p.2)) := hperm.map _
  have hOw : Dict.WF ((unC c).map fun p => (t!"openid." ++ p.1, p.2)) := by
    have hu : Dict.WF (unC c) := by rw [Dict.WF] at *; exact (List.Perm.nodup_iff (hperm.map _)).2 hO
    rw [Dict.WF, Dict.keys, List.map_map]
    rw [Dict.WF, Dict.keys, List.nodup_iff_pairwise_ne, List.pairwise_map] at hu
    rw [List.nodup_iff_pairwise_ne, List.pairwise_map]
    refine hu.imp ?_
    intro a b hab he
    apply hab
    simpa using he
  have hAw : Dict.WF (c.args.map fun p => (t!"openid." ++ (enc p).1, (enc p).2)) := by
    rw [unC, List.map_append, Dict.WF, Dict.keys, List.map_append, List.nodup_append] at hOw
    have := hOw.2.1
    rw [List.map_map, List.map_map] at this
    rw [Dict.WF, Dict.keys, List.map_map]
    exact this
  obtain ⟨g1, g2, g3, g4, g5, g6⟩ := placeAll reg c.args ⟨[], nss⟩ hm1 hNo hreg oid hnull (by simp) (by
    simpa [argPairs] using hAw) m h2
  refine ⟨g1, g6, ?_⟩
  rw [g4, g5, d5]
  refine List.Perm.trans (List.Perm.of_eq ?_) hOperm
  rw [unC, ← hcns]
  cases imp <;> simp [nsPairs, argPairs, isImplicit, nsDefKey] <;> rfl

/-! ### bare arguments -/

theorem partitionArgs_spec (args : Dict Str Str) (hw : Dict.WF args) :
    ∃ O B : Dict Str Str, partitionArgs args = (O, B) ∧ Dict.WF O ∧ Dict.WF B ∧
      (O.map (fun p => (t!"openid." ++ p.1, p.2)) ++ B).Perm args ∧
      (∀ p ∈ O, (t!"openid." ++ p.1, p.2) ∈ args) := by
  have key : ∀ (l : List (Str × Str)) (O B : Dict Str Str), 
      Dict.WF (O.map (fun p => (t!"openid." ++ p.1, p.2)) ++ B ++ l) →
      ∃ O' B' : Dict Str Str, l.foldl partitionStep (O, B) = (O', B') ∧
      (O'.map (fun p => (t!"openid." ++ p.1, p.2)) ++ B').Perm
        (O.map (fun p => (t!"openid." ++ p.1, p.2)) ++ B ++ l) := by
    intro l
    induction l with
    | nil => intro O B _; exact ⟨O, B, rfl, by simp⟩
    | cons p r ih =>
      intro O B h
      rw [List.foldl_cons]
      have hf : p.1 ∉ Dict.keys (O.map (fun p => (t!"openid." ++ p.1, p.2)) ++ B) := by
        rw [Dict.WF, Dict.keys, List.map_append, List.nodup_append] at h
        intro hm; exact h.2.2 _ hm p.1 (by simp) rfl
      have step : ∀ O1 B1 : Dict Str Str,
          (O1.map (fun p => (t!"openid." ++ p.1, p.2)) ++ B1).Perm
            (O.map (fun p => (t!"openid." ++ p.1, p.2)) ++ B ++ [p]) →
          ∃ O' B' : Dict Str Str, r.foldl partitionStep (O1, B1) = (O', B') ∧
          (O'.map (fun p => (t!"openid." ++ p.1, p.2)) ++ B').Perm
            (O.map (fun p => (t!"openid." ++ p.1, p.2)) ++ B ++ p :: r) := by
        intro O1 B1 hp
        have hp2 := hp.append_right r
        have hp3 : (O1.map (fun p => (t!"openid." ++ p.1, p.2)) ++ B1 ++ r).Perm
            (O.map (fun p => (t!"openid." ++ p.1, p.2)) ++ B ++ p :: r) := by simpa using hp2
        obtain ⟨O', B', e1, e2⟩ := ih O1 B1 (by
          rw [Dict.WF] at *; exact (List.Perm.nodup_iff (hp3.map _)).2 h)
        exact ⟨O', B', e1, e2.trans hp3⟩
      have hbare : (O.map (fun p => (t!"openid." ++ p.1, p.2)) ++ B.set p.1 p.2).Perm
            (O.map (fun p => (t!"openid." ++ p.1, p.2)) ++ B ++ [p]) := by
        rw [Dict.set_fresh]
        · simp
        · intro hm; apply hf
          simp only [Dict.keys, List.map_append] at hm ⊢
          exact List.mem_append_right _ hm
      rw [partitionStep]
      split
      · next pre rest hc =>
        split
        · next e =>
          subst e
          apply step
          have hk := ((cut_eq_some_iff '.' p.1 _ _).1 hc).1
          rw [Dict.set_fresh, List.map_append]
          · simp only [List.map_cons, List.map_nil, List.append_assoc]
            refine List.Perm.append_left _ ?_
            have : (t!"openid." ++ rest, p.2) = p := by
              obtain ⟨a, b⟩ := p; simp at hk ⊢; exact hk.symm
            rw [this]
            exact List.perm_append_comm
          · intro hm
            apply hf
            obtain ⟨q, hq, rfl⟩ := List.mem_map.1 hm
            rw [hk]
            refine List.mem_map.2 ⟨(t!"openid." ++ q.1, q.2), ?_, rfl⟩
            exact List.mem_append_left _ (List.mem_map.2 ⟨q, hq, rfl⟩)
        · exact step _ _ hbare
      · exact step _ _ hbare
  obtain ⟨O, B, h1, h2⟩ := key args [] [] (by simpa using hw)
  simp only [List.map_nil, List.nil_append] at h2
  have hw2 : Dict.WF (O.map (fun p => (t!"openid." ++ p.1, p.2)) ++ B) := by
    rw [Dict.WF] at *; exact (List.Perm.nodup_iff (h2.map _)).2 hw
  rw [Dict.WF, Dict.keys, List.map_append, List.nodup_append] at hw2
  refine ⟨O, B, h1, ?_, hw2.2.1, h2, ?_⟩
  · have := hw2.1
    rw [List.map_map, List.nodup_iff_pairwise_ne, List.pairwise_map] at this
    rw [Dict.WF, Dict.keys, List.nodup_iff_pairwise_ne, List.pairwise_map]
    refine this.imp ?_
    intro a b hab he
    exact hab (by simp [he])
  · intro p hp
    apply h2.mem_iff.1
    exact List.mem_append_left _ (List.mem_map.2 ⟨p, hp, rfl⟩)

theorem addBare (B : Dict Str Str) (m : Msg) (hm : MInv m) (hB : Dict.WF B)
    (hu : ∀ q ∈ m.args, ∃ u, q.1.1 = NsKey.uri u) :
    let m' : Msg := { m with args := B.foldl (fun a p => a.set (NsKey.bare, p.1) p.2) m.args }
    MInv m' ∧ argPairs m' = argPairs m ++ B := by
  have hfold : B.foldl (fun a p => a.set (NsKey.bare, p.1) p.2) m.args =
      Dict.update m.args (B.map fun p => ((NsKey.bare, p.1), p.2)) := by
    rw [Dict.update, List.foldl_map]
  have hw : Dict.WF (m.args ++ B.map fun p => ((NsKey.bare, p.1), p.2)) := by
    rw [Dict.WF, Dict.keys, List.map_append, List.nodup_append]
    refine ⟨hm.wf, ?_, ?_⟩
    · rw [Dict.WF, Dict.keys, List.nodup_iff_pairwise_ne, List.pairwise_map] at hB
      rw [List.map_map, List.nodup_iff_pairwise_ne, List.pairwise_map]
      refine hB.imp ?_
      intro a b hab he
      simp at he; exact hab he
    · intro x hx y hy hxy
      obtain ⟨q, hq, rfl⟩ := List.mem_map.1 hx
      obtain ⟨u, hu⟩ := hu q hq
      rw [List.map_map] at hy
      obtain ⟨b, -, rfl⟩ := List.mem_map.1 hy
      rw [hxy] at hu; simp at hu
  simp only
  rw [hfold, Dict.update_fresh _ _ hw]
  refine ⟨⟨hm.ns, hw, ?_, hm.oid⟩, ?_⟩
  · intro u k hk
    simp only [Dict.keys, List.map_append] at hk
    rcases List.mem_append.1 hk with hk | hk
    · exact hm.known u k hk
    · simp at hk
  · have hk2 : ∀ (a : Dict (NsKey × Str) Str) n k, Msg.keyOf { m with args := a } n k = m.keyOf n k := by
      intro a n k; rfl
    simp only [argPairs, hk2, List.filterMap_append]
    congr 1
    rw [List.filterMap_map]
    clear hw hfold hB
    induction B with
    | nil => rfl
    | cons p r ih => rw [List.filterMap_cons]; simp [Msg.keyOf] at ih ⊢; exact ih

/-- parse then serialise: what is put in, in some order -/
theorem roundtrip_pairs (reg args : Dict Str Str) (hw : Dict.WF args)
    (hreg : ∀ a u, reg.get? a = some u → u ≠ t!"sreg")
    (hdecl : ∀ k v, (t!"openid.ns." ++ k, v) ∈ args → v ≠ t!"sreg")
    (m : Msg) (h : fromPostArgs reg args = .ok m) :
    MInv m ∧ (nsPairs m.namespaces ++ argPairs m).Perm args := by
  obtain ⟨O, B, hp, hO, hB, hperm, hin⟩ := partitionArgs_spec args hw
  rw [fromPostArgs, hp] at h
  simp only at h
  obtain ⟨m1, h1, h2⟩ := bind_eq_ok.1 h
  simp only [pure_eq_ok, Except.ok.injEq] at h2
  obtain ⟨e1, e2, e3⟩ := fromOpenIDArgs_spec reg O hO hreg (by
    intro k v hk
    exact hdecl k v (hin _ hk)) m1 h1
  obtain ⟨f1, f2⟩ := addBare B m1 e1 hB e2
  rw [h2] at f1 f2
  refine ⟨f1, ?_⟩
  have hns : m.namespaces = m1.namespaces := by rw [← h2]
  have hall : (nsPairs m.namespaces ++ argPairs m).Perm args := by
    rw [f2, hns, ← List.append_assoc]
    exact (e3.append_right B).trans hperm
  exact hall

/-- parse then serialise -/
theorem roundtrip (reg args : Dict Str Str) (hw : Dict.WF args)
    (hreg : ∀ a u, reg.get? a = some u → u ≠ t!"sreg")
    (hdecl : ∀ k v, (t!"openid.ns." ++ k, v) ∈ args → v ≠ t!"sreg")
    (m : Msg) (h : fromPostArgs reg args = .ok m) :
    MInv m ∧ m.toPostArgs.Perm args := by
  obtain ⟨h1, hall⟩ := roundtrip_pairs reg args hw hreg hdecl m h
  refine ⟨h1, ?_⟩
  rw [toPostArgs_eq, Dict.ofPairs_eq_self _ (by
    rw [Dict.WF] at *; exact (List.Perm.nodup_iff (hall.map _)).2 hw)]
  exact hall

/-! ### the invariant holds of every message -/

theorem minv_setArg (m : Msg) (hm : MInv m) (ns : Ns) (k v : Str) (m' : Msg)
    (h : m.setArg ns k v = .ok m') : MInv m' := by
  cases hf : m.fixNS ns with
  | error e => rw [setArg_error m ns k v e hf] at h; simp at h
  | ok n =>
    obtain ⟨m2, e1, _, e3, _⟩ := setArg_ok m hm ns k v n hf
    rw [e1] at h; simp at h; subst h; exact e3

theorem minv_new (u : Option Str) (i : Option Bool) (m : Msg) (h : Msg.new u i = .ok m) : MInv m := by
  cases u with
  | none => simp [Msg.new] at h; subst h; exact minv_empty
  | some u =>
    simp only [Msg.new, Msg.setOpenIDNamespace] at h
    split at h
    · obtain ⟨nm, g1, g2⟩ := bind_eq_ok.1 h
      simp only [pure_eq_ok, Except.ok.injEq] at g2
      rw [← g2]
      refine ⟨inv_addAlias _ inv_empty _ _ _ _ g1, Dict.WF_nil, by simp [Dict.keys], ?_⟩
      obtain ⟨-, -, -, -, rfl⟩ := addAlias_ok _ _ _ _ _ g1
      intro u' hu'
      simp [Dict.set, Dict.get?] at hu'
      subst hu'
      next hmem => simpa using hmem
    · simp at h

theorem minv_foldlM {α : Type} (f : Msg → α → Except PyErr Msg) (l : List α)
    (hf : ∀ m p m', MInv m → f m p = .ok m' → MInv m') (m : Msg) (hm : MInv m) (m' : Msg)
    (h : l.foldlM f m = .ok m') : MInv m' := by
  induction l generalizing m with
  | nil => simp at h; subst h; exact hm
  | cons p r ih =>
    rw [List.foldlM_cons] at h
    obtain ⟨m1, h1, h2⟩ := bind_eq_ok.1 h
    exact ih m1 (hf m p m1 hm h1) h2

theorem minv_placeArg (reg : Dict Str Str) (m : Msg) (p) (m' : Msg) (hm : MInv m)
    (h : placeArg reg m p = .ok m') : MInv m' := by
  rw [placeArg] at h
  split at h
  · exact minv_setArg m hm _ _ _ _ h
  · split at h
    · simp at h
    · split at h
      · split at h
        · exact minv_setArg m hm _ _ _ _ h
        · simp at h
      · obtain ⟨nm, h1, h2⟩ := bind_eq_ok.1 h
        exact minv_setArg _ (minv_addAlias m hm _ _ _ nm h1) _ _ _ _ h2

theorem minv_fromOpenIDArgs (reg O : Dict Str Str) (m : Msg) (h : fromOpenIDArgs reg O = .ok m) :
    MInv m := by
  rw [fromOpenIDArgs] at h
  obtain ⟨m0, h0, h⟩ := bind_eq_ok.1 h
  obtain ⟨nss, h1, h2⟩ := bind_eq_ok.1 h
  have hm0 : MInv m0 := by
    unfold startMsg at h0
    split at h0 <;> exact minv_new _ _ _ h0
  have hfold : ∀ (N : List (Str × Str)) (m0 : Msg) (nss), MInv m0 →
      N.foldlM (fun n p => NamespaceMap.addAlias n p.2 (.name p.1)) m0.namespaces = .ok nss →
      MInv { m0 with namespaces := nss } := by
    intro N
    induction N with
    | nil => intro m0 nss hm h; simp at h; subst h; exact hm
    | cons p r ih =>
      intro m0 nss hm h
      rw [List.foldlM_cons] at h
      obtain ⟨n1, g1, g2⟩ := bind_eq_ok.1 h
      exact ih { m0 with namespaces := n1 } nss (minv_addAlias m0 hm _ _ _ n1 g1) g2
  exact minv_foldlM _ _ (fun m p m' hm h => minv_placeArg reg m p m' hm h) _ (hfold _ _ _ hm0 h1) _ h2

theorem minv_fromPostArgs (reg args : Dict Str Str) (m : Msg) (h : fromPostArgs reg args = .ok m) :
    MInv m := by
  rw [fromPostArgs] at h
  obtain ⟨m1, h1, h2⟩ := bind_eq_ok.1 h
  simp only [pure_eq_ok, Except.ok.injEq] at h2
  rw [← h2]
  have hm1 := minv_fromOpenIDArgs _ _ _ h1
  clear h h1 h2
  have key : ∀ (B : Dict Str Str) (m1 : Msg), MInv m1 →
      MInv { m1 with args := B.foldl (fun a p => a.set (NsKey.bare, p.1) p.2) m1.args } := by
    intro B
    induction B with
    | nil => intro m1 h; exact h
    | cons p r ih =>
      intro m1 h
      have := minv_setArg m1 h .bare p.1 p.2 { m1 with args := m1.args.set (NsKey.bare, p.1) p.2 } rfl
      exact ih _ this
  exact key _ m1 hm1

theorem fixNS_same (m m' : Msg)
    (h : m'.namespaces.aliasToNs.get? .null = m.namespaces.aliasToNs.get? .null) (ns : Ns) :
    m'.fixNS ns = m.fixNS ns := by
  cases ns <;> simp [Msg.fixNS, Msg.getOpenIDNamespace, getNamespaceURI, h]

/-- fixing a fixed namespace again changes nothing -/
theorem fixNS_fixed (m : Msg) (hm : MInv m) (ns : Ns) (n : NsKey) (h : m.fixNS ns = .ok n) :
    m.fixNS n.toNs = .ok n := by
  have ho : ∀ u, m.getOpenIDNamespace = some u → u ≠ t!"sreg" := by
    intro u hu
    have := hm.oid u hu
    rintro rfl; revert this; decide
  cases ns with
  | bare => simp [Msg.fixNS] at h; subst h; rfl
  | openid =>
    simp only [Msg.fixNS] at h
    split at h
    · simp at h
    · next u hu => simp at h; subst h; simp [Msg.fixNS, NsKey.toNs, ho u hu]
  | uri u =>
    simp only [Msg.fixNS] at h
    split at h
    · simp at h; subst h; rfl
    · next hu => simp at h; subst h; simp [Msg.fixNS, NsKey.toNs, hu]
  | other => simp [Msg.fixNS] at h

end Message
