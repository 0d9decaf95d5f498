import Verif.Lemmas.MessageParse
import Verif.Lemmas.Association
/-! # What a message is sent as, key by key -/

namespace Message
open Py NamespaceMap

/-- looking up a key in a dict made of pairs that agree on it -/
theorem ofPairs_get_of [DecidableEq α] (l : List (α × β)) (k : α) (o : Option β) (h : ∀ v, (k, v) ∈ l ↔ o = some v) :
    Dict.get? (Dict.ofPairs l) k = o := by
  rw [Association.get?_ofPairs]
  cases hg : Dict.get? l.reverse k with
  | none =>
    rw [Dict.get?_none_iff] at hg
    cases o with
    | none => rfl
    | some v =>
      exact absurd (List.mem_map.2 ⟨(k, v), List.mem_reverse.2 ((h v).2 rfl), rfl⟩) hg
  | some v =>
    have := Dict.get?_mem _ _ _ hg
    exact ((h v).1 (List.mem_reverse.1 this)).symm

theorem mem_nsPairs {nm : NamespaceMap} {K v : Str} (h : (K, v) ∈ nsPairs nm) :
    ∃ a, (v, a) ∈ nm.nsToAlias ∧ nsDefKey a = K ∧ nm.isImplicit v = false := by
  obtain ⟨⟨u, a⟩, h1, h2⟩ := List.mem_filterMap.1 h
  simp only at h2
  by_cases hi : nm.isImplicit u = true
  · rw [if_pos hi] at h2; cases h2
  · rw [if_neg hi] at h2; simp at h2
    obtain ⟨rfl, rfl⟩ := h2
    exact ⟨a, h1, rfl, by simpa using hi⟩

theorem mem_argPairs {m : Msg} {K v : Str} :
    (K, v) ∈ argPairs m ↔ ∃ n k, ((n, k), v) ∈ m.args ∧ m.keyOf n k = some K := by
  rw [argPairs, List.mem_filterMap]
  constructor
  · rintro ⟨⟨⟨n, k⟩, w⟩, h1, h2⟩
    simp only [Option.map_eq_some_iff, Prod.mk.injEq] at h2
    obtain ⟨a, ha, rfl, rfl⟩ := h2
    exact ⟨n, k, h1, ha⟩
  · rintro ⟨n, k, h1, h2⟩
    exact ⟨((n, k), v), h1, by simp [h2]⟩

theorem openid_prefix (s : Str) : startsWith (t!"openid." ++ s) t!"openid." = true := (startsWith_iff _ _).2 ⟨s, rfl⟩

theorem nsDefKey_prefix (a : Alias) : startsWith (nsDefKey a) t!"openid." = true := by
  cases a with
  | null => decide
  | name s => exact (startsWith_iff _ _).2 ⟨t!"ns." ++ s, rfl⟩

theorem keyOf_uri_prefix {m : Msg} {u k K : Str} (h : m.keyOf (.uri u) k = some K) :
    startsWith K t!"openid." = true := by
  simp only [Msg.keyOf] at h
  split at h
  · cases h
  · simp at h; subst h; exact openid_prefix k
  · next a _ =>
    simp only [Option.some.injEq] at h; subst h
    exact (startsWith_iff _ _).2 ⟨a ++ '.' :: k, by simp⟩

/-- the arguments outside OpenID are sent under their own names -/
theorem post_bare (m : Msg) (hm : MInv m) (K : Str) (hK : startsWith K t!"openid." = false) :
    m.toPostArgs.get? K = m.args.get? (.bare, K) := by
  rw [toPostArgs_eq]
  apply ofPairs_get_of
  intro v
  rw [List.mem_append]
  constructor
  · rintro (h | h)
    · obtain ⟨a, -, rfl, -⟩ := mem_nsPairs h
      rw [nsDefKey_prefix] at hK; cases hK
    · obtain ⟨n, k, h1, h2⟩ := mem_argPairs.1 h
      cases n with
      | bare => simp [Msg.keyOf] at h2; subst h2; exact Dict.get?_of_mem _ hm.wf _ _ h1
      | uri u => rw [keyOf_uri_prefix h2] at hK; cases hK
  · intro h
    exact .inr (mem_argPairs.2 ⟨.bare, K, Dict.get?_mem _ _ _ h, rfl⟩)

theorem no_dot_eq {a b k : Str} (hk : '.' ∉ k) : a ++ '.' :: b ≠ k := by
  rintro rfl; exact hk (by simp)

/-- an OpenID argument whose name has no dot is sent under `openid.<name>` -/
theorem post_plain (m : Msg) (hm : MInv m) (oid : Str) (ho : m.getOpenIDNamespace = some oid) (k : Str) (hk : '.' ∉ k)
    (hn : k ≠ t!"ns") (hb : m.args.get? (.bare, t!"openid." ++ k) = none) :
    m.toPostArgs.get? (t!"openid." ++ k) = m.args.get? (.uri oid, k) := by
  have hal : m.namespaces.nsToAlias.get? oid = some .null := (hm.ns.bij _ _).1 ho
  rw [toPostArgs_eq]
  apply ofPairs_get_of
  intro v
  rw [List.mem_append]
  constructor
  · rintro (h | h)
    · obtain ⟨a, -, h2, -⟩ := mem_nsPairs h
      cases a with
      | null => exact absurd (List.append_cancel_left (show t!"openid." ++ t!"ns" = t!"openid." ++ k from h2)).symm hn
      | name s =>
        have : t!"openid." ++ (t!"ns" ++ '.' :: s) = t!"openid." ++ k := h2
        exact absurd (List.append_cancel_left this) (no_dot_eq hk)
    · obtain ⟨n, k', h1, h2⟩ := mem_argPairs.1 h
      cases n with
      | bare =>
        simp [Msg.keyOf] at h2; subst h2
        rw [Dict.get?_none_iff] at hb
        exact absurd (List.mem_map.2 ⟨_, h1, rfl⟩) hb
      | uri u =>
        simp only [Msg.keyOf] at h2
        split at h2
        · cases h2
        · next ha =>
          have hu : m.namespaces.aliasToNs.get? .null = some u := (hm.ns.bij _ _).2 ha
          have : some u = some oid := by rw [← hu]; exact ho
          cases this
          have : k' = k := by simpa using h2
          subst this
          exact Dict.get?_of_mem _ hm.wf _ _ h1
        · next a _ =>
          have : t!"openid." ++ (a ++ '.' :: k') = t!"openid." ++ k := by simpa using h2
          exact absurd (List.append_cancel_left this) (no_dot_eq hk)
  · intro h
    refine .inr (mem_argPairs.2 ⟨.uri oid, k, Dict.get?_mem _ _ _ h, ?_⟩)
    simp [Msg.keyOf, getAlias, hal]

theorem setArg_bare {m m' : Msg} {u k v : Str} (h : m.setArg (.uri u) k v = .ok m') (K : Str) :
    m'.args.get? (.bare, K) = m.args.get? (.bare, K) := by
  rw [Msg.setArg] at h
  obtain ⟨n, h1, h2⟩ := bind_eq_ok.1 h
  have hn : ∃ w, n = .uri w := by
    rw [Msg.fixNS] at h1
    split at h1 <;> · simp at h1; exact ⟨_, h1.symm⟩
  obtain ⟨w, rfl⟩ := hn
  simp only at h2
  obtain ⟨nss, h3, h4⟩ := bind_eq_ok.1 h2
  simp only [pure_eq_ok, Except.ok.injEq] at h4
  rw [← h4, Dict.get?_set, if_neg (by simp)]

theorem placeArg_bare {reg : Dict Str Str} {m m' : Msg} {p : Alias × Str × Str} (h : placeArg reg m p = .ok m') (K : Str) :
    m'.args.get? (.bare, K) = m.args.get? (.bare, K) := by
  rw [placeArg] at h
  split at h
  · exact setArg_bare h K
  · split at h
    · cases h
    · split at h
      · split at h
        · exact setArg_bare h K
        · cases h
      · obtain ⟨nss, h1, h2⟩ := bind_eq_ok.1 h
        exact setArg_bare h2 K

theorem fromOpenIDArgs_bare {reg O : Dict Str Str} {m : Msg} (h : fromOpenIDArgs reg O = .ok m) (K : Str) :
    m.args.get? (.bare, K) = none := by
  rw [fromOpenIDArgs] at h
  obtain ⟨m0, h0, h⟩ := bind_eq_ok.1 h
  obtain ⟨nss, h1, h2⟩ := bind_eq_ok.1 h
  have hm0 : m0.args = [] := by
    have hs : ∀ u i, Msg.new u i = .ok m0 → m0.args = [] := by
      intro u i h
      unfold Msg.new at h
      split at h
      · cases h; rfl
      · rw [Msg.setOpenIDNamespace] at h
        split at h
        · obtain ⟨n, _, e⟩ := bind_eq_ok.1 h
          simp at e; rw [← e]
        · cases h
    unfold startMsg at h0
    split at h0 <;> exact hs _ _ h0
  have hfold : ∀ (A : List (Alias × Str × Str)) (m1 : Msg), A.foldlM (placeArg reg) m1 = .ok m →
      m.args.get? (.bare, K) = m1.args.get? (.bare, K) := by
    intro A
    induction A with
    | nil => intro m1 h; simp at h; rw [h]
    | cons p r ih =>
      intro m1 h
      rw [List.foldlM_cons] at h
      obtain ⟨m2, g1, g2⟩ := bind_eq_ok.1 h
      rw [ih _ g2, placeArg_bare g1]
  rw [hfold _ _ h2]
  simp [hm0]

/-- the arguments that do not start with `openid.` -/
theorem partition_bare (l : List (Str × Str)) (hl : Dict.WF l) (O B : Dict Str Str) (K : Str) :
    (l.foldl partitionStep (O, B)).2.get? K =
      if startsWith K t!"openid." then B.get? K else (Dict.get? l K).or (B.get? K) := by
  induction l generalizing O B with
  | nil => simp
  | cons p r ih =>
    obtain ⟨key, v⟩ := p
    obtain ⟨h1, h2⟩ := List.nodup_cons.1 hl
    have hpre : ∀ rest, cut '.' key = some (t!"openid", rest) → startsWith key t!"openid." = true := by
      intro rest hc
      rw [cut_some_eq hc]
      exact openid_prefix rest
    have hnot : startsWith key t!"openid." = true → ∃ rest, cut '.' key = some (t!"openid", rest) := by
      intro hs
      obtain ⟨rest, rfl⟩ := (startsWith_iff _ _).1 hs
      exact ⟨rest, (cut_eq_some_iff _ _ _ _).2 ⟨rfl, by decide⟩⟩
    have hset : startsWith key t!"openid." = false →
        (if startsWith K t!"openid." then (B.set key v).get? K else (Dict.get? r K).or ((B.set key v).get? K)) =
        if startsWith K t!"openid." then B.get? K
          else (if key = K then some v else Dict.get? r K).or (B.get? K) := by
      intro hk
      rw [Dict.get?_set]
      by_cases e : key = K
      · subst e
        have hn : Dict.get? r key = none := (Dict.get?_none_iff _ _).2 h1
        simp [hk, hn]
      · simp [e]
    rw [List.foldl_cons, Dict.get?_cons]
    simp only [partitionStep]
    split
    · next pre rest hc =>
      split
      · next hp =>
        subst hp
        rw [ih h2]
        have := hpre _ hc
        by_cases e : key = K
        · subst e; simp [this]
        · simp [e]
      · next hp =>
        rw [ih h2]
        apply hset
        cases hs : startsWith key t!"openid." with
        | false => rfl
        | true =>
          obtain ⟨rest', hc'⟩ := hnot hs
          rw [hc'] at hc; simp at hc; exact absurd hc.1.symm hp
    · next hc =>
      rw [ih h2]
      apply hset
      cases hs : startsWith key t!"openid." with
      | false => rfl
      | true =>
        obtain ⟨rest', hc'⟩ := hnot hs
        rw [hc'] at hc; cases hc

/-- the arguments outside OpenID of a parsed query are those that do not start with `openid.` -/
theorem fromPostArgs_bare {reg q : Dict Str Str} (hq : Dict.WF q) {m : Msg} (h : fromPostArgs reg q = .ok m) (K : Str) :
    m.args.get? (.bare, K) = if startsWith K t!"openid." then none else q.get? K := by
  rw [fromPostArgs] at h
  obtain ⟨m1, h1, h2⟩ := bind_eq_ok.1 h
  simp only [pure_eq_ok, Except.ok.injEq] at h2
  have hB : Dict.WF (partitionArgs q).2 := by
    obtain ⟨O, B, e, -, h1, -⟩ := partitionArgs_spec q hq
    rw [e]; exact h1
  have hg := partition_bare q hq [] [] K
  simp at hg
  have hfold : ∀ (B : Dict Str Str) (d : Dict (NsKey × Str) Str), Dict.WF B →
      (B.foldl (fun a p => a.set (NsKey.bare, p.1) p.2) d).get? (.bare, K) = (B.get? K).or (d.get? (.bare, K)) := by
    intro B
    induction B with
    | nil => intro d _; simp
    | cons p r ih =>
      intro d hw
      obtain ⟨w1, w2⟩ := List.nodup_cons.1 hw
      rw [List.foldl_cons, ih _ w2, Dict.get?_set, Dict.get?_cons]
      by_cases e : p.1 = K
      · subst e
        rw [(Dict.get?_none_iff _ _).2 w1]; simp
      · simp [e]
  rw [← h2]
  simp only
  rw [hfold _ _ (show Dict.WF (List.foldl partitionStep ([], []) q).2 from hB), fromOpenIDArgs_bare h1, hg]
  simp

end Message
