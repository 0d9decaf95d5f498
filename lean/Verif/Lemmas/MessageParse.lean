import Verif.Lemmas.MessageAbs
/-! # What parsing a query gives: the OpenID namespace, its arguments, and the errors -/

namespace Message
open Py NamespaceMap

theorem cut_some_eq {c : Char} {s a b : Str} (h : cut c s = some (a, b)) : s = a ++ c :: b := by
  exact ((cut_eq_some_iff c s a b).1 h).1

/-- the arguments that start with `openid.` -/
theorem partition_get (l : List (Str × Str)) (hl : Dict.WF l) (O B : Dict Str Str) (k : Str) :
    (l.foldl partitionStep (O, B)).1.get? k = (Dict.get? l (t!"openid." ++ k)).or (O.get? k) := by
  induction l generalizing O B with
  | nil => simp
  | cons p r ih =>
    obtain ⟨key, v⟩ := p
    obtain ⟨h1, h2⟩ := List.nodup_cons.1 hl
    rw [List.foldl_cons, Dict.get?_cons]
    simp only [partitionStep]
    split
    · next pre rest hc =>
      split
      · next hp =>
        subst hp
        have hkey := cut_some_eq hc
        rw [ih h2, Dict.get?_set]
        by_cases hk : rest = k
        · subst hk
          have : key = t!"openid." ++ rest := by rw [hkey]; rfl
          have hn : Dict.get? r (t!"openid." ++ rest) = none := by
            rw [Dict.get?_none_iff, ← this]; exact h1
          rw [hn, if_pos this, if_pos rfl]; rfl
        · have : key ≠ t!"openid." ++ k := by
            rw [hkey]; intro e; apply hk; simpa using e
          rw [if_neg hk, if_neg this]
      · next hp =>
        rw [ih h2]
        have : key ≠ t!"openid." ++ k := by
          rintro rfl
          have : cut '.' (t!"openid." ++ k) = some (t!"openid", k) := (cut_eq_some_iff _ _ _ _).2 ⟨rfl, by decide⟩
          rw [this] at hc; simp at hc; exact hp hc.1.symm
        rw [if_neg this]
    · next hc =>
      rw [ih h2]
      have : key ≠ t!"openid." ++ k := by
        rintro rfl
        have : cut '.' (t!"openid." ++ k) = some (t!"openid", k) := (cut_eq_some_iff _ _ _ _).2 ⟨rfl, by decide⟩
        rw [this] at hc; simp at hc
      rw [if_neg this]

/-- the last value given to a plain key -/
def lastNull (A : List (Alias × Str × Str)) (k : Str) (o : Option Str) : Option Str :=
  A.foldl (fun o p => if p.1 = .null ∧ p.2.1 = k then some p.2.2 else o) o

theorem lastNull_append (A B) (k : Str) (o : Option Str) : lastNull (A ++ B) k o = lastNull B k (lastNull A k o) := by
  simp [lastNull]

theorem collect_get (O : List (Str × Str)) (hO : Dict.WF O) (c : Collected) (k : Str) (hk : '.' ∉ k) (hn : k ≠ t!"ns")
    (o : Option Str) :
    lastNull (O.foldl collectStep c).args k o = (Dict.get? O k).or (lastNull c.args k o) := by
  induction O generalizing c with
  | nil => simp
  | cons p r ih =>
    obtain ⟨key, v⟩ := p
    obtain ⟨h1, h2⟩ := List.nodup_cons.1 hO
    rw [List.foldl_cons, Dict.get?_cons, ih h2]
    simp only [collectStep]
    split
    · split
      · next h => 
        have : key ≠ k := by rintro rfl; exact hn h
        simp [this]
      · simp only [lastNull_append]
        by_cases hkk : key = k
        · subst hkk
          have : Dict.get? r key = none := by rw [Dict.get?_none_iff]; exact h1
          simp [lastNull, this]
        · simp [lastNull, hkk]
    · next a b hc =>
      have : key ≠ k := by
        rintro rfl; apply hk; rw [cut_some_eq hc]; simp
      split <;> simp [lastNull_append, lastNull, this]

theorem collect_ns (O : List (Str × Str)) (hO : Dict.WF O) (c : Collected) :
    (O.foldl collectStep c).ns = (Dict.get? O t!"ns").or c.ns := by
  induction O generalizing c with
  | nil => simp
  | cons p r ih =>
    obtain ⟨key, v⟩ := p
    obtain ⟨h1, h2⟩ := List.nodup_cons.1 hO
    rw [List.foldl_cons, Dict.get?_cons, ih h2]
    simp only [collectStep]
    split
    · split
      · next h =>
        have : Dict.get? r t!"ns" = none := by rw [Dict.get?_none_iff, ← h]; exact h1
        simp [h, this]
      · next h => simp [h]
    · next a b hc =>
      have : key ≠ t!"ns" := by
        rintro rfl
        simp [cut] at hc
      split <;> simp [this]

/-- a message whose OpenID namespace is `oid` -/
structure Has (m : Msg) (oid : Str) : Prop where
  inv : MInv m
  ns : m.namespaces.aliasToNs.get? .null = some oid

theorem addAlias_error {nm : NamespaceMap} {u : Str} {a : Alias} {i : Bool} {e : PyErr}
    (h : nm.addAlias u a i = .error e) : e = .assertionError ∨ e = .invalidNamespace := by
  unfold addAlias at h
  change (if (!okAlias a) = true then _ else _) = _ at h
  grind

theorem startMsg_ok {ns : Option Str} {m : Msg} (h : startMsg ns = .ok m) :
    Has m (ns.getD OPENID1_NS) ∧ m.args = [] := by
  have key : ∀ u i, Msg.new (some u) (some i) = .ok m → Has m u ∧ m.args = [] := by
    intro u i h
    refine ⟨⟨minv_new _ _ _ h, ?_⟩, ?_⟩
    all_goals
      simp only [Msg.new, Msg.setOpenIDNamespace] at h
      split at h
      · obtain ⟨nm, g1, g2⟩ := bind_eq_ok.1 h
        simp only [pure_eq_ok, Except.ok.injEq] at g2
        subst g2
        obtain ⟨-, -, -, -, rfl⟩ := addAlias_ok _ _ _ _ _ g1
        simp [Dict.get?_set]
      · simp at h
  unfold startMsg at h
  split at h
  · exact key _ _ h
  · exact key _ _ h

theorem startMsg_error {ns : Option Str} {e : PyErr} (h : startMsg ns = .error e) :
    e = .invalidOpenIDNamespace ∧ ∃ u, ns = some u ∧ u ∉ [OPENID1_NS, THE_OTHER_OPENID1_NS, OPENID2_NS] := by
  have hadd : ∀ u i, ∃ x, ({} : NamespaceMap).addAlias u .null i = .ok x := by
    intro u i
    exact ⟨_, addAlias_of {} u .null i rfl (.inl rfl) (.inl rfl) (by simp)⟩
  unfold startMsg at h
  split at h
  · next u =>
    simp only [Msg.new, Msg.setOpenIDNamespace] at h
    split at h
    · obtain ⟨x, hx⟩ := hadd u false
      rw [hx] at h; simp at h
    · next hu => simp at h; exact ⟨h.symm, u, rfl, by simpa using hu⟩
  · obtain ⟨x, hx⟩ := hadd OPENID1_NS true
    simp only [Msg.new, Msg.setOpenIDNamespace] at h
    rw [if_pos (by decide), hx] at h
    simp at h

theorem Has.addAlias {m : Msg} {oid : Str} (h : Has m oid) {u a : Str} {i : Bool} {nm : NamespaceMap}
    (ha : m.namespaces.addAlias u (.name a) i = .ok nm) : Has { m with namespaces := nm } oid ∧ u ≠ oid := by
  refine ⟨⟨minv_addAlias m h.inv _ _ _ _ ha, (addAlias_keeps _ _ _ _ _ ha).1 _ _ h.ns⟩, ?_⟩
  rintro rfl
  obtain ⟨-, -, h3, -⟩ := addAlias_ok _ _ _ _ _ ha
  rw [(h.inv.ns.bij _ _).1 h.ns] at h3
  simp at h3

theorem Has.declare {N : List (Str × Str)} {m : Msg} {oid : Str} (h : Has m oid) {nm : NamespaceMap}
    (hN : N.foldlM (fun n p => NamespaceMap.addAlias n p.2 (.name p.1)) m.namespaces = .ok nm) :
    Has { m with namespaces := nm } oid := by
  induction N generalizing m with
  | nil => simp at hN; subst hN; exact h
  | cons p r ih =>
    rw [List.foldlM_cons] at hN
    obtain ⟨n1, g1, g2⟩ := bind_eq_ok.1 hN
    exact ih (m := { m with namespaces := n1 }) (h.addAlias g1).1 g2

theorem Has.declare_error {N : List (Str × Str)} {nm : NamespaceMap} {e : PyErr}
    (hN : N.foldlM (fun n p => NamespaceMap.addAlias n p.2 (.name p.1)) nm = .error e) :
    e = .assertionError ∨ e = .invalidNamespace := by
  induction N generalizing nm with
  | nil => simp at hN
  | cons p r ih =>
    rw [List.foldlM_cons] at hN
    rcases bind_eq_error.1 hN with h | ⟨n1, -, h⟩
    · exact addAlias_error h
    · exact ih h

/-- setting an argument keeps the OpenID namespace -/
theorem Has.set {m m' : Msg} {oid u k v : Str} (h : Has m oid) (hs : m.setArg (.uri u) k v = .ok m') :
    Has m' oid ∧ ∀ k', m'.args.get? (.uri oid, k') =
      if u = oid ∧ k = k' then some v else m.args.get? (.uri oid, k') := by
  have hne : oid ≠ t!"sreg" ∧ oid ≠ SREG_URI := by
    have := h.inv.oid _ h.ns
    constructor <;> · rintro rfl; revert this; decide
  obtain ⟨n, hn⟩ : ∃ n, m.fixNS (.uri u) = .ok n := by
    simp only [Msg.fixNS]; split <;> exact ⟨_, rfl⟩
  obtain ⟨m2, e1, e2, e3, -, -, e6, -⟩ := setArg_ok m h.inv (.uri u) k v n hn
  rw [hs] at e1; cases e1
  refine ⟨⟨e3, by rw [e6]; exact h.ns⟩, ?_⟩
  intro k'
  rw [e2, Dict.get?_set]
  simp only [Msg.fixNS] at hn
  split at hn
  · next hu =>
    cases hn
    have h1 : ¬ ((NsKey.uri SREG_URI, k) = (NsKey.uri oid, k')) := by simp; intro e; exact absurd e.symm hne.2
    have h2 : ¬ (u = oid ∧ k = k') := by rintro ⟨rfl, -⟩; exact hne.1 hu
    simp [h1, h2]
  · cases hn; simp

theorem Has.can {m : Msg} {oid : Str} (h : Has m oid) (u k v : Str) : ∃ m', m.setArg (.uri u) k v = .ok m' := by
  obtain ⟨n, hn⟩ : ∃ n, m.fixNS (.uri u) = .ok n := by
    simp only [Msg.fixNS]; split <;> exact ⟨_, rfl⟩
  obtain ⟨m2, e1, -⟩ := setArg_ok m h.inv (.uri u) k v n hn
  exact ⟨m2, e1⟩

theorem Has.place {reg : Dict Str Str} {m m' : Msg} {oid : Str} (h : Has m oid) {p : Alias × Str × Str}
    (hp : placeArg reg m p = .ok m') :
    Has m' oid ∧ ∀ k, '.' ∉ k → m'.args.get? (.uri oid, k) =
      if p.1 = .null ∧ p.2.1 = k then some p.2.2 else m.args.get? (.uri oid, k) := by
  obtain ⟨a, k0, v⟩ := p
  simp only [placeArg, getNamespaceURI] at hp
  split at hp
  · next u hu =>
    obtain ⟨h1, h2⟩ := h.set hp
    refine ⟨h1, fun k hk => ?_⟩
    rw [h2]
    have : u = oid ↔ a = .null := by
      constructor
      · rintro rfl
        have e1 := (h.inv.ns.bij _ _).1 hu
        rw [(h.inv.ns.bij _ _).1 h.ns] at e1
        simpa using e1.symm
      · rintro rfl
        rw [h.ns] at hu; simpa using hu.symm
    simp [this]
  · next hu =>
    split at hp
    · simp at hp
    · next a =>
      split at hp
      · split at hp
        · next u hu' =>
          have : u = oid := by
            simp only [Msg.getOpenIDNamespace, getNamespaceURI, h.ns, Option.some.injEq] at hu'; exact hu'.symm
          subst this
          obtain ⟨h1, h2⟩ := h.set hp
          refine ⟨h1, fun k hk => ?_⟩
          rw [h2]
          have : a ++ '.' :: k0 ≠ k := by rintro rfl; simp at hk
          simp [this]
        · simp at hp
      · next u hu' =>
        obtain ⟨nm, g1, g2⟩ := bind_eq_ok.1 hp
        obtain ⟨h1, h2⟩ := h.addAlias g1
        obtain ⟨h3, h4⟩ := h1.set g2
        refine ⟨h3, fun k hk => ?_⟩
        rw [h4]
        simp [h2]

theorem Has.place_error {reg : Dict Str Str} {m : Msg} {oid : Str} (h : Has m oid) {p : Alias × Str × Str} {e : PyErr}
    (hp : placeArg reg m p = .error e) :
    (e = .assertionError ∨ e = .invalidNamespace) ∧ p.1 ≠ .null := by
  obtain ⟨a, k0, v⟩ := p
  simp only [placeArg, getNamespaceURI] at hp
  split at hp
  · next u hu =>
    obtain ⟨m', hm'⟩ := h.can u k0 v
    rw [hm'] at hp; simp at hp
  · next hu =>
    split at hp
    · rw [h.ns] at hu; simp at hu
    · next a =>
      split at hp
      · split at hp
        · next u hu' =>
          obtain ⟨m', hm'⟩ := h.can u (a ++ '.' :: k0) v
          rw [hm'] at hp; simp at hp
        · next hu' => simp only [Msg.getOpenIDNamespace, getNamespaceURI, h.ns] at hu'; simp at hu'
      · next u hu' =>
        rcases bind_eq_error.1 hp with g | ⟨nm, g1, g2⟩
        · exact ⟨addAlias_error g, by simp⟩
        · obtain ⟨m', hm'⟩ := (h.addAlias g1).1.can u k0 v
          rw [hm'] at g2; simp at g2

theorem Has.placeAll {reg : Dict Str Str} {A : List (Alias × Str × Str)} {m m' : Msg} {oid : Str} (h : Has m oid)
    (hp : A.foldlM (placeArg reg) m = .ok m') :
    Has m' oid ∧ ∀ k, '.' ∉ k → m'.args.get? (.uri oid, k) = lastNull A k (m.args.get? (.uri oid, k)) := by
  induction A generalizing m with
  | nil => simp at hp; subst hp; exact ⟨h, fun _ _ => rfl⟩
  | cons p r ih =>
    rw [List.foldlM_cons] at hp
    obtain ⟨m1, g1, g2⟩ := bind_eq_ok.1 hp
    obtain ⟨h1, h2⟩ := h.place g1
    obtain ⟨h3, h4⟩ := ih h1 g2
    refine ⟨h3, fun k hk => ?_⟩
    rw [h4 k hk, h2 k hk]
    simp [lastNull]

theorem Has.placeAll_error {reg : Dict Str Str} {A : List (Alias × Str × Str)} {m : Msg} {oid : Str} {e : PyErr}
    (h : Has m oid) (hp : A.foldlM (placeArg reg) m = .error e) :
    (e = .assertionError ∨ e = .invalidNamespace) ∧ ∃ p ∈ A, p.1 ≠ .null := by
  induction A generalizing m with
  | nil => simp at hp
  | cons p r ih =>
    rw [List.foldlM_cons] at hp
    rcases bind_eq_error.1 hp with g | ⟨m1, g1, g2⟩
    · exact ⟨(h.place_error g).1, p, by simp, (h.place_error g).2⟩
    · obtain ⟨h1, q, hq, h2⟩ := ih (h.place g1).1 g2
      exact ⟨h1, q, by simp [hq], h2⟩

/-- the OpenID namespace of a query: the one declared, or OpenID 1 -/
theorem fromOpenIDArgs_has {reg O : Dict Str Str} (hO : Dict.WF O) {m : Msg} (h : fromOpenIDArgs reg O = .ok m) :
    Has m ((O.get? t!"ns").getD OPENID1_NS) ∧
    ∀ k, '.' ∉ k → k ≠ t!"ns" → m.getArg .openid k = .ok (O.get? k) := by
  rw [fromOpenIDArgs] at h
  obtain ⟨m0, h0, h⟩ := bind_eq_ok.1 h
  obtain ⟨nss, h1, h2⟩ := bind_eq_ok.1 h
  rw [collect_ns O hO] at h0
  simp only [Option.or_none] at h0
  obtain ⟨g1, g2⟩ := startMsg_ok h0
  obtain ⟨g3, g4⟩ := (g1.declare h1).placeAll h2
  refine ⟨g3, fun k hk hn => ?_⟩
  have hns := g3.ns
  rw [Msg.getArg, Msg.fixNS]
  simp only [Msg.getOpenIDNamespace, getNamespaceURI, hns, ok_bind, pure_eq_ok, Except.ok.injEq]
  rw [g4 k hk, collect_get O hO _ k hk hn, g2]
  simp [lastNull]

theorem fromOpenIDArgs_error {reg O : Dict Str Str} (hO : Dict.WF O) {e : PyErr} (h : fromOpenIDArgs reg O = .error e) :
    (e = .invalidOpenIDNamespace ∧ ∃ u, O.get? t!"ns" = some u ∧ u ∉ [OPENID1_NS, THE_OTHER_OPENID1_NS, OPENID2_NS]) ∨
    ((∀ u, O.get? t!"ns" = some u → u ∈ [OPENID1_NS, THE_OTHER_OPENID1_NS, OPENID2_NS]) ∧
      (e = .assertionError ∨ e = .invalidNamespace) ∧ ∃ k ∈ Dict.keys O, '.' ∈ k) := by
  have hdot : ∀ (c : Collected) (O : List (Str × Str)), (∀ k ∈ Dict.keys O, '.' ∉ k) →
      (O.foldl collectStep c).namespaces = c.namespaces ∧
      ∀ p ∈ (O.foldl collectStep c).args, p ∈ c.args ∨ p.1 = .null := by
    intro c O
    induction O generalizing c with
    | nil => intro _; exact ⟨rfl, fun p hp => .inl hp⟩
    | cons p r ih =>
      intro hd
      obtain ⟨k, v⟩ := p
      have hk : cut '.' k = none := by
        cases hc : cut '.' k with
        | none => rfl
        | some ab =>
          obtain ⟨a, b⟩ := ab
          exfalso
          apply hd k (by simp [Dict.keys])
          rw [cut_some_eq hc]; simp
      rw [List.foldl_cons]
      obtain ⟨i1, i2⟩ := ih (collectStep c (k, v)) (fun k' hk' => hd k' (by simp [Dict.keys] at hk' ⊢; grind))
      simp only [collectStep, hk] at i1 i2 ⊢
      split
      · next hn =>
        rw [if_pos hn] at i1 i2
        exact ⟨i1, i2⟩
      · next hn =>
        rw [if_neg hn] at i1 i2
        refine ⟨i1, fun p hp => ?_⟩
        rcases i2 p hp with h | h
        · simp at h; rcases h with h | h
          · exact .inl h
          · subst h; exact .inr rfl
        · exact .inr h
  rw [fromOpenIDArgs] at h
  rw [collect_ns O hO] at h
  simp only [Option.or_none] at h
  rcases bind_eq_error.1 h with h | ⟨m0, h0, h⟩
  · exact .inl (startMsg_error h)
  · right
    have hgood : ∀ u, O.get? t!"ns" = some u → u ∈ [OPENID1_NS, THE_OTHER_OPENID1_NS, OPENID2_NS] := by
      intro u hu
      have := (startMsg_ok h0).1
      rw [hu] at this
      exact this.inv.oid _ this.ns
    refine ⟨hgood, ?_⟩
    by_cases hd : ∀ k ∈ Dict.keys O, '.' ∉ k
    · obtain ⟨n1, n2⟩ := hdot {} O hd
      rcases bind_eq_error.1 h with h | ⟨nss, h1, h2⟩
      · rw [n1] at h; simp at h
      · obtain ⟨-, p, hp, hp2⟩ := ((startMsg_ok h0).1.declare h1).placeAll_error h2
        rcases n2 p hp with h | h
        · simp at h
        · exact absurd h hp2
    · refine ⟨?_, by simpa using hd⟩
      rcases bind_eq_error.1 h with h | ⟨nss, h1, h2⟩
      · exact Has.declare_error h
      · exact (((startMsg_ok h0).1.declare h1).placeAll_error h2).1

theorem bare_get (B : Dict Str Str) (d : Dict (NsKey × Str) Str) (u k : Str) :
    (B.foldl (fun a p => a.set (NsKey.bare, p.1) p.2) d).get? (.uri u, k) = d.get? (.uri u, k) := by
  induction B generalizing d with
  | nil => rfl
  | cons p r ih => rw [List.foldl_cons, ih, Dict.get?_set]; simp

/-- A query that parses: its OpenID namespace, and the plain arguments in it. -/
theorem fromPostArgs_has {reg q : Dict Str Str} (hq : Dict.WF q) {m : Msg} (h : fromPostArgs reg q = .ok m) :
    Has m ((q.get? t!"openid.ns").getD OPENID1_NS) ∧
    ∀ k, '.' ∉ k → k ≠ t!"ns" → m.getArg .openid k = .ok (q.get? (t!"openid." ++ k)) := by
  have hi := minv_fromPostArgs _ _ _ h
  rw [fromPostArgs] at h
  have hO : Dict.WF (partitionArgs q).1 := by
    obtain ⟨O, B, e, h1, -⟩ := partitionArgs_spec q hq
    rw [e]; exact h1
  have hg : ∀ k, (partitionArgs q).1.get? k = q.get? (t!"openid." ++ k) := by
    intro k
    have := partition_get q hq [] [] k
    simpa [partitionArgs] using this
  obtain ⟨m1, h1, h2⟩ := bind_eq_ok.1 h
  simp only [pure_eq_ok, Except.ok.injEq] at h2
  obtain ⟨g1, g2⟩ := fromOpenIDArgs_has hO h1
  rw [hg] at g1
  have hns : m.namespaces = m1.namespaces := by rw [← h2]
  refine ⟨⟨hi, by rw [hns]; exact g1.ns⟩, fun k hk hn => ?_⟩
  rw [← hg, ← g2 k hk hn]
  simp only [Msg.getArg, Msg.fixNS, Msg.getOpenIDNamespace, hns]
  cases m1.namespaces.getNamespaceURI .null with
  | none => rfl
  | some u =>
    simp only [ok_bind, pure_eq_ok, Except.ok.injEq]
    rw [← h2]
    exact bare_get _ _ _ _

theorem fromPostArgs_error {reg q : Dict Str Str} (hq : Dict.WF q) {e : PyErr} (h : fromPostArgs reg q = .error e) :
    (e = .invalidOpenIDNamespace ∧
      ∃ u, q.get? t!"openid.ns" = some u ∧ u ∉ [OPENID1_NS, THE_OTHER_OPENID1_NS, OPENID2_NS]) ∨
    ((∀ u, q.get? t!"openid.ns" = some u → u ∈ [OPENID1_NS, THE_OTHER_OPENID1_NS, OPENID2_NS]) ∧
      (e = .assertionError ∨ e = .invalidNamespace) ∧ ∃ k ∈ Dict.keys q, 2 ≤ k.count '.') := by
  rw [fromPostArgs] at h
  have hO : Dict.WF (partitionArgs q).1 := by
    obtain ⟨O, B, e, h1, -⟩ := partitionArgs_spec q hq
    rw [e]; exact h1
  have hg : ∀ k, (partitionArgs q).1.get? k = q.get? (t!"openid." ++ k) := by
    intro k
    have := partition_get q hq [] [] k
    simpa [partitionArgs] using this
  rcases bind_eq_error.1 h with h | ⟨m1, h1, h2⟩
  · rcases fromOpenIDArgs_error hO h with h | ⟨h1, h2, k, h3, h4⟩
    · rw [hg] at h; exact .inl h
    · rw [hg] at h1
      refine .inr ⟨h1, h2, t!"openid." ++ k, ?_, ?_⟩
      · rw [Dict.mem_keys_iff] at h3 ⊢
        rw [← hg]; exact h3
      · have := List.count_pos_iff.2 h4
        rw [List.count_append]
        have : List.count '.' t!"openid." = 1 := by decide
        omega
  · simp at h2

end Message
