import Verif.Spec.Transport
import Verif.Lemmas.MessagePost
import Verif.Lemmas.MessageAbs
import Verif.Lemmas.MessageParse
/-! Sending a message: what is sent determines the arguments. -/

namespace Message
open Py NamespaceMap Spec

theorem mem_nsPairs_iff {nm : NamespaceMap} (hi : Inv nm) {K v : Str} :
    (K, v) ∈ nsPairs nm ↔ ∃ a, nm.nsToAlias.get? v = some a ∧ nsDefKey a = K ∧ nm.isImplicit v = false := by
  constructor
  · intro h
    obtain ⟨a, h1, h2, h3⟩ := mem_nsPairs h
    exact ⟨a, Dict.get?_of_mem _ hi.wfN _ _ h1, h2, h3⟩
  · rintro ⟨a, h1, h2, h3⟩
    refine List.mem_filterMap.2 ⟨(v, a), Dict.get?_mem _ _ _ h1, ?_⟩
    simp [h3, h2]

theorem mem_argPairs_iff {m : Msg} (hm : MInv m) {K v : Str} :
    (K, v) ∈ argPairs m ↔ ∃ n k, m.args.get? (n, k) = some v ∧ m.keyOf n k = some K := by
  rw [mem_argPairs]
  constructor
  · rintro ⟨n, k, h1, h2⟩; exact ⟨n, k, Dict.get?_of_mem _ hm.wf _ _ h1, h2⟩
  · rintro ⟨n, k, h1, h2⟩; exact ⟨n, k, Dict.get?_mem _ _ _ h1, h2⟩

/-- the conditions of `Sendable` on the dictionary of arguments -/
structure Raw (reg : Dict Str Str) (m : Msg) (oid : Str) : Prop where
  inv : MInv m
  version : m.namespaces.aliasToNs.get? .null = some oid
  undeclared : m.namespaces.isImplicit oid = true → oid = OPENID1_NS
  plain : ∀ k v, m.args.get? (.uri oid, k) = some v → '.' ∉ k ∧ k ≠ t!"ns"
  bare : ∀ k v, m.args.get? (.bare, k) = some v → startsWith k t!"openid." = false
  implied : ∀ uri k v, uri ≠ oid → m.args.get? (.uri uri, k) = some v → m.namespaces.isImplicit uri = true →
    m.isOpenID1 = true ∧ ∃ a, m.namespaces.nsToAlias.get? uri = some (.name a) ∧ reg.get? a = some uri
  noSreg : m.namespaces.nsToAlias.get? t!"sreg" = none

theorem raw_of {reg : Dict Str Str} {m : Msg} {oid : Str} (hm : MInv m) (h : Sendable reg m oid) : Raw reg m oid := by
  have hu : ∀ u k v, m.args.get? (.uri u, k) = some v → m.getArg (.uri u) k = .ok (some v) := by
    intro u k v hk
    have hne : u ≠ t!"sreg" := by
      rintro rfl
      have := hm.known _ k ((Dict.mem_keys_iff _ _).2 (by rw [hk]; rfl))
      have h2 := h.noSreg
      rw [getAlias] at h2
      rw [h2] at this; cases this
    simp [Msg.getArg, Msg.fixNS, hne, hk]
  refine ⟨hm, h.version, h.undeclared, ?_, ?_, ?_, h.noSreg⟩
  · intro k v hk
    exact h.plain k v (by simp [Msg.getArg, Msg.fixNS, h.version, hk])
  · intro k v hk
    exact h.bare k v (by simp [Msg.getArg, Msg.fixNS, hk])
  · intro uri k v hne hk hi
    exact h.implied uri k v hne (hu _ _ _ hk) hi

/-- the ways a key that is sent can come about -/
inductive SentAs (m : Msg) (oid : Str) (K v : Str) : Prop where
  | version : K = t!"openid.ns" → v = oid → m.namespaces.isImplicit oid = false → SentAs m oid K v
  | decl (a : Str) : K = t!"openid.ns." ++ a → m.namespaces.aliasToNs.get? (.name a) = some v →
      m.namespaces.isImplicit v = false → SentAs m oid K v
  | bare : startsWith K t!"openid." = false → m.args.get? (.bare, K) = some v → SentAs m oid K v
  | plain (k : Str) : K = t!"openid." ++ k → '.' ∉ k → k ≠ t!"ns" → m.args.get? (.uri oid, k) = some v → SentAs m oid K v
  | ext (a u k : Str) : K = t!"openid." ++ (a ++ '.' :: k) → '.' ∉ a → a ≠ t!"ns" →
      m.namespaces.aliasToNs.get? (.name a) = some u → m.args.get? (.uri u, k) = some v → SentAs m oid K v

theorem ok_name {s : Str} (h : okAlias (.name s) = true) : '.' ∉ s ∧ s ≠ t!"ns" := by
  simp only [okAlias, Bool.and_eq_true, Bool.not_eq_true', List.contains_eq_mem, decide_eq_false_iff_not] at h
  refine ⟨h.2, ?_⟩
  rintro rfl
  exact h.1 (by decide)

theorem sentAs_iff {reg : Dict Str Str} {m : Msg} {oid : Str} (h : Raw reg m oid) (K v : Str) :
    (K, v) ∈ nsPairs m.namespaces ++ argPairs m ↔ SentAs m oid K v := by
  have hm := h.inv
  rw [List.mem_append, mem_nsPairs_iff hm.ns, mem_argPairs_iff hm]
  constructor
  · rintro (⟨a, h1, rfl, h3⟩ | ⟨n, k, h1, h2⟩)
    · rw [← hm.ns.bij] at h1
      cases a with
      | null =>
        rw [h.version] at h1
        obtain rfl : oid = v := by simpa using h1
        exact .version rfl rfl h3
      | name s => exact .decl s rfl h1 h3
    · cases n with
      | bare =>
        simp only [Msg.keyOf, Option.some.injEq] at h2
        subst h2
        exact .bare (h.bare _ _ h1) h1
      | uri u =>
        simp only [Msg.keyOf, getAlias] at h2
        cases hu : m.namespaces.nsToAlias.get? u with
        | none => rw [hu] at h2; cases h2
        | some a =>
          rw [hu] at h2
          rw [← hm.ns.bij] at hu
          cases a with
          | null =>
            simp only [Option.some.injEq] at h2
            rw [h.version] at hu
            obtain rfl : oid = u := by simpa using hu
            obtain ⟨g1, g2⟩ := h.plain _ _ h1
            exact .plain k h2.symm g1 g2 h1
          | name s =>
            simp only [Option.some.injEq] at h2
            obtain ⟨g1, g2⟩ := ok_name (hm.ns.ok _ _ hu)
            exact .ext s u k (by rw [← h2]; simp) g1 g2 hu h1
  · rintro (⟨rfl, rfl, h3⟩ | ⟨a, rfl, h2, h3⟩ | ⟨h1, h2⟩ | ⟨k, rfl, h2, h3, h4⟩ | ⟨a, u, k, rfl, h2, h3, h4, h5⟩)
    · exact .inl ⟨.null, (hm.ns.bij _ _).1 h.version, rfl, h3⟩
    · exact .inl ⟨.name a, (hm.ns.bij _ _).1 h2, rfl, h3⟩
    · exact .inr ⟨.bare, K, h2, rfl⟩
    · refine .inr ⟨.uri oid, k, h4, ?_⟩
      simp only [Msg.keyOf, getAlias, (hm.ns.bij _ _).1 h.version]
    · refine .inr ⟨.uri u, k, h5, ?_⟩
      simp only [Msg.keyOf, getAlias, (hm.ns.bij _ _).1 h4]
      simp

theorem dot_split {a b k l : Str} (ha : '.' ∉ a) (hb : '.' ∉ b) (h : a ++ '.' :: k = b ++ '.' :: l) : a = b ∧ k = l := by
  have h1 := cut_append '.' a k ha
  rw [h, cut_append '.' b l hb] at h1
  simp only [Option.some.injEq, Prod.mk.injEq] at h1
  exact ⟨h1.1.symm, h1.2.symm⟩

theorem nodot_ns : '.' ∉ t!"ns" := by decide

theorem pre_inj {a b : Str} (h : t!"openid." ++ a = t!"openid." ++ b) : a = b := List.append_cancel_left h

theorem not_pre {K s : Str} (h : startsWith K t!"openid." = false) (e : K = t!"openid." ++ s) : False := by
  rw [e, openid_prefix] at h; cases h

theorem sent_version {m : Msg} {oid v : Str} (h : SentAs m oid t!"openid.ns" v) :
    v = oid ∧ m.namespaces.isImplicit oid = false := by
  rcases h with ⟨-, h2, h3⟩ | ⟨a, h1, h2, h3⟩ | ⟨h1, h2⟩ | ⟨k, h1, h2, h3, h4⟩ | ⟨a, u, k, h1, h2, h3, h4, h5⟩
  · exact ⟨h2, h3⟩
  · have := pre_inj (a := t!"ns") (b := t!"ns." ++ a) h1
    exact absurd (congrArg List.length this) (by simp)
  · exact (not_pre (s := t!"ns") h1 rfl).elim
  · exact absurd (pre_inj (a := t!"ns") h1).symm h3
  · exact absurd (pre_inj (a := t!"ns") h1).symm (no_dot_eq nodot_ns)

theorem sent_decl {m : Msg} {oid v a : Str} (h : SentAs m oid (t!"openid.ns." ++ a) v) :
    m.namespaces.aliasToNs.get? (.name a) = some v ∧ m.namespaces.isImplicit v = false := by
  have e : ∀ a : Str, (t!"openid.ns." ++ a : Str) = t!"openid." ++ (t!"ns" ++ '.' :: a) := fun a => rfl
  rw [e] at h
  rcases h with ⟨h1, h2, h3⟩ | ⟨b, h1, h2, h3⟩ | ⟨h1, h2⟩ | ⟨k, h1, h2, h3, h4⟩ | ⟨b, u, k, h1, h2, h3, h4, h5⟩
  · exact absurd (pre_inj (b := t!"ns") h1) (no_dot_eq nodot_ns)
  · rw [e] at h1
    obtain ⟨-, rfl⟩ := dot_split nodot_ns nodot_ns (pre_inj h1)
    exact ⟨h2, h3⟩
  · exact (not_pre h1 rfl).elim
  · exact absurd (pre_inj h1) (no_dot_eq h2)
  · obtain ⟨rfl, -⟩ := dot_split nodot_ns h2 (pre_inj h1)
    exact absurd rfl h3

theorem sent_bare {m : Msg} {oid v K : Str} (hK : startsWith K t!"openid." = false) (h : SentAs m oid K v) :
    m.args.get? (.bare, K) = some v := by
  rcases h with ⟨h1, h2, h3⟩ | ⟨b, h1, h2, h3⟩ | ⟨h1, h2⟩ | ⟨k, h1, h2, h3, h4⟩ | ⟨b, u, k, h1, h2, h3, h4, h5⟩
  · exact (not_pre (s := t!"ns") hK h1).elim
  · exact (not_pre (s := t!"ns." ++ b) hK h1).elim
  · exact h2
  · exact (not_pre hK h1).elim
  · exact (not_pre hK h1).elim

theorem sent_plain {m : Msg} {oid v k : Str} (hk : '.' ∉ k) (hn : k ≠ t!"ns") (h : SentAs m oid (t!"openid." ++ k) v) :
    m.args.get? (.uri oid, k) = some v := by
  rcases h with ⟨h1, h2, h3⟩ | ⟨b, h1, h2, h3⟩ | ⟨h1, h2⟩ | ⟨k', h1, h2, h3, h4⟩ | ⟨b, u, k', h1, h2, h3, h4, h5⟩
  · exact absurd (pre_inj (b := t!"ns") h1) hn
  · exact absurd (pre_inj (b := t!"ns" ++ '.' :: b) h1).symm (no_dot_eq hk)
  · exact (not_pre h1 rfl).elim
  · rw [pre_inj h1]; exact h4
  · exact absurd (pre_inj h1).symm (no_dot_eq hk)

theorem sent_ext {m : Msg} {oid v a k : Str} (ha : '.' ∉ a) (hn : a ≠ t!"ns")
    (h : SentAs m oid (t!"openid." ++ (a ++ '.' :: k)) v) :
    ∃ u, m.namespaces.aliasToNs.get? (.name a) = some u ∧ m.args.get? (.uri u, k) = some v := by
  rcases h with ⟨h1, h2, h3⟩ | ⟨b, h1, h2, h3⟩ | ⟨h1, h2⟩ | ⟨k', h1, h2, h3, h4⟩ | ⟨b, u, k', h1, h2, h3, h4, h5⟩
  · exact absurd (pre_inj (b := t!"ns") h1) (no_dot_eq nodot_ns)
  · obtain ⟨e, -⟩ := dot_split ha nodot_ns (pre_inj (b := t!"ns" ++ '.' :: b) h1)
    exact absurd e hn
  · exact (not_pre h1 rfl).elim
  · exact absurd (pre_inj h1) (no_dot_eq h2)
  · obtain ⟨rfl, rfl⟩ := dot_split ha h2 (pre_inj h1)
    exact ⟨u, h4, h5⟩

theorem sentAs_fun {m : Msg} {oid : Str} {K v v' : Str} (h : SentAs m oid K v) (h' : SentAs m oid K v') : v = v' := by
  rcases h with ⟨rfl, rfl, h3⟩ | ⟨a, rfl, h2, h3⟩ | ⟨h1, h2⟩ | ⟨k, rfl, h2, h3, h4⟩ | ⟨a, u, k, rfl, h2, h3, h4, h5⟩
  · exact (sent_version h').1.symm
  · have := (sent_decl h').1; rw [h2] at this; simpa using this
  · have := sent_bare h1 h'; rw [h2] at this; simpa using this
  · have := sent_plain h2 h3 h'; rw [h4] at this; simpa using this
  · obtain ⟨w, g1, g2⟩ := sent_ext h2 h3 h'
    rw [h4] at g1
    obtain rfl : u = w := by simpa using g1
    rw [h5] at g2; simpa using g2

/-- what is sent, exactly -/
theorem post_iff {reg : Dict Str Str} {m : Msg} {oid : Str} (h : Raw reg m oid) (K v : Str) :
    m.toPostArgs.get? K = some v ↔ SentAs m oid K v := by
  have hc : ∀ o, (∀ v, SentAs m oid K v ↔ o = some v) → m.toPostArgs.get? K = o := by
    intro o ho
    rw [toPostArgs_eq]
    apply ofPairs_get_of
    intro v
    rw [sentAs_iff h, ho]
  by_cases hex : ∃ w, SentAs m oid K w
  · obtain ⟨w, hw⟩ := hex
    have hv : ∀ v, SentAs m oid K v ↔ some w = some v :=
      fun v => ⟨fun hv => by rw [sentAs_fun hw hv], fun e => by simp at e; subst e; exact hw⟩
    rw [hc (some w) hv, hv]
  · have hv : ∀ v, SentAs m oid K v ↔ none = some v :=
      fun v => ⟨fun hv => absurd ⟨v, hv⟩ hex, fun e => by simp at e⟩
    rw [hc none hv, hv]

/-! ### Parsing it -/

/-- an argument as `collectStep` sees it -/
def argOf (p : Str × Str) : Option (Alias × Str × Str) :=
  match cut '.' p.1 with
  | none => if p.1 = t!"ns" then none else some (.null, p.1, p.2)
  | some (a, k) => if a = t!"ns" then none else some (.name a, k, p.2)

theorem mem_collect (O : List (Str × Str)) (c : Collected) (q : Alias × Str × Str) :
    q ∈ (O.foldl collectStep c).args ↔ q ∈ c.args ∨ ∃ p ∈ O, argOf p = some q := by
  induction O generalizing c with
  | nil => simp
  | cons p r ih =>
    rw [List.foldl_cons, ih]
    have : q ∈ (collectStep c p).args ↔ q ∈ c.args ∨ argOf p = some q := by
      rw [collectStep, argOf]
      cases cut '.' p.1 with
      | none =>
        simp only
        split
        · simp
        · simp [eq_comm]
      | some x =>
        simp only
        split
        · simp
        · simp [eq_comm]
    rw [this]
    simp only [List.mem_cons, exists_eq_or_imp]
    rw [or_assoc]

theorem collect_namespaces (O : List (Str × Str)) (hO : Dict.WF O) (c : Collected) (a : Str) :
    (O.foldl collectStep c).namespaces.get? a = (Dict.get? O (t!"ns." ++ a)).or (c.namespaces.get? a) := by
  induction O generalizing c with
  | nil => simp
  | cons p r ih =>
    obtain ⟨key, v⟩ := p
    obtain ⟨h1, h2⟩ := List.nodup_cons.1 hO
    rw [List.foldl_cons, Dict.get?_cons, ih h2]
    have e : (t!"ns." ++ a : Str) = t!"ns" ++ '.' :: a := rfl
    by_cases hk : key = t!"ns." ++ a
    · rw [if_pos hk]
      have hc : cut '.' key = some (t!"ns", a) := by rw [hk, e]; exact cut_append _ _ _ nodot_ns
      have hnone : Dict.get? r (t!"ns." ++ a) = none := by rw [Dict.get?_none_iff, ← hk]; exact h1
      rw [hnone, collectStep]
      simp only [hc]
      simp [Dict.get?_set]
    · rw [if_neg hk]
      congr 1
      rw [collectStep]
      split
      · split <;> rfl
      · next b k hc =>
        simp only at hc
        split
        · next hb =>
          simp only [Dict.get?_set]
          rw [if_neg]
          rintro rfl
          apply hk
          rw [cut_some_eq hc, hb]; rfl
        · rfl

/-- a namespace map that agrees with another one -/
structure Agrees (nm big : NamespaceMap) (oid : Str) : Prop where
  inv : Inv nm
  ver : nm.aliasToNs.get? .null = some oid
  sub : ∀ a u, nm.aliasToNs.get? a = some u → big.aliasToNs.get? a = some u

theorem Agrees.add {nm big : NamespaceMap} {oid u : Str} {a : Alias} (h : Agrees nm big oid) (hb : Inv big)
    (ha : big.aliasToNs.get? a = some u) (hu : nm.nsToAlias.get? u = none) (i : Bool) :
    ∃ nm', nm.addAlias u a i = .ok nm' ∧ Agrees nm' big oid ∧ nm'.aliasToNs.get? a = some u ∧
      (∀ b w, nm.aliasToNs.get? b = some w → nm'.aliasToNs.get? b = some w) ∧
      nm'.implicit = if i then nm.implicit ++ [u] else nm.implicit := by
  have hn : nm.aliasToNs.get? a = none := by
    cases hx : nm.aliasToNs.get? a with
    | none => rfl
    | some w =>
      have := h.sub _ _ hx
      rw [ha] at this
      obtain rfl : u = w := by simpa using this
      rw [h.inv.bij, hu] at hx; cases hx
  have hi : u ∉ nm.implicit := fun hm => by have := h.inv.imp u hm; rw [hu] at this; cases this
  have hadd := addAlias_of nm u a i (hb.ok _ _ ha) (.inl hn) (.inl hu) hi
  refine ⟨_, hadd, ⟨inv_addAlias _ h.inv _ _ _ _ hadd, ?_, ?_⟩, ?_, ?_, rfl⟩
  · exact (addAlias_keeps _ _ _ _ _ hadd).1 _ _ h.ver
  · intro b w hbw
    simp only [Dict.get?_set] at hbw
    split at hbw
    · next e => subst e; cases hbw; exact ha
    · exact h.sub _ _ hbw
  · simp [Dict.get?_set]
  · exact (addAlias_keeps _ _ _ _ _ hadd).1

theorem declare_all (N : List (Str × Str)) {nm big : NamespaceMap} {oid : Str} (hb : Inv big)
    (hN : ∀ p ∈ N, big.aliasToNs.get? (.name p.1) = some p.2) (hw : Dict.WF N)
    (hf : ∀ p ∈ N, nm.nsToAlias.get? p.2 = none) (h : Agrees nm big oid) :
    ∃ nm', N.foldlM (fun n p => NamespaceMap.addAlias n p.2 (.name p.1)) nm = .ok nm' ∧ Agrees nm' big oid ∧
      (∀ p ∈ N, nm'.aliasToNs.get? (.name p.1) = some p.2) ∧
      (∀ b w, nm.aliasToNs.get? b = some w → nm'.aliasToNs.get? b = some w) ∧ nm'.implicit = nm.implicit := by
  induction N generalizing nm with
  | nil => exact ⟨nm, rfl, h, by simp, fun _ _ h => h, rfl⟩
  | cons p r ih =>
    obtain ⟨w1, w2⟩ := List.nodup_cons.1 hw
    obtain ⟨nm1, e1, e2, e3, e4, e5⟩ := h.add hb (hN p (by simp)) (hf p (by simp)) false
    obtain ⟨nm', g1, g2, g3, g4, g5⟩ := ih (fun q hq => hN q (by simp [hq])) w2 (by
      intro q hq
      cases hx : nm1.nsToAlias.get? q.2 with
      | none => rfl
      | some b =>
        exfalso
        rw [← e2.inv.bij] at hx
        have h1 := (hb.bij _ _).1 (e2.sub _ _ hx)
        have h2 := (hb.bij _ _).1 (hN q (by simp [hq]))
        rw [h1] at h2
        obtain rfl : b = .name q.1 := by simpa using h2
        have h3 := e2.inv.bij (.name q.1) q.2
        obtain ⟨-, -, -, -, k5⟩ := addAlias_ok _ _ _ _ _ e1
        rw [k5] at hx
        simp only [Dict.get?_set] at hx
        have hne : p.1 ≠ q.1 := fun e => w1 (by simp only; rw [e]; exact List.mem_map_of_mem (f := fun x : Str × Str => x.1) hq)
        rw [if_neg (by simpa using hne), h.inv.bij, hf q (by simp [hq])] at hx
        cases hx) e2
    refine ⟨nm', by rw [List.foldlM_cons, e1]; exact g1, g2, ?_, fun b w hbw => g4 _ _ (e4 _ _ hbw), by rw [g5, e5]; rfl⟩
    intro q hq
    rcases List.mem_cons.1 hq with rfl | hq
    · exact g4 _ _ e3
    · exact g3 q hq

/-- a message parsed so far, on the way to one with the arguments of another -/
structure Towards (m' m : Msg) (oid : Str) : Prop where
  inv : MInv m'
  names : Agrees m'.namespaces m.namespaces oid
  args : ∀ key v, m'.args.get? key = some v → m.args.get? key = some v

theorem place_all {reg : Dict Str Str} {m : Msg} {oid : Str} (h : Raw reg m oid) (A : List (Alias × Str × Str))
    (m0 : Msg) (h0 : Towards m0 m oid)
    (hA : ∀ p ∈ A, ∃ u, m.namespaces.aliasToNs.get? p.1 = some u ∧ m.args.get? (.uri u, p.2.1) = some p.2.2 ∧
      (m.namespaces.isImplicit u = false → m0.namespaces.aliasToNs.get? p.1 = some u)) :
    ∃ m', A.foldlM (placeArg reg) m0 = .ok m' ∧ Towards m' m oid ∧
      (∀ p ∈ A, ∃ u, m'.namespaces.aliasToNs.get? p.1 = some u ∧ m'.args.get? (.uri u, p.2.1) = some p.2.2) ∧
      (∀ b w, m0.namespaces.aliasToNs.get? b = some w → m'.namespaces.aliasToNs.get? b = some w) ∧
      (∀ key v, m0.args.get? key = some v → m'.args.get? key = some v) := by
  induction A generalizing m0 with
  | nil => exact ⟨m0, rfl, h0, by simp, fun _ _ h => h, fun _ _ h => h⟩
  | cons p r ih =>
    obtain ⟨a, k, v⟩ := p
    obtain ⟨u, hu, hk, himp⟩ := hA _ (List.mem_cons_self)
    simp only at hu hk himp
    have hsr : u ≠ t!"sreg" := by
      rintro rfl
      rw [h.inv.ns.bij, h.noSreg] at hu; cases hu
    -- storing the argument in a message that has the alias
    have hset : ∀ m1 : Msg, Towards m1 m oid → m1.namespaces.aliasToNs.get? a = some u →
        ∃ m2, m1.setArg (.uri u) k v = .ok m2 ∧ Towards m2 m oid ∧ m2.namespaces = m1.namespaces ∧
          m2.args = m1.args.set (.uri u, k) v := by
      intro m1 t1 ha1
      have hfix : m1.fixNS (.uri u) = .ok (.uri u) := by simp [Msg.fixNS, hsr]
      obtain ⟨m2, e1, e2, e3, -, -, -, e7⟩ := setArg_ok m1 t1.inv (.uri u) k v _ hfix
      have hns := e7 u rfl (by rw [(t1.inv.ns.bij _ _).1 ha1]; rfl)
      refine ⟨m2, e1, ⟨e3, by rw [hns]; exact t1.names, ?_⟩, hns, e2⟩
      intro key w hw
      rw [e2, Dict.get?_set] at hw
      split at hw
      · next e => subst e; cases hw; exact hk
      · exact t1.args _ _ hw
    have hstep : ∃ m2, placeArg reg m0 (a, k, v) = .ok m2 ∧ Towards m2 m oid ∧
        m2.namespaces.aliasToNs.get? a = some u ∧ m2.args = m0.args.set (.uri u, k) v ∧
        (∀ b w, m0.namespaces.aliasToNs.get? b = some w → m2.namespaces.aliasToNs.get? b = some w) := by
      simp only [placeArg, getNamespaceURI]
      cases hx : m0.namespaces.aliasToNs.get? a with
      | some w =>
        have := h0.names.sub _ _ hx
        rw [hu] at this
        obtain rfl : u = w := by simpa using this
        obtain ⟨m2, e1, e2, e3, e4⟩ := hset m0 h0 hx
        exact ⟨m2, e1, e2, by rw [e3]; exact hx, e4, fun b w hb => by rw [e3]; exact hb⟩
      | none =>
        have hi : m.namespaces.isImplicit u = true := by
          cases hi : m.namespaces.isImplicit u with
          | true => rfl
          | false => rw [himp hi] at hx; cases hx
        cases a with
        | null => rw [h0.names.ver] at hx; cases hx
        | name s =>
          have hne : u ≠ oid := by
            rintro rfl
            have h1 := (h.inv.ns.bij _ _).1 hu
            rw [(h.inv.ns.bij _ _).1 h.version] at h1; cases h1
          obtain ⟨ho1, s', hs', hreg⟩ := h.implied u k v hne hk hi
          rw [(h.inv.ns.bij _ _).1 hu] at hs'
          obtain rfl : s = s' := by simpa using hs'
          have hoid : m0.getOpenIDNamespace = m.getOpenIDNamespace := by
            rw [Msg.getOpenIDNamespace, Msg.getOpenIDNamespace, getNamespaceURI, getNamespaceURI, h0.names.ver, h.version]
          have ho : m0.isOpenID1 = true := by rw [Msg.isOpenID1, hoid]; exact ho1
          have hun : m0.namespaces.nsToAlias.get? u = none := by
            cases hy : m0.namespaces.nsToAlias.get? u with
            | none => rfl
            | some b =>
              rw [← h0.inv.ns.bij] at hy
              have h1 := (h.inv.ns.bij _ _).1 (h0.names.sub _ _ hy)
              rw [(h.inv.ns.bij _ _).1 hu] at h1
              obtain rfl : Alias.name s = b := by simpa using h1
              rw [hx] at hy; cases hy
          obtain ⟨nm1, e1, e2, e3, e4, -⟩ := h0.names.add h.inv.ns hu hun true
          have ht : Towards { m0 with namespaces := nm1 } m oid := ⟨minv_addAlias m0 h0.inv _ _ _ _ e1, e2, h0.args⟩
          obtain ⟨m2, f1, f2, f3, f4⟩ := hset _ ht e3
          refine ⟨m2, ?_, f2, by rw [f3]; exact e3, f4, fun b w hb => by rw [f3]; exact e4 _ _ hb⟩
          simp only [Msg.getDefaultNamespace, ho, if_true, hreg, e1, ok_bind]
          exact f1
    obtain ⟨m2, e1, e2, e3, e4, e5⟩ := hstep
    obtain ⟨m', g1, g2, g3, g4, g5⟩ := ih m2 e2 (fun p hp => by
      obtain ⟨w, k1, k2, k3⟩ := hA p (by simp [hp])
      exact ⟨w, k1, k2, fun hi => e5 _ _ (k3 hi)⟩)
    have hkeep : ∀ key w, m0.args.get? key = some w → m2.args.get? key = some w := by
      intro key w hw
      rw [e4, Dict.get?_set]
      split
      · next e =>
        subst e
        have := h0.args _ _ hw
        rw [hk] at this; exact this
      · exact hw
    refine ⟨m', by rw [List.foldlM_cons, e1]; exact g1, g2, ?_, fun b w hb => g4 _ _ (e5 _ _ hb),
      fun key w hw => g5 _ _ (hkeep _ _ hw)⟩
    intro p hp
    rcases List.mem_cons.1 hp with rfl | hp
    · exact ⟨u, g4 _ _ e3, g5 _ _ (by rw [e4, Dict.get?_set]; simp)⟩
    · exact g3 p hp

theorem start_agrees {m : Msg} {oid : Str} (hm : MInv m) (ho : m.namespaces.aliasToNs.get? .null = some oid)
    (i : Bool) : ∃ m0, Msg.new (some oid) (some i) = .ok m0 ∧ Towards m0 m oid ∧
      (∀ u, (m0.namespaces.nsToAlias.get? u).isSome = true → u = oid) := by
  have hmem := hm.oid _ ho
  obtain ⟨nm, hnm⟩ : ∃ nm : NamespaceMap, nm = ⟨[(.null, oid)], [(oid, .null)], if i then [] ++ [oid] else []⟩ := ⟨_, rfl⟩
  have hadd : ({} : NamespaceMap).addAlias oid .null i = .ok nm := by
    rw [hnm]; exact addAlias_of {} oid .null i rfl (.inl rfl) (.inl rfl) (by simp)
  have hnew : Msg.new (some oid) (some i) = .ok { namespaces := nm } := by
    simp only [Msg.new, Msg.setOpenIDNamespace]
    rw [if_pos (by simpa using hmem), hadd]
    rfl
  refine ⟨_, hnew, ⟨minv_new _ _ _ hnew, ⟨inv_addAlias _ inv_empty _ _ _ _ hadd, by rw [hnm]; rfl, ?_⟩, by simp⟩, ?_⟩
  · intro a u hu
    rw [hnm, Dict.get?_cons] at hu
    split at hu
    · next e => subst e; cases hu; exact ho
    · simp at hu
  · intro u hu
    rw [hnm, Dict.get?_cons] at hu
    split at hu
    · next e => exact e.symm
    · simp at hu

/-- Whoever gets what is sent of such a message, in whatever order, has the arguments of the message. -/
theorem transport {reg : Dict Str Str} {m : Msg} {oid : Str} (h : Raw reg m oid) {q : Dict Str Str} (hq : Dict.WF q)
    (hs : ∀ k, q.get? (t!"openid." ++ k) = m.toPostArgs.get? (t!"openid." ++ k)) :
    ∃ m', fromPostArgs reg q = .ok m' ∧ MInv m' ∧ Agrees m'.namespaces m.namespaces oid ∧
      (∀ u k, m'.args.get? (.uri u, k) = m.args.get? (.uri u, k)) ∧
      (∀ a u, m.namespaces.aliasToNs.get? a = some u → m.namespaces.isImplicit u = false →
        m'.namespaces.aliasToNs.get? a = some u) := by
  obtain ⟨O, B, hp, hO, hB, -, -⟩ := partitionArgs_spec q hq
  have hOg : ∀ k v, O.get? k = some v ↔ SentAs m oid (t!"openid." ++ k) v := by
    intro k v
    have := partition_get q hq [] [] k
    rw [show q.foldl partitionStep ([], []) = (O, B) from hp] at this
    simp only [Dict.get?_nil, Option.or_none] at this
    rw [this, hs, post_iff h]
  -- the version
  have hns : O.get? t!"ns" = if m.namespaces.isImplicit oid then none else some oid := by
    cases hi : m.namespaces.isImplicit oid with
    | false => exact (hOg _ _).2 (.version rfl rfl hi)
    | true =>
      cases hx : O.get? t!"ns" with
      | none => rfl
      | some v =>
        have := (sent_version ((hOg _ _).1 hx)).2
        rw [hi] at this; cases this
  have hstart : ∃ m0, startMsg (O.get? t!"ns") = .ok m0 ∧ Towards m0 m oid ∧
      (∀ u, (m0.namespaces.nsToAlias.get? u).isSome = true → u = oid) := by
    rw [hns]
    cases hi : m.namespaces.isImplicit oid with
    | false => exact start_agrees h.inv h.version false
    | true =>
      have e := h.undeclared hi
      obtain ⟨m0, e1, e2, e3⟩ := start_agrees h.inv h.version true
      refine ⟨m0, ?_, e2, e3⟩
      rw [e] at e1; exact e1
  obtain ⟨m0, s1, s2, s3⟩ := hstart
  -- the declarations
  have hN : ∀ a, (O.foldl collectStep {}).namespaces.get? a = O.get? (t!"ns." ++ a) := by
    intro a; rw [collect_namespaces O hO]; simp
  have hNw : Dict.WF (O.foldl collectStep {}).namespaces := collect_wf O {} Dict.WF_nil
  have hNm : ∀ p ∈ (O.foldl collectStep {}).namespaces, m.namespaces.aliasToNs.get? (.name p.1) = some p.2 := by
    intro p hp
    have := Dict.get?_of_mem _ hNw p.1 p.2 hp
    rw [hN, hOg] at this
    exact (sent_decl this).1
  obtain ⟨nm, d1, d2, d3, d4, d5⟩ := declare_all _ h.inv.ns hNm hNw (by
    intro p hp
    cases hx : m0.namespaces.nsToAlias.get? p.2 with
    | none => rfl
    | some b =>
      have e := s3 p.2 (by rw [hx]; rfl)
      have h1 := (h.inv.ns.bij _ _).1 (hNm p hp)
      rw [e, (h.inv.ns.bij _ _).1 h.version] at h1; cases h1) s2.names
  have t0 : Towards { m0 with namespaces := nm } m oid := by
    refine ⟨⟨d2.inv, s2.inv.wf, ?_, ?_⟩, d2, s2.args⟩
    · intro u k hk
      obtain ⟨b, hb⟩ := Option.isSome_iff_exists.1 (s2.inv.known u k hk)
      rw [← s2.inv.ns.bij] at hb
      rw [(d2.inv.bij _ _).1 (d4 _ _ hb)]; rfl
    · intro u hu
      exact h.inv.oid u (d2.sub _ _ hu)
  -- the arguments
  obtain ⟨m', p1, p2, p3, p4, p5⟩ := place_all h (O.foldl collectStep {}).args _ t0 (by
    intro p hp
    obtain ⟨x, hx, hx2⟩ := ((mem_collect O {} p).1 hp).resolve_left (by simp)
    obtain ⟨key, v⟩ := x
    have hg := (hOg key v).1 (Dict.get?_of_mem _ hO _ _ hx)
    simp only [argOf] at hx2
    cases hc : cut '.' key with
    | none =>
      rw [hc] at hx2
      simp only at hx2
      split at hx2
      · cases hx2
      · next hne =>
        simp only [Option.some.injEq] at hx2
        subst hx2
        exact ⟨oid, h.version, sent_plain ((cut_eq_none_iff _ _).1 hc) hne hg, fun _ => d4 _ _ s2.names.ver⟩
    | some y =>
      obtain ⟨a, k⟩ := y
      rw [hc] at hx2
      simp only at hx2
      split at hx2
      · cases hx2
      · next hne =>
        simp only [Option.some.injEq] at hx2
        subst hx2
        obtain ⟨e1, e2⟩ := (cut_eq_some_iff _ _ _ _).1 hc
        rw [e1] at hg
        obtain ⟨u, g1, g2⟩ := sent_ext e2 hne hg
        refine ⟨u, g1, g2, fun hi => ?_⟩
        have hdecl : O.get? (t!"ns." ++ a) = some u := (hOg _ _).2 (.decl a rfl g1 hi)
        rw [← hN] at hdecl
        exact d3 _ (Dict.get?_mem _ _ _ hdecl))
  have hpost : fromPostArgs reg q =
      .ok { m' with args := B.foldl (fun a p => a.set (NsKey.bare, p.1) p.2) m'.args } := by
    rw [fromPostArgs, hp]
    simp only [fromOpenIDArgs]
    rw [collect_ns O hO]
    simp only [Option.or_none, s1, ok_bind]
    rw [d1]
    simp only [ok_bind]
    rw [p1]
    rfl
  refine ⟨_, hpost, minv_fromPostArgs _ _ _ hpost, p2.names, ?_, ?_⟩
  · intro u k
    simp only
    rw [bare_get]
    cases hx : m'.args.get? (.uri u, k) with
    | some v => exact (p2.args _ _ hx).symm
    | none =>
      cases hy : m.args.get? (.uri u, k) with
      | none => rfl
      | some v =>
        exfalso
        obtain ⟨b, hb⟩ := Option.isSome_iff_exists.1 (h.inv.known u k ((Dict.mem_keys_iff _ _).2 (by rw [hy]; rfl)))
        rw [← h.inv.ns.bij] at hb
        have hin : (b, k, v) ∈ (O.foldl collectStep {}).args := by
          rw [mem_collect]
          right
          cases b with
          | null =>
            rw [h.version] at hb
            obtain rfl : oid = u := by simpa using hb
            obtain ⟨g1, g2⟩ := h.plain _ _ hy
            refine ⟨(k, v), Dict.get?_mem _ _ _ ((hOg _ _).2 (.plain k rfl g1 g2 hy)), ?_⟩
            simp only [argOf, (cut_eq_none_iff _ _).2 g1]
            rw [if_neg g2]
          | name a =>
            obtain ⟨g1, g2⟩ := ok_name (h.inv.ns.ok _ _ hb)
            refine ⟨(a ++ '.' :: k, v), Dict.get?_mem _ _ _ ((hOg _ _).2 (.ext a u k rfl g1 g2 hb hy)), ?_⟩
            simp only [argOf, cut_append _ _ _ g1]
            rw [if_neg g2]
        obtain ⟨w, k1, k2⟩ := p3 _ hin
        simp only at k1 k2
        have := p2.names.sub _ _ k1
        rw [hb] at this
        obtain rfl : u = w := by simpa using this
        rw [hx] at k2; cases k2
  · intro a u hau hi
    cases a with
    | null =>
      rw [h.version] at hau
      obtain rfl : oid = u := by simpa using hau
      exact p2.names.ver
    | name s =>
      have hdecl : O.get? (t!"ns." ++ s) = some u := (hOg _ _).2 (.decl s rfl hau hi)
      rw [← hN] at hdecl
      exact p4 _ _ (d3 _ (Dict.get?_mem _ _ _ hdecl))

/-! ### Extensions -/

theorem setArgs_known {u : Str} (hs : u ≠ t!"sreg") (kvs : List (Str × Str)) (m : Msg) (hm : MInv m)
    (hu : (m.namespaces.nsToAlias.get? u).isSome = true) (hw : Dict.WF kvs) :
    ∃ m', kvs.foldlM (fun m p => m.setArg (.uri u) p.1 p.2) m = .ok m' ∧ MInv m' ∧ m'.namespaces = m.namespaces ∧
      ∀ n k, m'.args.get? (n, k) = if n = .uri u then (Dict.get? kvs k).or (m.args.get? (n, k)) else m.args.get? (n, k) := by
  induction kvs generalizing m with
  | nil => exact ⟨m, rfl, hm, rfl, by simp⟩
  | cons p r ih =>
    obtain ⟨w1, w2⟩ := List.nodup_cons.1 hw
    obtain ⟨m1, e1, e2, e3, -, -, -, e7⟩ := setArg_ok m hm (.uri u) p.1 p.2 (.uri u) (by simp [Msg.fixNS, hs])
    have hns := e7 u rfl hu
    obtain ⟨m', g1, g2, g3, g4⟩ := ih m1 e3 (by rw [hns]; exact hu) w2
    refine ⟨m', by rw [List.foldlM_cons, e1]; exact g1, g2, by rw [g3, hns], ?_⟩
    intro n k
    rw [g4, e2, Dict.get?_set, Dict.get?_cons]
    by_cases hn : n = .uri u
    · subst hn
      simp only [if_true]
      by_cases hk : p.1 = k
      · subst hk
        rw [(Dict.get?_none_iff _ _).2 w1]; simp
      · simp [hk]
    · simp only [if_neg hn]
      rw [if_neg]
      intro e; cases e; exact hn rfl

theorem addExtension_fresh {m : Msg} (hm : MInv m) {uri alias : Str} {args : Dict Str Str} (hw : Dict.WF args)
    (hs : uri ≠ t!"sreg") (hal : okAlias (.name alias) = true) (hu : m.namespaces.nsToAlias.get? uri = none)
    (ha : m.namespaces.aliasToNs.get? (.name alias) = none) :
    ∃ m1, m.addExtension uri alias args = .ok m1 ∧ MInv m1 ∧
      m1.namespaces = { aliasToNs := m.namespaces.aliasToNs.set (.name alias) uri,
                        nsToAlias := m.namespaces.nsToAlias.set uri (.name alias),
                        implicit := if m.isOpenID1 then m.namespaces.implicit ++ [uri] else m.namespaces.implicit } ∧
      ∀ n k, m1.args.get? (n, k) = if n = .uri uri then args.get? k else m.args.get? (n, k) := by
  have hi : uri ∉ m.namespaces.implicit := fun h => by have := hm.ns.imp _ h; rw [hu] at this; cases this
  have hadd := addAlias_of m.namespaces uri (.name alias) m.isOpenID1 hal (.inl ha) (.inl hu) hi
  have hm2 := minv_addAlias m hm uri alias _ _ hadd
  obtain ⟨m1, e1, e2, e3, e4⟩ := setArgs_known hs args _ hm2 (by simp [Dict.get?_set]) hw
  refine ⟨m1, ?_, e2, e3, ?_⟩
  · rw [Msg.addExtension, Msg.extensionAlias, hadd]
    simp only [ok_bind]
    rw [Msg.updateArgs]
    simp only [Msg.fixNS, if_neg hs, ok_bind, NsKey.toNs]
    exact e1
  · intro n k
    rw [e4]
    by_cases hn : n = .uri uri
    · subst hn
      simp only [if_true]
      cases hx : m.args.get? (.uri uri, k) with
      | none => simp
      | some v =>
        have := hm.known uri k ((Dict.mem_keys_iff _ _).2 (by rw [hx]; rfl))
        rw [hu] at this; cases this
    · simp only [if_neg hn]

/-- the namespaces a parsed message has without a declaration: its version, and registered ones -/
theorem implicit_place {reg : Dict Str Str} {m m' : Msg} (p : Alias × Str × Str) (hm : MInv m) (h : placeArg reg m p = .ok m')
    (u : Str) (hu : u ∈ m'.namespaces.implicit) : u ∈ m.namespaces.implicit ∨ ∃ a, reg.get? a = some u := by
  have hset : ∀ (m1 m2 : Msg) (w k v : Str), m1.setArg (.uri w) k v = .ok m2 → MInv m1 →
      m2.namespaces.implicit = m1.namespaces.implicit := by
    intro m1 m2 w k v hs hi
    rw [Msg.setArg] at hs
    obtain ⟨n, h1, h2⟩ := bind_eq_ok.1 hs
    cases n with
    | bare => simp at h2; subst h2; rfl
    | uri w2 =>
      simp only at h2
      obtain ⟨nn, h3, h4⟩ := bind_eq_ok.1 h2
      simp at h4
      subst h4
      simp only
      rcases add_total _ hi.ns w2 with ⟨a, _, e⟩ | ⟨_, j, m2, _, _, e1, e2⟩
      · rw [e] at h3; simp at h3; rw [h3]
      · rw [e2] at h3; simp at h3; subst h3
        obtain ⟨-, -, -, -, e⟩ := addAlias_ok _ _ _ _ _ e1
        rw [e]; rfl
  rw [placeArg] at h
  split at h
  · left; rw [← hset _ _ _ _ _ h hm]; exact hu
  · split at h
    · cases h
    · split at h
      · split at h
        · left; rw [← hset _ _ _ _ _ h hm]; exact hu
        · cases h
      · next a hd u' hd2 =>
        obtain ⟨nss, h1, h2⟩ := bind_eq_ok.1 h
        have hi := minv_addAlias m hm _ _ _ _ h1
        rw [hset _ _ _ _ _ h2 hi] at hu
        obtain ⟨-, -, -, -, e⟩ := addAlias_ok _ _ _ _ _ h1
        rw [e] at hu
        simp only [if_true, List.mem_append, List.mem_singleton] at hu
        rcases hu with hu | rfl
        · exact .inl hu
        · right
          rw [Msg.getDefaultNamespace] at hd2
          split at hd2
          · exact ⟨_, hd2⟩
          · cases hd2

theorem implicit_placeAll {reg : Dict Str Str} (A : List (Alias × Str × Str)) {m m' : Msg} (hm : MInv m)
    (h : A.foldlM (placeArg reg) m = .ok m') (u : Str) (hu : u ∈ m'.namespaces.implicit) :
    u ∈ m.namespaces.implicit ∨ ∃ a, reg.get? a = some u := by
  induction A generalizing m with
  | nil => simp at h; subst h; exact .inl hu
  | cons p r ih =>
    rw [List.foldlM_cons] at h
    obtain ⟨m1, h1, h2⟩ := bind_eq_ok.1 h
    rcases ih (minv_placeArg reg m p m1 hm h1) h2 with g | g
    · exact implicit_place p hm h1 u g
    · exact .inr g

theorem implicit_declare (N : List (Str × Str)) {nm nm' : NamespaceMap}
    (h : N.foldlM (fun n p => NamespaceMap.addAlias n p.2 (.name p.1)) nm = .ok nm') : nm'.implicit = nm.implicit := by
  induction N generalizing nm with
  | nil => simp at h; rw [h]
  | cons p r ih =>
    rw [List.foldlM_cons] at h
    obtain ⟨n1, h1, h2⟩ := bind_eq_ok.1 h
    rw [ih h2]
    obtain ⟨-, -, -, -, e⟩ := addAlias_ok _ _ _ _ _ h1
    rw [e]; rfl

theorem implicit_parsed {reg q : Dict Str Str} {m : Msg} (h : fromPostArgs reg q = .ok m) (u : Str)
    (hu : u ∈ m.namespaces.implicit) : u = OPENID1_NS ∨ ∃ a, reg.get? a = some u := by
  rw [fromPostArgs] at h
  obtain ⟨m1, h1, h2⟩ := bind_eq_ok.1 h
  simp only [pure_eq_ok, Except.ok.injEq] at h2
  rw [← h2] at hu
  simp only at hu
  rw [fromOpenIDArgs] at h1
  obtain ⟨m0, g0, h1⟩ := bind_eq_ok.1 h1
  obtain ⟨nss, g1, g2⟩ := bind_eq_ok.1 h1
  have hi0 : ∀ w ∈ m0.namespaces.implicit, w = OPENID1_NS := by
    intro w hw
    rw [startMsg.eq_def] at g0
    split at g0
    · next u' _ =>
      simp only [Msg.new, Msg.setOpenIDNamespace] at g0
      split at g0
      · obtain ⟨nn, k1, k2⟩ := bind_eq_ok.1 g0
        simp at k2
        subst k2
        obtain ⟨-, -, -, -, e⟩ := addAlias_ok _ _ _ _ _ k1
        rw [e] at hw
        simp at hw
      · cases g0
    · simp only [Msg.new, Msg.setOpenIDNamespace] at g0
      split at g0
      · obtain ⟨nn, k1, k2⟩ := bind_eq_ok.1 g0
        simp at k2
        subst k2
        obtain ⟨-, -, -, -, e⟩ := addAlias_ok _ _ _ _ _ k1
        rw [e] at hw
        simp at hw
        exact hw
      · cases g0
  have hm0 : MInv m0 := (startMsg_ok g0).1.inv
  have hm1 : MInv { m0 with namespaces := nss } := ((startMsg_ok g0).1.declare g1).inv
  rcases implicit_placeAll _ hm1 g2 u hu with g | g
  · simp only at g
    rw [implicit_declare _ g1] at g
    exact .inl (hi0 u g)
  · exact .inr g

end Message
