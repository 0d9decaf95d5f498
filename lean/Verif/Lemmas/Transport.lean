import Verif.Lemmas.ServerAnswer
import Verif.Props.KVForm
/-! # Lemmas: a message with plain OpenID arguments, sent and read on the other side -/

namespace Server
open Py Message Association Spec KVForm

/-- a text that a line of key-value form brings across -/
def Clean (s : Str) : Prop := '\n' ∉ s ∧ strip s = s

theorem clean_of {s : Str} (h : ∀ c ∈ s, isSpace c = false) : Clean s :=
  ⟨fun hn => by have := h _ hn; revert this; decide, strip_digits s h⟩

theorem toBase64_noSpace (b : Bytes) : ∀ c ∈ Cryptutil.toBase64 b, isSpace c = false := by
  intro c hc
  rw [Cryptutil.toBase64, List.dropLast_concat] at hc
  rcases Base64.encode_alphabet _ c hc with h | rfl
  · have : ∀ c ∈ Base64.alphabet, isSpace c = false := by decide +kernel
    exact this c h
  · decide

theorem hexText_mem {n : Nat} {c : Char} (hc : c ∈ hexText n) : ∃ d < 16, hexChar d = c := by
  have hlt : ∀ fuel n acc, (∀ d ∈ acc, d < 16) → ∀ d ∈ Cryptutil.hexDigitsAux fuel n acc, d < 16 := by
    intro fuel
    induction fuel with
    | zero => intro n acc h; exact h
    | succ f ih =>
      intro n acc h
      rw [Cryptutil.hexDigitsAux]
      have h' : ∀ d ∈ n % 16 :: acc, d < 16 := by
        intro d hd
        rcases List.mem_cons.1 hd with rfl | hd
        · omega
        · exact h d hd
      split
      · exact h'
      · exact ih _ _ h'
  rw [hexText, List.mem_map] at hc
  obtain ⟨d, hd, rfl⟩ := hc
  exact ⟨d, hlt _ _ _ (by simp) d hd, rfl⟩

theorem hexText_noSpace (n : Nat) : ∀ c ∈ hexText n, isSpace c = false := by
  intro c hc
  obtain ⟨d, hd, rfl⟩ := hexText_mem hc
  have key : ∀ d < 16, isSpace (hexChar d) = false := by decide +kernel
  exact key d hd

theorem handle_noSpace {t : Str} (ht : ∀ c ∈ t, isSpace c = false) (n : Int) (u : Bytes) :
    ∀ c ∈ handleText t n u, isSpace c = false := by
  intro c hc
  rw [handleText] at hc
  simp only [List.mem_cons, List.mem_append, List.cons_append] at hc
  have h1 := hexText_noSpace n.toNat c
  have h2 := toBase64_noSpace u c
  have h3 := ht c
  have h4 : ∀ d ∈ [('{' : Char), '}'], isSpace d = false := by decide
  have h5 := h4 c
  simp at hc h5
  grind

theorem toArgs_get {m : Msg} {oid : Str} {d : Str → Option Str} (h : Carries m oid d) :
    ∃ A, m.toArgs = .ok A ∧ Dict.WF A ∧
      ∀ k, A.get? k = (d k).or (if k = t!"ns" ∧ OPENID1_NAMESPACES.contains oid = false then some oid else none) := by
  have hw : Dict.WF m.toPostArgs := by rw [toPostArgs_eq]; exact Dict.WF_ofPairs _
  have hpre : ∀ p ∈ m.toPostArgs, ∃ k, p.1 = t!"openid." ++ k := by
    intro p hp
    obtain ⟨k, hk, -⟩ := (h.sent p.1 p.2).1 hp
    exact ⟨k, hk⟩
  have hpost : ∀ k, m.toPostArgs.get? (t!"openid." ++ k) =
      (d k).or (if k = t!"ns" ∧ OPENID1_NAMESPACES.contains oid = false then some oid else none) := by
    intro k
    have hv1 : OPENID1_NAMESPACES.contains oid = false ↔
        oid ≠ t!"http://openid.net/signon/1.0" ∧ oid ≠ t!"http://openid.net/signon/1.1" := by
      simp [OPENID1_NAMESPACES, OPENID1_NS, THE_OTHER_OPENID1_NS]
    apply Option.ext
    intro v
    have : m.toPostArgs.get? (t!"openid." ++ k) = some v ↔ (t!"openid." ++ k, v) ∈ m.toPostArgs :=
      ⟨Dict.get?_mem _ _ _, Dict.get?_of_mem _ hw _ _⟩
    rw [this, h.sent]
    constructor
    · rintro ⟨k', hk, hor⟩
      rw [List.append_cancel_left_eq] at hk
      subst hk
      rcases hor with hor | ⟨h1, h2, rfl, h3⟩
      · rw [hor]; rfl
      · rw [h1, if_pos ⟨h2, hv1.2 h3⟩]; rfl
    · intro hv
      refine ⟨k, rfl, ?_⟩
      cases hd : d k with
      | some x => rw [hd] at hv; exact .inl hv
      | none =>
        rw [hd, Option.none_or] at hv
        split at hv
        · next hc => simp only [Option.some.injEq] at hv; exact .inr ⟨rfl, hc.1, hv.symm, hv1.1 hc.2⟩
        · cases hv
  have key : ∀ (l : Dict Str Str) (acc : Dict Str Str), Dict.WF l → Dict.WF acc →
      (∀ p ∈ l, ∃ k, p.1 = t!"openid." ++ k) →
      ∃ A, l.foldlM (fun d p => if startsWith p.1 t!"openid." then .ok (Dict.set d (p.1.drop 7) p.2)
          else .error .valueError) acc = (.ok A : Except PyErr _) ∧ Dict.WF A ∧
        ∀ k, A.get? k = (l.get? (t!"openid." ++ k)).or (acc.get? k) := by
    intro l
    induction l with
    | nil => intro acc _ ha _; exact ⟨acc, rfl, ha, fun k => rfl⟩
    | cons p r ih =>
      intro acc hl ha hp
      obtain ⟨k0, hk0⟩ := hp p (by simp)
      obtain ⟨n, v⟩ := p
      simp only at hk0; subst hk0
      have hl' : Dict.WF r := by rw [Dict.WF, Dict.keys] at *; simp only [List.map_cons, List.nodup_cons] at hl; exact hl.2
      have hno : t!"openid." ++ k0 ∉ Dict.keys r := by
        rw [Dict.WF, Dict.keys, List.map_cons, List.nodup_cons] at hl; exact hl.1
      obtain ⟨A, e, hA, hg⟩ := ih (Dict.set acc k0 v) hl' (Dict.WF_set _ ha _ _) (fun p hp' => hp p (by simp [hp']))
      refine ⟨A, ?_, hA, ?_⟩
      · rw [List.foldlM_cons, openid_prefix]
        exact e
      · intro k
        rw [hg, Dict.get?_set, Dict.get?_cons]
        by_cases hk : k0 = k
        · subst hk
          rw [if_pos rfl, if_pos rfl, (Dict.get?_none_iff _ _).2 hno]; rfl
        · rw [if_neg hk, if_neg (by simpa using hk)]
  obtain ⟨A, e, hA, hg⟩ := key m.toPostArgs [] hw (by simp [Dict.WF, Dict.keys]) hpre
  refine ⟨A, e, hA, fun k => ?_⟩
  rw [hg, hpost]; simp [Dict.get?]

/-- in key-value form and back -/
theorem kv_transport {m : Msg} {oid : Str} {d : Str → Option Str} (h : Carries m oid d)
    (hoid : oid ∈ [OPENID1_NS, THE_OTHER_OPENID1_NS, OPENID2_NS])
    (hc : ∀ k v, d k = some v → Clean k ∧ ':' ∉ k ∧ Clean v) :
    ∃ kv d', m.toKVForm = .ok kv ∧ kvToDict kv = .ok d' ∧ Dict.WF d' ∧
      ∀ k, d'.get? k = (d k).or (if k = t!"ns" ∧ OPENID1_NAMESPACES.contains oid = false then some oid else none) := by
  obtain ⟨A, e, hA, hg⟩ := toArgs_get h
  have hclean : ∀ k v, A.get? k = some v → Clean k ∧ ':' ∉ k ∧ Clean v := by
    intro k v hk
    rw [hg] at hk
    cases hd : d k with
    | some x => rw [hd] at hk; simp at hk; subst hk; exact hc _ _ hd
    | none =>
      rw [hd] at hk; simp only [Option.none_or] at hk
      split at hk
      · next hn =>
        simp only [Option.some.injEq] at hk
        subst hk
        refine ⟨by rw [hn.1]; exact ⟨by decide, by decide⟩, by rw [hn.1]; decide, ?_⟩
        simp only [List.mem_cons, List.not_mem_nil, or_false] at hoid
        rcases hoid with rfl | rfl | rfl <;> exact ⟨by decide, by decide +kernel⟩
      · cases hk
  have hperm := perm_sortBy pairLe A
  have hok : ∃ out, dictToKV A = .ok out := by
    rw [dictToKV]
    apply (Props.c02_accepts_iff false _).2
    intro p hp
    have := Dict.get?_of_mem _ hA p.1 p.2 ((hperm.mem_iff).1 hp)
    obtain ⟨h1, h2, h3⟩ := hclean _ _ this
    exact ⟨h1.1, h2, h3.1, by simp⟩
  obtain ⟨out, ho⟩ := hok
  obtain ⟨d', h1, h2, h3⟩ := Props.c01_dict A hA out ho (fun k v hk => by
    obtain ⟨h1, -, h3⟩ := hclean _ _ hk; exact ⟨h1.2, h3.2⟩)
  refine ⟨out, d', ?_, h1, h2, fun k => by rw [h3, hg]⟩
  rw [Msg.toKVForm, e]; exact ho

/-- plain arguments, of the default version or of OpenID 2, make a message with just these -/
theorem plain_exactly {reg O : Dict Str Str} (hO : Dict.WF O) (hd : ∀ k ∈ Dict.keys O, '.' ∉ k)
    (hns : O.get? t!"ns" = none ∨ O.get? t!"ns" = some OPENID2_NS) :
    ∃ m, fromOpenIDArgs reg O = .ok m ∧
      Exactly m ((O.get? t!"ns").getD OPENID1_NS) (fun k => if k = t!"ns" then none else O.get? k) := by
  cases hm : fromOpenIDArgs reg O with
  | error e =>
    exfalso
    rcases fromOpenIDArgs_error hO hm with ⟨-, u, hu, hn⟩ | ⟨-, -, k, hk, hdot⟩
    · rcases hns with hns | hns <;> rw [hns] at hu <;> simp at hu
      subst hu; simp at hn
    · exact hd k hk hdot
  | ok m =>
    refine ⟨m, rfl, ?_⟩
    obtain ⟨hhas, hget⟩ := fromOpenIDArgs_has hO hm
    have hdot : ∀ (O : List (Str × Str)) (c : Collected), (∀ k ∈ Dict.keys O, '.' ∉ k) →
        (O.foldl collectStep c).namespaces = c.namespaces ∧
        ∀ p ∈ (O.foldl collectStep c).args, p ∈ c.args ∨ p.1 = .null ∧ p.2.1 ≠ t!"ns" ∧ '.' ∉ p.2.1 := by
      intro O
      induction O with
      | nil => intro c _; exact ⟨rfl, fun p hp => .inl hp⟩
      | cons p r ih =>
        intro c hd
        obtain ⟨k, v⟩ := p
        have hk0 : '.' ∉ k := hd k (by simp [Dict.keys])
        have hk : cut '.' k = none := by
          cases hc : cut '.' k with
          | none => rfl
          | some ab =>
            obtain ⟨a, b⟩ := ab
            exfalso
            apply hk0
            rw [cut_some_eq hc]; simp
        rw [List.foldl_cons]
        obtain ⟨i1, i2⟩ := ih (collectStep c (k, v)) (fun k' hk' => hd k' (by simp [Dict.keys] at hk' ⊢; grind))
        simp only [collectStep, hk] at i1 i2 ⊢
        split
        · next hn =>
          rw [if_pos hn] at i1 i2
          exact ⟨i1, i2⟩
        · next hn =>
          rw [if_neg hn] at i1 i2
          refine ⟨i1, fun p hp => ?_⟩
          rcases i2 p hp with h | h
          · simp at h; rcases h with h | h
            · exact .inl h
            · subst h; exact .inr ⟨rfl, hn, hk0⟩
          · exact .inr h
    have hm' := hm
    rw [fromOpenIDArgs] at hm'
    obtain ⟨m0, h0, h⟩ := bind_eq_ok.1 hm'
    obtain ⟨nss, h1, h2⟩ := bind_eq_ok.1 h
    rw [collect_ns O hO] at h0
    simp only [Option.or_none] at h0
    obtain ⟨n1, n2⟩ := hdot O {} hd
    rw [n1] at h1
    simp at h1
    subst h1
    have hx0 : Exactly m0 ((O.get? t!"ns").getD OPENID1_NS) (fun _ => none) := by
      rcases hns with hns | hns
      · rw [hns] at h0 ⊢
        exact new_exactly (i := some true) h0 (by decide)
      · rw [hns] at h0 ⊢
        exact new_exactly (i := some false) h0 (by decide)
    generalize (O.get? t!"ns").getD OPENID1_NS = oid at hx0 hhas
    have hfold : ∀ (A : List (Alias × Str × Str)) (m0 : Msg) (d : Str → Option Str), Exactly m0 oid d →
        (∀ p ∈ A, p.1 = .null) → A.foldlM (placeArg reg) m0 = .ok m →
        ∃ d', Exactly m oid d' ∧ ∀ k v, d' k = some v → d k = some v ∨ ∃ p ∈ A, p.2.1 = k := by
      intro A
      induction A with
      | nil => intro m0 d hx _ h; simp at h; subst h; exact ⟨d, hx, fun k v hk => .inl hk⟩
      | cons p r ih =>
        intro m0 d hx hp h
        rw [List.foldlM_cons] at h
        obtain ⟨m1, g1, g2⟩ := bind_eq_ok.1 h
        obtain ⟨a, k0, v0⟩ := p
        obtain rfl : a = .null := hp (a, k0, v0) (by simp)
        have hn : m0.namespaces.getNamespaceURI .null = some oid := hx.ns
        simp only [placeArg, hn] at g1
        rw [setArg_uri hx.inv hx.ns] at g1
        obtain ⟨d', hd', hk'⟩ := ih m1 _ (hx.set g1) (fun p hp' => hp p (by simp [hp'])) g2
        refine ⟨d', hd', fun k v hk => ?_⟩
        rcases hk' k v hk with h | ⟨p, hp1, hp2⟩
        · split at h
          · next e => exact .inr ⟨(.null, k0, v0), by simp, e⟩
          · exact .inl h
        · exact .inr ⟨p, by simp [hp1], hp2⟩
    obtain ⟨d', hd', hk'⟩ := hfold _ m0 _ hx0 (fun p hp => by
      rcases n2 p hp with h | h
      · simp at h
      · exact h.1) h2
    refine hd'.congr fun k => ?_
    by_cases hk : k = t!"ns" ∨ '.' ∈ k
    · have hnone : d' k = none := by
        cases hc : d' k with
        | none => rfl
        | some v =>
          rcases hk' k v hc with h | ⟨p, hp, rfl⟩
          · simp at h
          · rcases n2 p hp with h | h
            · simp at h
            · rcases hk with hk | hk
              · exact absurd hk h.2.1
              · exact absurd hk h.2.2
      rw [hnone]
      split
      · rfl
      · next hn =>
        rcases hk with hk | hk
        · exact absurd hk hn
        · rw [eq_comm, Dict.get?_none_iff]
          exact fun hmem => hd k hmem hk
    · rw [if_neg (fun e => hk (.inl e))]
      have := hget k (fun e => hk (.inr e)) (fun e => hk (.inl e))
      rw [hd'.getArg] at this
      simpa using this

end Server
