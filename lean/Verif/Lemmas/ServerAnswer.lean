import Verif.Spec.ServerAnswer
import Verif.Lemmas.ServerCodec
import Verif.Lemmas.MessagePost
/-! # Lemmas about the messages the server makes -/

namespace Server
open Py Message Association Spec

theorem mem_argPairs_exactly {m : Msg} {oid : Str} {d : Str → Option Str} (h : Exactly m oid d) (name v : Str) :
    (name, v) ∈ argPairs m ↔ ∃ k, name = t!"openid." ++ k ∧ d k = some v := by
  have hkey : ∀ k, m.keyOf (.uri oid) k = some (t!"openid." ++ k) := by
    intro k; simp [Msg.keyOf, NamespaceMap.getAlias, h.fresh, Dict.get?]
  rw [mem_argPairs]
  constructor
  · rintro ⟨n, k, h1, h2⟩
    have hg := Dict.get?_of_mem _ h.inv.wf _ _ h1
    by_cases hn : n = .uri oid
    · subst hn
      rw [hkey] at h2; rw [h.here] at hg
      exact ⟨k, by simpa using h2.symm, hg⟩
    · rw [h.only _ _ hn] at hg; cases hg
  · rintro ⟨k, rfl, hv⟩
    rw [← h.here] at hv
    exact ⟨_, k, Dict.get?_mem _ _ _ hv, hkey k⟩

theorem nsPairs_exactly {m : Msg} {oid : Str} {d : Str → Option Str} (h : Exactly m oid d) :
    nsPairs m.namespaces = if OPENID1_NAMESPACES.contains oid = true then [] else [(t!"openid.ns", oid)] := by
  rw [nsPairs, h.fresh]
  simp only [List.filterMap_cons, List.filterMap_nil, h.imp, nsDefKey]
  split <;> simp_all

/-- what is sent of it -/
theorem Exactly.post {m : Msg} {oid : Str} {d : Str → Option Str} (h : Exactly m oid d) (k : Str) :
    m.toPostArgs.get? (t!"openid." ++ k) =
      (d k).or (if k = t!"ns" ∧ OPENID1_NAMESPACES.contains oid = false then some oid else none) := by
  have harg : Dict.get? (argPairs m).reverse (t!"openid." ++ k) = d k := by
    have := ofPairs_get_of (argPairs m) (t!"openid." ++ k) (d k) (by
      intro v
      rw [mem_argPairs_exactly h]
      simp)
    rwa [Association.get?_ofPairs] at this
  rw [toPostArgs_eq, nsPairs_exactly h, Association.get?_ofPairs, List.reverse_append]
  have happ : ∀ (A B : Dict Str Str) (k : Str), Dict.get? (A ++ B) k = (Dict.get? A k).or (Dict.get? B k) := by
    intro A B k
    induction A with
    | nil => rfl
    | cons p r ih => rw [List.cons_append, Dict.get?_cons, Dict.get?_cons, ih]; split <;> simp
  rw [happ, harg]
  congr 1
  by_cases hv : OPENID1_NAMESPACES.contains oid = true
  · rw [if_pos hv, if_neg (by rw [hv]; simp)]; rfl
  · rw [if_neg hv]
    simp only [List.reverse_cons, List.reverse_nil, List.nil_append, Dict.get?_cons]
    rw [show t!"openid.ns" = t!"openid." ++ t!"ns" from rfl]
    simp only [List.append_cancel_left_eq]
    simp only [Bool.not_eq_true] at hv
    by_cases hk : k = t!"ns"
    · subst hk; rw [if_pos rfl, if_pos ⟨rfl, hv⟩]
    · rw [if_neg (fun e => hk e.symm), if_neg (fun e => hk e.1)]; rfl

theorem Exactly.post_prefix {m : Msg} {oid : Str} {d : Str → Option Str} (h : Exactly m oid d) {name v : Str}
    (hm : (name, v) ∈ m.toPostArgs) : ∃ k, name = t!"openid." ++ k := by
  by_cases hp : startsWith name t!"openid." = true
  · obtain ⟨k, hk⟩ := (startsWith_iff _ _).1 hp
    exact ⟨k, hk⟩
  · exfalso
    have hw : Dict.WF m.toPostArgs := by rw [toPostArgs_eq]; exact Dict.WF_ofPairs _
    have := Dict.get?_of_mem _ hw _ _ hm
    rw [post_bare m h.inv name (by simpa using hp), h.only _ _ (by simp)] at this
    cases this

theorem Exactly.sent {m : Msg} {oid : Str} {d : Str → Option Str} (h : Exactly m oid d) (name v : Str) :
    (name, v) ∈ m.toPostArgs ↔ ∃ k, name = t!"openid." ++ k ∧
      (d k = some v ∨ d k = none ∧ k = t!"ns" ∧ v = oid ∧
        oid ≠ t!"http://openid.net/signon/1.0" ∧ oid ≠ t!"http://openid.net/signon/1.1") := by
  have hw : Dict.WF m.toPostArgs := by rw [toPostArgs_eq]; exact Dict.WF_ofPairs _
  have hv1 : OPENID1_NAMESPACES.contains oid = false ↔
      oid ≠ t!"http://openid.net/signon/1.0" ∧ oid ≠ t!"http://openid.net/signon/1.1" := by
    simp [OPENID1_NAMESPACES, OPENID1_NS, THE_OTHER_OPENID1_NS]
  have key : ∀ k, m.toPostArgs.get? (t!"openid." ++ k) = some v ↔ (d k = some v ∨ d k = none ∧ k = t!"ns" ∧ v = oid ∧
        oid ≠ t!"http://openid.net/signon/1.0" ∧ oid ≠ t!"http://openid.net/signon/1.1") := by
    intro k
    rw [h.post, ← hv1]
    cases d k with
    | some x => simp
    | none =>
      simp only [Option.none_or, reduceCtorEq, false_or, true_and]
      split
      · next hc => simp only [hc.1, hc.2, Option.some.injEq, true_and, and_true]; exact eq_comm
      · next hc => simp only [reduceCtorEq, false_iff]; rintro ⟨h1, -, h2⟩; exact hc ⟨h1, h2⟩
  constructor
  · intro hm
    obtain ⟨k, rfl⟩ := h.post_prefix hm
    exact ⟨k, rfl, (key k).1 (Dict.get?_of_mem _ hw _ _ hm)⟩
  · rintro ⟨k, rfl, hk⟩
    exact Dict.get?_mem _ _ _ ((key k).2 hk)

theorem carries_of {m : Msg} {oid : Str} {d : Str → Option Str} (h : Exactly m oid d) : Carries m oid d := by
  refine ⟨h.ns, h.getArg, ?_, h.sent⟩
  intro ns k v hm
  have hg := Dict.get?_of_mem _ h.inv.wf _ _ hm
  by_cases hn : ns = .uri oid
  · subst hn; rw [h.here] at hg; exact ⟨rfl, hg⟩
  · rw [h.only _ _ hn] at hg; cases hg

theorem Exactly.congr {m : Msg} {oid : Str} {d d' : Str → Option Str} (h : Exactly m oid d) (he : ∀ k, d k = d' k) :
    Exactly m oid d' := by
  have : d = d' := funext he
  exact this ▸ h

theorem Exactly.setSome {m : Msg} {oid : Str} {d : Str → Option Str} (h : Exactly m oid d) (k : Str) (v : Option Str) :
    ∃ m', Server.setSome m k v = .ok m' ∧ Exactly m' oid (fun k' => if k = k' then v.or (d k') else d k') := by
  cases v with
  | none =>
    refine ⟨m, rfl, h.congr ?_⟩
    intro k'; simp
  | some v =>
    obtain ⟨m', e, h'⟩ := h.can k v
    refine ⟨m', by simp [Server.setSome, e, lift], h'.congr ?_⟩
    intro k'; simp

theorem new_can {oid : Str} (h : oid ∈ [OPENID1_NS, THE_OTHER_OPENID1_NS, OPENID2_NS]) :
    ∃ m, Msg.new (some oid) = .ok m := by
  simp only [List.mem_cons, List.not_mem_nil, or_false] at h
  rcases h with rfl | rfl | rfl <;> exact ⟨_, rfl⟩

theorem v2_iff (m : Msg) : m.isOpenID2 = true ↔ m.getOpenIDNamespace = some t!"http://specs.openid.net/auth/2.0" := by
  simp only [Msg.isOpenID2, OPENID2_NS]
  exact decide_eq_true_iff

theorem argsOf_append {l : List (Str × Option Str)} {k : Str} (hk : k ∉ l.map (·.1)) (v : Option Str) (x : Str) :
    (if k = x then v.or (argsOf l x) else argsOf l x) = argsOf (l ++ [(k, v)]) x := by
  induction l with
  | nil =>
    simp only [argsOf, List.nil_append, Option.or_none, eq_comm (a := k)]
  | cons p l ih =>
    obtain ⟨a, b⟩ := p
    simp only [List.map_cons, List.mem_cons, not_or] at hk
    rw [List.cons_append, argsOf, argsOf, ← ih hk.2]
    by_cases h : x = a
    · subst h; simp [hk.1]
    · simp [h]

theorem Exactly.setNew {m m' : Msg} {oid : Str} {l : List (Str × Option Str)} (h : Exactly m oid (argsOf l)) {k v : Str}
    (hk : k ∉ l.map (·.1)) (hs : m.setArg .openid k v = .ok m') : Exactly m' oid (argsOf (l ++ [(k, some v)])) :=
  (h.set hs).congr fun x => by rw [← argsOf_append hk]; simp

theorem Exactly.skip {m : Msg} {oid : Str} {l : List (Str × Option Str)} (h : Exactly m oid (argsOf l)) {k : Str}
    (hk : k ∉ l.map (·.1)) : Exactly m oid (argsOf (l ++ [(k, none)])) :=
  h.congr fun x => by rw [← argsOf_append hk]; simp

theorem Exactly.updateNew {m : Msg} {oid : Str} {l : List (Str × Option Str)} (h : Exactly m oid (argsOf l))
    (kvs : Dict Str Str) (hk : Dict.WF kvs) (hd : ∀ k ∈ Dict.keys kvs, k ∉ l.map (·.1)) :
    ∃ m', m.updateArgs .openid kvs = .ok m' ∧ Exactly m' oid (argsOf (l ++ kvs.map fun p => (p.1, some p.2))) := by
  obtain ⟨m', e, h'⟩ := h.update kvs
  refine ⟨m', e, h'.congr ?_⟩
  clear e h' h
  intro x
  induction kvs generalizing l with
  | nil => simp [puts]
  | cons p r ih =>
    obtain ⟨k, v⟩ := p
    have hk' : k ∉ l.map (·.1) := hd k (by simp [Dict.keys])
    have step : (fun x => if k = x then some v else argsOf l x) = argsOf (l ++ [(k, some v)]) := by
      funext x; rw [← argsOf_append hk']; simp
    have hw : k ∉ Dict.keys r ∧ Dict.WF r := by
      simpa [Dict.WF, Dict.keys] using hk
    have := ih (l := l ++ [(k, some v)]) hw.2 (by
      intro a ha
      simp only [List.map_append, List.map_cons, List.map_nil, List.mem_append, List.mem_cons, List.not_mem_nil, or_false,
        not_or]
      refine ⟨hd a (by simp [Dict.keys] at ha ⊢; exact .inr ha), ?_⟩
      rintro rfl; exact hw.1 ha)
    simp only [puts, List.foldl_cons] at this ⊢
    rw [step, this]
    simp

end Server
