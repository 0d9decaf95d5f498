import Verif.Lemmas.Holds
import Verif.Lemmas.MessageClash
import Verif.Spec.HonestExt
import Verif.Props.ConsumerSigned
/-! # Attaching extensions -/

namespace Honest
open Py Message Association Spec Extend
open Server (Exactly)

/-- `m.toMessage` for each -/
def attach (m : Msg) : List Extension → Except PyErr Msg
  | [] => .ok m
  | x :: rest => do
    let m ← x.toMessage m
    attach m rest

theorem extendRequest_eq (r : Consumer.AuthRequest) (l : List Extension) :
    extendRequest r l = (attach r.message l).map fun m => { r with message := m } := by
  induction l generalizing r with
  | nil => rfl
  | cons x l ih =>
    rw [extendRequest, attach]
    cases x.toMessage r.message with
    | error e => rfl
    | ok m => simp only [ok_bind]; rw [ih]

theorem extendResponse_eq (r : Server.Response) (l : List Extension) :
    extendResponse r l = (attach r.fields l).map fun m => { r with fields := m } := by
  induction l generalizing r with
  | nil => rfl
  | cons x l ih =>
    rw [extendResponse, attach]
    cases x.toMessage r.fields with
    | error e => rfl
    | ok m => simp only [ok_bind]; rw [ih]

/-- a message with extensions -/
structure Attached (x : Msg) (oid : Str) (d : Str → Option Str) (l : List Extension) : Prop where
  inv : MInv x
  ns : x.getOpenIDNamespace = some oid
  imp : x.namespaces.isImplicit oid = OPENID1_NAMESPACES.contains oid
  here : ∀ k, x.args.get? (.uri oid, k) = d k
  names : ∀ u a, x.namespaces.nsToAlias.get? u = some a ↔ u = oid ∧ a = .null ∨ ∃ y ∈ l, y.uri = u ∧ a = .name y.alias
  args : ∀ y ∈ l, ∀ k, x.args.get? (.uri y.uri, k) = y.args.get? k
  only : ∀ n k v, x.args.get? (n, k) = some v → n = .uri oid ∨ ∃ y ∈ l, n = .uri y.uri
  implicit : ∀ u, x.namespaces.isImplicit u = true → u = oid ∨ x.isOpenID1 = true

theorem attached_nil {m : Msg} {oid : Str} {d : Str → Option Str} (h : Exactly m oid d) : Attached m oid d [] := by
  refine ⟨h.inv, h.ns, h.imp, h.here, ?_, by simp, ?_, ?_⟩
  · intro u a
    rw [h.fresh, Dict.get?_cons]
    by_cases hu : oid = u
    · subst hu; simp [eq_comm]
    · simp [hu, Dict.get?_nil, Ne.symm hu]
  · intro n k v hv
    by_cases hn : n = .uri oid
    · exact .inl hn
    · rw [h.only n k hn] at hv; cases hv
  · intro u hu
    have := h.inv.ns.imp u (by simpa [NamespaceMap.isImplicit] using hu)
    rw [h.fresh, Dict.get?_cons] at this
    by_cases he : oid = u
    · exact .inl he.symm
    · rw [if_neg he] at this; cases this

theorem attached_cons {m : Msg} {oid : Str} {d : Str → Option Str} {l : List Extension} {y : Extension} (h : Attached m oid d l)
    (hs : y.uri ≠ t!"sreg") (ho : y.uri ≠ oid) (hal : y.alias ∉ reserved) (hdot : '.' ∉ y.alias) (hw : Dict.WF y.args)
    (hu : y.uri ∉ l.map (·.uri)) (ha : y.alias ∉ l.map (·.alias)) :
    ∃ x, y.toMessage m = .ok x ∧ Attached x oid d (y :: l) := by
  have hn : m.namespaces.nsToAlias.get? y.uri = none := by
    cases hg : m.namespaces.nsToAlias.get? y.uri with
    | none => rfl
    | some a =>
      rcases (h.names _ _).1 hg with ⟨h1, -⟩ | ⟨z, hz, h1, -⟩
      · exact absurd h1 ho
      · exact absurd (List.mem_map.2 ⟨z, hz, h1⟩) hu
  have hn' : m.namespaces.aliasToNs.get? (.name y.alias) = none := by
    cases hg : m.namespaces.aliasToNs.get? (.name y.alias) with
    | none => rfl
    | some u =>
      rcases (h.names _ _).1 ((h.inv.ns.bij _ _).1 hg) with ⟨-, h1⟩ | ⟨z, hz, -, h1⟩
      · cases h1
      · exact absurd (List.mem_map.2 ⟨z, hz, by simpa using h1.symm⟩) ha
  have hok : NamespaceMap.okAlias (.name y.alias) = true := by
    cases hb : NamespaceMap.okAlias (.name y.alias) with
    | true => rfl
    | false =>
      rcases bad_name hb with h1 | h1
      · exact absurd h1 hal
      · exact absurd h1 hdot
  obtain ⟨x, e1, e2, e3, e4⟩ := addExtension_fresh h.inv hw hs hok hn hn'
  have hns : x.getOpenIDNamespace = some oid := by
    rw [Msg.getOpenIDNamespace, e3]
    have := h.ns
    rw [Msg.getOpenIDNamespace] at this
    rw [← this, NamespaceMap.getNamespaceURI, NamespaceMap.getNamespaceURI]
    simp only
    rw [Dict.get?_set, if_neg (by simp)]
  have hv1 : x.isOpenID1 = m.isOpenID1 := by rw [Msg.isOpenID1, Msg.isOpenID1, hns, h.ns]
  have hii : ∀ u, x.namespaces.isImplicit u = true → m.namespaces.isImplicit u = true ∨ u = y.uri ∧ m.isOpenID1 = true := by
    intro u hu
    rw [e3] at hu
    simp only [NamespaceMap.isImplicit, List.contains_eq_mem, decide_eq_true_eq] at hu ⊢
    split at hu
    · next hv =>
      rcases List.mem_append.1 hu with h1 | h1
      · exact .inl h1
      · exact .inr ⟨by simpa using h1, hv⟩
    · exact .inl hu
  refine ⟨x, e1, e2, hns, ?_, ?_, ?_, ?_, ?_, ?_⟩
  · rw [← h.imp, e3]
    simp only [NamespaceMap.isImplicit]
    split
    · simp [Ne.symm ho]
    · rfl
  · intro k
    rw [e4, if_neg (by simpa using Ne.symm ho), h.here]
  · intro u a
    rw [e3]
    simp only [Dict.get?_set]
    by_cases hyu : y.uri = u
    · subst hyu
      rw [if_pos rfl]
      constructor
      · rintro ⟨⟩; exact .inr ⟨y, by simp, rfl, rfl⟩
      · rintro (⟨h1, -⟩ | ⟨z, hz, h1, h2⟩)
        · exact absurd h1 ho
        · rcases List.mem_cons.1 hz with rfl | hz
          · rw [h2]
          · exact absurd (List.mem_map.2 ⟨z, hz, h1⟩) hu
    · rw [if_neg hyu, h.names]
      constructor
      · rintro (h1 | ⟨z, hz, h1⟩)
        · exact .inl h1
        · exact .inr ⟨z, List.mem_cons_of_mem _ hz, h1⟩
      · rintro (h1 | ⟨z, hz, h1, h2⟩)
        · exact .inl h1
        · rcases List.mem_cons.1 hz with rfl | hz
          · exact absurd h1 hyu
          · exact .inr ⟨z, hz, h1, h2⟩
  · intro z hz k
    rw [e4]
    rcases List.mem_cons.1 hz with rfl | hz
    · rw [if_pos rfl]
    · rw [if_neg, h.args z hz]
      intro he
      exact absurd (List.mem_map.2 ⟨z, hz, by simpa using he⟩) hu
  · intro n k v hv
    rw [e4] at hv
    by_cases hn : n = .uri y.uri
    · exact .inr ⟨y, by simp, hn⟩
    · rw [if_neg hn] at hv
      rcases h.only n k v hv with h1 | ⟨z, hz, h1⟩
      · exact .inl h1
      · exact .inr ⟨z, List.mem_cons_of_mem _ hz, h1⟩
  · intro u hu
    rw [hv1]
    rcases hii u hu with h1 | ⟨-, h1⟩
    · exact h.implicit u h1
    · exact .inr h1

theorem attached_swap {x : Msg} {oid : Str} {d : Str → Option Str} {l l' : List Extension} (h : Attached x oid d l)
    (hl : ∀ y, y ∈ l ↔ y ∈ l') : Attached x oid d l' := by
  have : ∀ p : Extension → Prop, (∃ y ∈ l, p y) ↔ ∃ y ∈ l', p y := by
    intro p
    constructor <;> rintro ⟨y, hy, hp⟩
    · exact ⟨y, (hl y).1 hy, hp⟩
    · exact ⟨y, (hl y).2 hy, hp⟩
  refine ⟨h.inv, h.ns, h.imp, h.here, ?_, ?_, ?_, h.implicit⟩
  · intro u a; rw [h.names, this]
  · intro y hy; exact h.args y ((hl y).2 hy)
  · intro n k v hv; rw [← this]; exact h.only n k v hv

theorem attach_all {oid : Str} {d : Str → Option Str} (l : List Extension) (m : Msg) (l0 : List Extension)
    (h : Attached m oid d l0)
    (hu : (l.map (·.uri)).Nodup) (ha : (l.map (·.alias)).Nodup)
    (hn : ∀ x ∈ l, x.alias ∉ reserved ∧ '.' ∉ x.alias ∧ x.uri ≠ oid ∧ x.uri ≠ t!"sreg") (hw : ∀ x ∈ l, Dict.WF x.args)
    (hfu : ∀ x ∈ l, x.uri ∉ l0.map (·.uri)) (hfa : ∀ x ∈ l, x.alias ∉ l0.map (·.alias)) :
    ∃ x, attach m l = .ok x ∧ Attached x oid d (l ++ l0) := by
  induction l generalizing m l0 with
  | nil => exact ⟨m, rfl, h⟩
  | cons y l ih =>
    obtain ⟨u1, u2⟩ := List.nodup_cons.1 hu
    obtain ⟨a1, a2⟩ := List.nodup_cons.1 ha
    obtain ⟨n1, n2, n3, n4⟩ := hn y (by simp)
    obtain ⟨x1, e1, h1⟩ := attached_cons h n4 n3 n1 n2 (hw y (by simp)) (hfu y (by simp)) (hfa y (by simp))
    obtain ⟨x, e2, h2⟩ := ih x1 (y :: l0) h1 u2 a2 (fun z hz => hn z (List.mem_cons_of_mem _ hz))
      (fun z hz => hw z (List.mem_cons_of_mem _ hz))
      (fun z hz hm => by
        rcases List.mem_cons.1 hm with hm | hm
        · exact u1 (List.mem_map.2 ⟨z, hz, hm⟩)
        · exact hfu z (List.mem_cons_of_mem _ hz) hm)
      (fun z hz hm => by
        rcases List.mem_cons.1 hm with hm | hm
        · exact a1 (List.mem_map.2 ⟨z, hz, hm⟩)
        · exact hfa z (List.mem_cons_of_mem _ hz) hm)
    refine ⟨x, by rw [attach, e1]; exact e2, attached_swap h2 fun z => ?_⟩
    simp only [List.mem_append, List.mem_cons]
    constructor
    · rintro (h | h | h) <;> simp [h]
    · rintro ((h | h) | h) <;> simp [h]

/-- extensions can be attached -/
theorem attach_ok {m : Msg} {oid : Str} {d : Str → Option Str} (h : Exactly m oid d) {reg : Dict Str Str} {l : List Extension}
    (hl : Attachable oid reg l) : ∃ x, attach m l = .ok x ∧ Attached x oid d l := by
  obtain ⟨x, e, hx⟩ := attach_all l m [] (attached_nil h) hl.uris hl.aliases hl.names hl.data (by simp) (by simp)
  exact ⟨x, e, by simpa using hx⟩

section
variable {x : Msg} {oid : Str} {d : Str → Option Str} {l : List Extension}

theorem Attached.holds (h : Attached x oid d l) : Holds x x oid d := ⟨h.inv, rfl, h.here, fun _ _ _ => rfl⟩

theorem Attached.bearer {reg : Dict Str Str} (h : Attached x oid d l) (hl : Attachable oid reg l)
    (hv : oid = OPENID1_NS ∨ oid = OPENID2_NS) : Bearer reg x oid := by
  refine ⟨h.ns, hv, h.imp, ?_, ?_, ?_⟩
  · intro k
    cases hg : x.args.get? (.bare, k) with
    | none => rfl
    | some v =>
      rcases h.only _ _ _ hg with h1 | ⟨y, -, h1⟩ <;> cases h1
  · intro u k v hu hg hi
    have h1 := (h.implicit u hi).resolve_left hu
    refine ⟨h1, ?_⟩
    rcases h.only _ _ _ hg with h2 | ⟨y, hy, h2⟩
    · exact absurd (by simpa using h2) hu
    · cases h2
      refine ⟨y.alias, (h.names _ _).2 (.inr ⟨y, hy, rfl, rfl⟩), hl.known ?_ y hy⟩
      rcases hv with e | e
      · exact e
      · rw [Msg.isOpenID1, h.ns, e] at h1
        exact absurd h1 (by decide)
  · cases hg : x.namespaces.nsToAlias.get? t!"sreg" with
    | none => rfl
    | some a =>
      rcases (h.names _ _).1 hg with ⟨h1, -⟩ | ⟨y, hy, h1, -⟩
      · rcases hv with e | e <;> rw [e] at h1 <;> exact absurd h1 (by decide)
      · exact absurd h1 (hl.names y hy).2.2.2

theorem tag_of {s : Str} (h : Fieldable s) : Tag s := ⟨h.2.2.1, h.1, h.2.1, h.2.2.2.1⟩

theorem Attached.tagged (h : Attached x oid d l) (hs : Signable l) : Tagged x oid := by
  refine ⟨?_, ?_⟩
  · intro a u ha
    rcases (h.names _ _).1 ((h.inv.ns.bij _ _).1 ha) with ⟨-, h1⟩ | ⟨y, hy, h1, h2⟩
    · cases h1
    · cases h2; subst h1
      obtain ⟨g1, g2, -⟩ := hs y hy
      exact ⟨tag_of g1, g2.1, g2.2.1⟩
  · intro u k v hu hg
    rcases h.only _ _ _ hg with h1 | ⟨y, hy, h1⟩
    · exact absurd (by simpa using h1) hu
    · cases h1
      rw [h.args y hy] at hg
      obtain ⟨g1, g2⟩ := (hs y hy).2.2 _ (Dict.get?_mem _ _ _ hg)
      exact ⟨tag_of g1, g2.1, g2.2.1⟩

theorem getArgs_uri {m : Msg} (reg : Dict Str Str) (hm : Built reg m) {u : Str} (hu : u ≠ t!"sreg") :
    ∃ d, m.getArgs (.uri u) = .ok d ∧ Dict.WF d ∧ ∀ k, d.get? k = m.args.get? (.uri u, k) := by
  have hf : m.fixNS (.uri u) = .ok (.uri u) := by simp [Msg.fixNS, hu]
  have : ∃ d, m.getArgs (.uri u) = .ok d := by rw [Msg.getArgs, hf]; exact ⟨_, rfl⟩
  obtain ⟨d, hd⟩ := this
  obtain ⟨h1, h2⟩ := Props.c09_getArgs reg m hm _ _ hd
  refine ⟨d, hd, h1, fun k => ?_⟩
  have := h2 k
  rw [Msg.getArg, hf] at this
  simpa using this.symm

theorem nil_of_get {β : Type} {d : Dict Str β} (h : ∀ k, d.get? k = none) : d = [] := by
  cases d with
  | nil => rfl
  | cons p r => have := h p.1; rw [Dict.get?_cons, if_pos rfl] at this; cases this

theorem Attached.none_of (h : Attached x oid d l) {u : Str} (h1 : u ≠ oid) (h2 : u ∉ l.map (·.uri)) (k : Str) :
    x.args.get? (.uri u, k) = none := by
  cases hg : x.args.get? (.uri u, k) with
  | none => rfl
  | some v =>
    rcases h.only _ _ _ hg with h3 | ⟨y, hy, h3⟩
    · exact absurd (by simpa using h3) h1
    · exact absurd (List.mem_map.2 ⟨y, hy, by cases h3; rfl⟩) h2

/-- the data of the extensions in a message that was carried -/
theorem Attached.gives {reg : Dict Str Str} {m : Msg} (h : Attached x oid d l) (hl : Attachable oid reg l) (hc : Carried x m oid)
    {reg' : Dict Str Str} (hm : Built reg' m) : Gives oid l fun u d => m.getArgs (.uri u) = .ok d := by
  refine ⟨fun y hy => ?_, fun u h1 h2 h3 => ?_⟩
  · obtain ⟨n1, n2, n3, n4⟩ := hl.names y hy
    obtain ⟨d', g1, g2, g3⟩ := getArgs_uri reg' hm n4
    refine ⟨d', g1, g2, fun k => ?_⟩
    rw [g3, hc.args _ _ n3, h.args y hy]
  · obtain ⟨d', g1, g2, g3⟩ := getArgs_uri reg' hm h2
    have hnil : d' = [] := nil_of_get fun k => by rw [g3, hc.args _ _ h1, h.none_of h1 h3]
    subst hnil
    exact g1

theorem allSigned_true {m : Msg} {signed : List Str} {ns : Ns} {l : List Str}
    (h : ∀ k ∈ l, Consumer.isSigned m signed ns k = .ok true) : Consumer.allSigned m signed ns l = .ok true := by
  induction l with
  | nil => rfl
  | cons k r ih =>
    rw [Consumer.allSigned, h k (by simp), ok_bind, if_pos rfl]
    exact ih fun k hk => h k (List.mem_cons_of_mem _ hk)

/-- the same, if all that was sent of them is signed -/
theorem Attached.gives_signed {reg : Dict Str Str} {m f : Msg} (h : Attached x oid d l) (hl : Attachable oid reg l)
    (hB : Bearer reg x oid) (hx : Holds x f oid d) (hd : ∀ k v, d k = some v → '.' ∉ k ∧ k ≠ t!"ns")
    (hc : Carried x m oid) {reg' : Dict Str Str} (hm : Built reg' m) {signed : List Str}
    (hs : ∀ k v, '.' ∈ k → f.toPostArgs.get? (t!"openid." ++ k) = some v → k ∈ signed) :
    Gives oid l fun u d => Consumer.getSignedNS m (signed.map (t!"openid." ++ ·)) (.uri u) = .ok (some d) := by
  refine ⟨fun y hy => ?_, fun u h1 h2 h3 => ?_⟩
  · obtain ⟨n1, n2, n3, n4⟩ := hl.names y hy
    obtain ⟨d', g1, g2, g3⟩ := getArgs_uri reg' hm n4
    refine ⟨d', ?_, g2, fun k => ?_⟩
    · refine (show Consumer.allSigned m _ _ d'.keys = .ok true → Consumer.getSignedNS m _ _ = _ from fun hall => by
        rw [Consumer.getSignedNS, g1, ok_bind, hall, ok_bind, if_pos rfl]; rfl) (allSigned_true ?_)
      intro k hk
      rw [Dict.mem_keys_iff, g3] at hk
      obtain ⟨v, hv⟩ := Option.isSome_iff_exists.1 hk
      have hxa : x.namespaces.aliasToNs.get? (.name y.alias) = some y.uri :=
        (h.inv.ns.bij _ _).2 ((h.names _ _).2 (.inr ⟨y, hy, rfl, rfl⟩))
      have hma : m.namespaces.nsToAlias.get? y.uri = some (.name y.alias) := by
        have := hc.inv.known y.uri k ((Dict.mem_keys_iff _ _).2 hk)
        obtain ⟨b, hb⟩ := Option.isSome_iff_exists.1 this
        have h4 := hc.names.sub _ _ ((hc.inv.ns.bij _ _).2 hb)
        have h5 := (h.inv.ns.bij _ _).1 h4
        rw [(h.inv.ns.bij _ _).1 hxa] at h5; cases h5
        exact hb
      rw [hc.args _ _ n3] at hv
      have hsent : f.toPostArgs.get? (t!"openid." ++ (y.alias ++ '.' :: k)) = some v := by
        refine (post_iff (hx.raw hB hd) _ _).2 (.ext y.alias y.uri k rfl n2 ?_ ?_ ?_)
        · intro e; exact n1 (by rw [e]; decide)
        · rw [hx.names]; exact hxa
        · rw [hx.rest _ _ (by simpa using n3)]; exact hv
      have hin := hs _ v (by simp) hsent
      rw [Consumer.isSigned, Msg.getKey]
      simp only [Msg.fixNS, if_neg n4, ok_bind, pure_eq_ok, Msg.keyOf, NamespaceMap.getAlias, hma]
      congr 1
      rw [List.contains_iff_mem, List.mem_map]
      exact ⟨_, hin, by simp⟩
    · rw [g3, hc.args _ _ n3, h.args y hy]
  · obtain ⟨d', g1, g2, g3⟩ := getArgs_uri reg' hm h2
    have hnil : d' = [] := nil_of_get fun k => by rw [g3, hc.args _ _ h1, h.none_of h1 h3]
    subst hnil
    rw [Consumer.getSignedNS, g1]; rfl

end

end Honest
