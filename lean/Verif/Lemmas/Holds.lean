import Verif.Lemmas.Transport
import Verif.Lemmas.MessageSend
import Verif.Lemmas.MessageNs
import Verif.Spec.Honest
/-! # A message with given OpenID arguments and the data of extensions -/

namespace Honest
open Py Message Association Spec
open Server (Exactly)

/-- the message holds exactly these OpenID arguments, besides the names and the data of extensions that `x` has -/
structure Holds (x m : Msg) (oid : Str) (d : Str → Option Str) : Prop where
  inv : MInv m
  names : m.namespaces = x.namespaces
  here : ∀ k, m.args.get? (.uri oid, k) = d k
  rest : ∀ n k, n ≠ .uri oid → m.args.get? (n, k) = x.args.get? (n, k)

/-- a name that can be in the list of what is signed -/
def Tag (s : Str) : Prop := '\n' ∉ s ∧ ':' ∉ s ∧ ',' ∉ s ∧ Legible s

/-- extensions of a message that can be sent to whoever has registered `reg` -/
structure Bearer (reg : Dict Str Str) (x : Msg) (oid : Str) : Prop where
  ns : x.getOpenIDNamespace = some oid
  version : oid = OPENID1_NS ∨ oid = OPENID2_NS
  imp : x.namespaces.isImplicit oid = OPENID1_NAMESPACES.contains oid
  bare : ∀ k, x.args.get? (.bare, k) = none
  implied : ∀ u k v, u ≠ oid → x.args.get? (.uri u, k) = some v → x.namespaces.isImplicit u = true →
    x.isOpenID1 = true ∧ ∃ a, x.namespaces.nsToAlias.get? u = some (.name a) ∧ reg.get? a = some u
  noSreg : x.namespaces.nsToAlias.get? t!"sreg" = none

/-- extensions of a message that can be signed -/
structure Tagged (x : Msg) (oid : Str) : Prop where
  names : ∀ a u, x.namespaces.aliasToNs.get? (.name a) = some u → Tag a ∧ '\n' ∉ u ∧ Legible u
  data : ∀ u k v, u ≠ oid → x.args.get? (.uri u, k) = some v → Tag k ∧ '\n' ∉ v ∧ Legible v

theorem legible_append {a b : Str} (ha : Legible a) (hb : Legible b) : Legible (a ++ b) := by
  intro c hc
  rcases List.mem_append.1 hc with h | h
  · exact ha c h
  · exact hb c h

theorem argsOf_mem {l : List (Str × Option Str)} {k v : Str} (h : argsOf l k = some v) : (k, some v) ∈ l := by
  induction l with
  | nil => cases h
  | cons p r ih =>
    obtain ⟨a, b⟩ := p
    rw [argsOf] at h
    split at h
    · next he => subst he; subst h; simp
    · exact List.mem_cons_of_mem _ (ih h)

theorem Tag.dotted {a b : Str} (ha : Tag a) (hb : Tag b) : Tag (a ++ '.' :: b) := by
  obtain ⟨a1, a2, a3, a4⟩ := ha
  obtain ⟨b1, b2, b3, b4⟩ := hb
  refine ⟨?_, ?_, ?_, legible_append a4 (legible_append (a := ['.']) (by decide) b4)⟩ <;> simp_all

section
variable {reg : Dict Str Str} {x m : Msg} {oid : Str} {d : Str → Option Str}

theorem Holds.ns (hB : Bearer reg x oid) (h : Holds x m oid d) : m.getOpenIDNamespace = some oid := by
  rw [Msg.getOpenIDNamespace, h.names]; exact hB.ns

theorem Holds.getArg (hB : Bearer reg x oid) (h : Holds x m oid d) (k : Str) : m.getArg .openid k = .ok (d k) := by
  simp [Msg.getArg, Msg.fixNS, h.ns hB, h.here]

theorem Holds.congr {d' : Str → Option Str} (h : Holds x m oid d) (he : ∀ k, d k = d' k) : Holds x m oid d' := by
  have : d = d' := funext he
  exact this ▸ h

theorem Holds.set (hB : Bearer reg x oid) (h : Holds x m oid d) {k v : Str} {m' : Msg} (hs : m.setArg .openid k v = .ok m') :
    Holds x m' oid (fun k' => if k = k' then some v else d k') := by
  obtain ⟨oid', ho, hn, ha, hi, -⟩ := setArg_openid m h.inv k v m' hs
  rw [h.ns hB] at ho; cases ho
  refine ⟨hi, hn.trans h.names, ?_, ?_⟩
  · intro k'; rw [ha, Dict.get?_set, h.here]; simp
  · intro n k' hne
    rw [ha, Dict.get?_set, if_neg (by simp; intro e; exact absurd e.symm hne)]
    exact h.rest n k' hne

theorem Holds.can (hB : Bearer reg x oid) (h : Holds x m oid d) (k v : Str) :
    ∃ m', m.setArg .openid k v = .ok m' ∧ Holds x m' oid (fun k' => if k = k' then some v else d k') := by
  obtain ⟨m', e, -⟩ := setArg_ok m h.inv .openid k v (.uri oid) (by simp [Msg.fixNS, h.ns hB])
  exact ⟨m', e, h.set hB e⟩

theorem Holds.setNew (hB : Bearer reg x oid) {l : List (Str × Option Str)} (h : Holds x m oid (argsOf l)) {k v : Str} {m' : Msg}
    (hk : k ∉ l.map (·.1)) (hs : m.setArg .openid k v = .ok m') : Holds x m' oid (argsOf (l ++ [(k, some v)])) :=
  (h.set hB hs).congr fun x => by rw [← Server.argsOf_append hk]; simp

theorem Holds.raw (hB : Bearer reg x oid) (h : Holds x m oid d) (hd : ∀ k v, d k = some v → '.' ∉ k ∧ k ≠ t!"ns") :
    Raw reg m oid := by
  refine ⟨h.inv, h.ns hB, ?_, ?_, ?_, ?_, ?_⟩
  · rw [h.names, hB.imp]
    rcases hB.version with e | e <;> rw [e]
    · intro _; rfl
    · intro h; exact absurd h (by decide)
  · intro k v hk; rw [h.here] at hk; exact hd k v hk
  · intro k v hk
    rw [h.rest _ _ (by simp), hB.bare] at hk; cases hk
  · intro u k v hu hk hi
    rw [h.rest _ _ (by simpa using hu)] at hk
    rw [h.names] at hi
    obtain ⟨h1, a, h2, h3⟩ := hB.implied u k v hu hk hi
    refine ⟨?_, a, by rw [h.names]; exact h2, h3⟩
    rw [Msg.isOpenID1, h.ns hB, ← hB.ns]; exact h1
  · rw [h.names]; exact hB.noSreg

theorem Holds.post (hB : Bearer reg x oid) (h : Holds x m oid d) (hd : ∀ k v, d k = some v → '.' ∉ k ∧ k ≠ t!"ns") (k : Str)
    (hk : '.' ∉ k ∧ k ≠ t!"ns") : m.toPostArgs.get? (t!"openid." ++ k) = d k := by
  rw [post_plain m h.inv oid (h.ns hB) k hk.1 hk.2 (by rw [h.rest _ _ (by simp), hB.bare]), h.here]

theorem Holds.post_ns (hB : Bearer reg x oid) (h : Holds x m oid d) (hd : ∀ k v, d k = some v → '.' ∉ k ∧ k ≠ t!"ns") :
    m.toPostArgs.get? (t!"openid." ++ t!"ns") = if oid = OPENID1_NS then none else some oid := by
  have hr := h.raw hB hd
  have hi : m.namespaces.isImplicit oid = OPENID1_NAMESPACES.contains oid := by rw [h.names, hB.imp]
  split
  · next he =>
    cases hp : m.toPostArgs.get? (t!"openid." ++ t!"ns") with
    | none => rfl
    | some v =>
      have := (sent_version ((post_iff hr _ _).1 hp)).2
      rw [hi, he] at this; exact absurd this (by decide)
  · next he =>
    refine (post_iff hr _ _).2 (.version rfl rfl ?_)
    rw [hi, hB.version.resolve_left he]; decide

/-- every field that is sent -/
theorem Holds.field (hB : Bearer reg x oid) (h : Holds x m oid d) (hd : ∀ k v, d k = some v → '.' ∉ k ∧ k ≠ t!"ns") {K v : Str}
    (hp : m.toPostArgs.get? K = some v) : ∃ k, K = t!"openid." ++ k ∧
      ('.' ∉ k ∧ k ≠ t!"ns" ∧ d k = some v ∨ k = t!"ns" ∧ v = oid ∨ '.' ∈ k ∧ (Tagged x oid → Tag k ∧ '\n' ∉ v ∧ Legible v)) := by
  have hr := h.raw hB hd
  have hu : ∀ a u, m.namespaces.aliasToNs.get? (.name a) = some u → u ≠ oid := by
    rintro a u h1 rfl
    have h2 := (h.inv.ns.bij _ _).1 h1
    have h3 := (h.inv.ns.bij _ _).1 hr.version
    exact nomatch h2.symm.trans h3
  rcases (post_iff hr _ _).1 hp with ⟨h1, h2, -⟩ | ⟨a, h1, h2, -⟩ | ⟨h1, h2⟩ | ⟨k, h1, h2, h3, h4⟩ | ⟨a, u, k, h1, h2, h3, h4, h5⟩
  · exact ⟨t!"ns", h1, .inr (.inl ⟨rfl, h2⟩)⟩
  · rw [h.names] at h2
    refine ⟨t!"ns" ++ '.' :: a, h1, .inr (.inr ⟨by simp, fun hT => ?_⟩)⟩
    obtain ⟨g1, g2, g3⟩ := hT.names a v h2
    exact ⟨Tag.dotted ⟨by decide, by decide, by decide, by decide⟩ g1, g2, g3⟩
  · rw [h.rest _ _ (by simp), hB.bare] at h2; cases h2
  · exact ⟨k, h1, .inl ⟨h2, h3, by rw [← h.here]; exact h4⟩⟩
  · have hne := hu a u h4
    rw [h.rest _ _ (by simpa using hne)] at h5
    rw [h.names] at h4
    refine ⟨a ++ '.' :: k, h1, .inr (.inr ⟨by simp, fun hT => ?_⟩)⟩
    obtain ⟨g1, g2, g3⟩ := hT.data u k v hne h5
    exact ⟨Tag.dotted (hT.names a u h4).1 g1, g2, g3⟩

theorem Holds.legible (hB : Bearer reg x oid) (hT : Tagged x oid) {l : List (Str × Option Str)} (h : Holds x m oid (argsOf l))
    (hd : ∀ k v, argsOf l k = some v → '.' ∉ k ∧ k ≠ t!"ns") (ho : Legible oid)
    (hl : ∀ k v, (k, some v) ∈ l → Legible k ∧ Legible v) : ∀ p ∈ m.toPostArgs, Legible p.1 ∧ Legible p.2 := by
  rintro ⟨K, v⟩ hm
  have hw : Dict.WF m.toPostArgs := by rw [toPostArgs_eq]; exact Dict.WF_ofPairs _
  have hp : Legible t!"openid." := by decide
  obtain ⟨k, rfl, ⟨-, -, h1⟩ | ⟨rfl, rfl⟩ | ⟨-, h1⟩⟩ := h.field hB hd (Dict.get?_of_mem _ hw _ _ hm)
  · exact ⟨legible_append hp (hl k v (argsOf_mem h1)).1, (hl k v (argsOf_mem h1)).2⟩
  · exact ⟨legible_append hp (by decide), ho⟩
  · obtain ⟨h1, -, h2⟩ := h1 hT
    exact ⟨legible_append hp h1.2.2.2, h2⟩

end

theorem exactly_names {m : Msg} {oid : Str} {d : Str → Option Str} (h : Exactly m oid d) (a : Str) :
    m.namespaces.aliasToNs.get? (.name a) = none := by
  cases hg : m.namespaces.aliasToNs.get? (.name a) with
  | none => rfl
  | some u =>
    have := (h.inv.ns.bij _ _).1 hg
    rw [h.fresh, Dict.get?_cons] at this
    split at this
    · cases this
    · cases this

/-- without extensions -/
theorem bearer_of {reg : Dict Str Str} {m : Msg} {oid : Str} {d : Str → Option Str} (h : Exactly m oid d)
    (hv : oid = OPENID1_NS ∨ oid = OPENID2_NS) : Bearer reg m oid := by
  refine ⟨h.ns, hv, h.imp, fun k => h.only _ _ (by simp), ?_, ?_⟩
  · intro u k v hu hk; rw [h.only _ _ (by simpa using hu)] at hk; cases hk
  · rw [h.fresh, Dict.get?_cons, if_neg (by rcases hv with e | e <;> rw [e] <;> decide)]; rfl

theorem tagged_of {m : Msg} {oid : Str} {d : Str → Option Str} (h : Exactly m oid d) : Tagged m oid := by
  refine ⟨?_, ?_⟩
  · intro a u ha; rw [exactly_names h] at ha; cases ha
  · intro u k v hu hk; rw [h.only _ _ (by simpa using hu)] at hk; cases hk

theorem holds_of {m : Msg} {oid : Str} {d : Str → Option Str} (h : Exactly m oid d) : Holds m m oid d :=
  ⟨h.inv, rfl, h.here, fun _ _ _ => rfl⟩

theorem Holds.exactly {x m : Msg} {oid : Str} {d d' : Str → Option Str} (hx : Exactly x oid d') (h : Holds x m oid d) :
    Exactly m oid d :=
  ⟨h.inv, by rw [Msg.getOpenIDNamespace, h.names]; exact hx.ns, h.here, fun n k hn => by rw [h.rest n k hn]; exact hx.only n k hn,
    by rw [h.names]; exact hx.fresh, by rw [h.names]; exact hx.imp⟩

theorem Holds.skip {x m : Msg} {oid : Str} {l : List (Str × Option Str)} (h : Holds x m oid (argsOf l)) {k : Str}
    (hk : k ∉ l.map (·.1)) : Holds x m oid (argsOf (l ++ [(k, none)])) :=
  h.congr fun y => by
    rw [← Server.argsOf_append hk]
    split
    · next hy =>
      subst hy
      cases ha : argsOf l k with
      | none => rfl
      | some v => exact absurd (List.mem_map.2 ⟨_, argsOf_mem ha, rfl⟩) hk
    · rfl

/-- what is sent of the extensions does not depend on the rest -/
theorem Holds.dotted {reg : Dict Str Str} {x f f' : Msg} {oid : Str} (hB : Bearer reg x oid) {d d' : Str → Option Str}
    (h : Holds x f oid d) (hd : ∀ k v, d k = some v → '.' ∉ k ∧ k ≠ t!"ns") (h' : Holds x f' oid d')
    (hd' : ∀ k v, d' k = some v → '.' ∉ k ∧ k ≠ t!"ns") {k : Str} (hk : '.' ∈ k) :
    f.toPostArgs.get? (t!"openid." ++ k) = f'.toPostArgs.get? (t!"openid." ++ k) := by
  have key : ∀ {f f' : Msg} {d d' : Str → Option Str}, Holds x f oid d → (∀ k v, d k = some v → '.' ∉ k ∧ k ≠ t!"ns") →
      Holds x f' oid d' → (∀ k v, d' k = some v → '.' ∉ k ∧ k ≠ t!"ns") → ∀ v,
      f.toPostArgs.get? (t!"openid." ++ k) = some v → f'.toPostArgs.get? (t!"openid." ++ k) = some v := by
    intro f f' d d' h hd h' hd' v hv
    have hr := h.raw hB hd
    refine (post_iff (h'.raw hB hd') _ _).2 ?_
    rcases (post_iff hr _ _).1 hv with ⟨h1, h2, -⟩ | ⟨a, h1, h2, h3⟩ | ⟨h1, h2⟩ | ⟨k', h1, h2, h3, h4⟩ | ⟨a, u, k', h1, h2, h3, h4, h5⟩
    · rw [pre_inj (b := t!"ns") h1] at hk; exact absurd hk (by decide)
    · refine .decl a h1 ?_ ?_
      · rw [h'.names, ← h.names]; exact h2
      · rw [h'.names, ← h.names]; exact h3
    · rw [h.rest _ _ (by simp), hB.bare] at h2; cases h2
    · rw [pre_inj h1] at hk; exact absurd hk h2
    · refine .ext a u k' h1 h2 h3 ?_ ?_
      · rw [h'.names, ← h.names]; exact h4
      · have hne : u ≠ oid := by
          rintro rfl
          have p2 := (h.inv.ns.bij _ _).1 h4
          have p3 := (h.inv.ns.bij _ _).1 hr.version
          exact nomatch p2.symm.trans p3
        rw [h'.rest _ _ (by simpa using hne), ← h.rest _ _ (by simpa using hne)]; exact h5
  cases hv : f.toPostArgs.get? (t!"openid." ++ k) with
  | some v => exact (key h hd h' hd' v hv).symm
  | none =>
    cases hv' : f'.toPostArgs.get? (t!"openid." ++ k) with
    | none => rfl
    | some v => rw [key h' hd' h hd v hv'] at hv; cases hv

theorem Holds.noDecl {reg : Dict Str Str} {x f : Msg} {oid : Str} (hB : Bearer reg x oid) {d : Str → Option Str}
    (h : Holds x f oid d) (hd : ∀ k v, d k = some v → '.' ∉ k ∧ k ≠ t!"ns") {a u : Str}
    (hp : f.toPostArgs.get? (t!"openid.ns." ++ a) = some u) : u ≠ t!"sreg" := by
  rintro rfl
  have h1 := (sent_decl ((post_iff (h.raw hB hd) _ _).1 hp)).1
  rw [h.names] at h1
  have h2 := (h.names ▸ h.inv.ns.bij _ _).1 h1
  rw [hB.noSreg] at h2; cases h2

/-- the extensions of one message as another has them -/
structure Carried (x m : Msg) (oid : Str) : Prop where
  inv : MInv m
  names : Message.Agrees m.namespaces x.namespaces oid
  args : ∀ u k, u ≠ oid → m.args.get? (.uri u, k) = x.args.get? (.uri u, k)
  declared : ∀ a u, x.namespaces.aliasToNs.get? a = some u → x.namespaces.isImplicit u = false →
    m.namespaces.aliasToNs.get? a = some u

theorem Holds.arrives {reg : Dict Str Str} {x f : Msg} {oid : Str} (hB : Bearer reg x oid) {d : Str → Option Str}
    (h : Holds x f oid d) (hd : ∀ k v, d k = some v → '.' ∉ k ∧ k ≠ t!"ns") {q : Dict Str Str} (hq : Dict.WF q)
    (ho : ∀ k, q.get? (t!"openid." ++ k) = f.toPostArgs.get? (t!"openid." ++ k)) :
    ∃ m, fromPostArgs reg q = .ok m ∧ Carried x m oid := by
  obtain ⟨m, h1, h2, h3, h4, h5⟩ := transport (h.raw hB hd) hq ho
  refine ⟨m, h1, h2, h.names ▸ h3, ?_, h.names ▸ h5⟩
  intro u k hu
  rw [h4, h.rest _ _ (by simpa using hu)]

end Honest
