import Verif.Lemmas.MessageImplied
import Verif.Spec.Registry
import Verif.Props.Message
/-! # C82: the registered names of extensions, and what is read with them -/

namespace Props
open Py Message NamespaceMap Spec

/-- a table of aliases where no two have the same URI -/
def OneToOne (reg : Dict Str Str) : Prop :=
  Dict.WF reg ∧ ∀ a b u, reg.get? a = some u → reg.get? b = some u → a = b

theorem mem_values {reg : Dict Str Str} (hw : Dict.WF reg) {u : Str} : u ∈ reg.map (·.2) ↔ ∃ a, reg.get? a = some u := by
  rw [List.mem_map]
  constructor
  · rintro ⟨⟨a, v⟩, h, rfl⟩; exact ⟨a, Dict.get?_of_mem _ hw _ _ h⟩
  · rintro ⟨a, h⟩; exact ⟨(a, u), Dict.get?_mem _ _ _ h, rfl⟩

/-- **C82** When a registration is refused: the URI has another alias, or the alias stands for another URI.  Else the alias
    stands for the URI afterwards, and all other aliases for what they stood for. -/
theorem c82_register (reg : Dict Str Str) (hr : OneToOne reg) (uri alias : Str) :
    (registerNamespaceAlias reg uri alias = none ↔
      (∃ b, b ≠ alias ∧ reg.get? b = some uri) ∨ ∃ u, u ≠ uri ∧ reg.get? alias = some u) ∧
    ∀ reg', registerNamespaceAlias reg uri alias = some reg' →
      OneToOne reg' ∧ ∀ a, reg'.get? a = if a = alias then some uri else reg.get? a := by
  have hv := mem_values hr.1 (u := uri)
  unfold registerNamespaceAlias
  by_cases h1 : reg.get? alias = some uri
  · rw [if_pos h1]
    refine ⟨⟨fun h => (by cases h), ?_⟩, fun reg' h => ?_⟩
    · rintro (⟨b, hb, h⟩ | ⟨u, hu, h⟩)
      · exact absurd (hr.2 _ _ _ h h1) hb
      · rw [h1] at h; exact absurd (Option.some.inj h).symm hu
    · cases h
      refine ⟨hr, fun a => ?_⟩
      split
      · next e => rw [e]; exact h1
      · rfl
  · rw [if_neg h1]
    by_cases h2 : uri ∈ reg.map (·.2)
    · rw [if_pos h2]
      obtain ⟨b, hb⟩ := hv.1 h2
      refine ⟨⟨fun _ => .inl ⟨b, ?_, hb⟩, fun _ => rfl⟩, fun _ h => by cases h⟩
      rintro rfl; exact h1 hb
    · rw [if_neg h2]
      by_cases h3 : reg.has alias = true
      · rw [if_pos h3]
        rw [Dict.has, Option.isSome_iff_exists] at h3
        obtain ⟨u, hu⟩ := h3
        refine ⟨⟨fun _ => .inr ⟨u, ?_, hu⟩, fun _ => rfl⟩, fun _ h => by cases h⟩
        rintro rfl; exact h1 hu
      · rw [if_neg h3]
        rw [Dict.has, Option.isSome_iff_exists] at h3
        refine ⟨⟨fun h => (by cases h), ?_⟩, fun reg' h => ?_⟩
        · rintro (⟨b, -, h⟩ | ⟨u, -, h⟩)
          · exact absurd (hv.2 ⟨b, h⟩) h2
          · exact absurd ⟨u, h⟩ h3
        · cases h
          have hg : ∀ a, (reg.set alias uri).get? a = if a = alias then some uri else reg.get? a := by
            intro a
            rw [Dict.get?_set]
            by_cases e : alias = a
            · rw [if_pos e, if_pos e.symm]
            · rw [if_neg e, if_neg (Ne.symm e)]
          refine ⟨⟨Dict.WF_set _ hr.1 _ _, fun a b u ha hb => ?_⟩, hg⟩
          rw [hg] at ha hb
          split at ha <;> split at hb
          · next e1 e2 => rw [e1, e2]
          · cases ha; exact absurd (hv.2 ⟨b, hb⟩) h2
          · cases hb; exact absurd (hv.2 ⟨a, ha⟩) h2
          · exact hr.2 a b u ha hb

theorem oneToOne_nil : OneToOne [] := ⟨Dict.WF_nil, fun a b u h => by cases h⟩

theorem regStep_spec (reg : Dict Str Str) (hr : OneToOne reg) (p : Str × Str) :
    OneToOne (regStep reg p) ∧ (∀ a u, reg.get? a = some u → (regStep reg p).get? a = some u) := by
  obtain ⟨h1, h2⟩ := c82_register reg hr p.1 p.2
  rw [regStep]
  cases hc : registerNamespaceAlias reg p.1 p.2 with
  | none => exact ⟨hr, fun _ _ h => h⟩
  | some reg' =>
    obtain ⟨g1, g2⟩ := h2 reg' hc
    refine ⟨g1, fun a u ha => ?_⟩
    simp only [Option.getD_some, g2]
    split
    · next e =>
      by_cases hu : u = p.1
      · rw [hu]
      · have := h1.2 (.inr ⟨u, hu, by rw [← e]; exact ha⟩)
        rw [hc] at this; cases this
    · exact ha

theorem registry_append (as bs : List (Str × Str)) : registry (as ++ bs) = bs.foldl regStep (registry as) := by
  rw [registry, registry, List.foldl_append]

theorem run_spec (calls : List (Str × Str)) (reg : Dict Str Str) (hr : OneToOne reg) :
    OneToOne (calls.foldl regStep reg) ∧ ∀ a u, reg.get? a = some u → (calls.foldl regStep reg).get? a = some u := by
  induction calls generalizing reg with
  | nil => exact ⟨hr, fun _ _ h => h⟩
  | cons p r ih =>
    obtain ⟨h1, h2⟩ := regStep_spec reg hr p
    obtain ⟨h3, h4⟩ := ih _ h1
    exact ⟨h3, fun a u h => h4 a u (h2 a u h)⟩

/-- **C82** After any registrations, refused ones included: aliases and URIs correspond one to one, … -/
theorem c82_one_to_one (calls : List (Str × Str)) : OneToOne (registry calls) := (run_spec calls [] oneToOne_nil).1

/-- **C82** … what an alias stands for never changes, … -/
theorem c82_kept (calls more : List (Str × Str)) (alias uri : Str) (h : (registry calls).get? alias = some uri) :
    (registry (calls ++ more)).get? alias = some uri := by
  rw [registry_append]
  exact (run_spec more _ (c82_one_to_one calls)).2 _ _ h

theorem snoc_ind {P : List α → Prop} (h0 : P []) (h1 : ∀ l a, P l → P (l ++ [a])) (l : List α) : P l := by
  have : ∀ l : List α, P l.reverse := by
    intro l
    induction l with
    | nil => exact h0
    | cons a r ih => rw [List.reverse_cons]; exact h1 _ a ih
  rw [← List.reverse_reverse l]
  exact this _

/-- **C82** … and first come, first served: an alias stands for a URI exactly when a call with both took effect, which a call
    does unless an earlier call that did had the alias or the URI. -/
theorem c82_first_come (calls : List (Str × Str)) (alias uri : Str) :
    (registry calls).get? alias = some uri ↔ ∃ i, TookEffect calls i ∧ calls[i]? = some (uri, alias) := by
  -- a call that took effect among the first ones did so whatever follows
  have hpre : ∀ (xs ys : List (Str × Str)) (i : Nat), i < xs.length → (TookEffect (xs ++ ys) i ↔ TookEffect xs i) := by
    intro xs ys i
    induction i using Nat.strongRecOn with
    | ind i ih =>
      intro hi
      rw [TookEffect, TookEffect, List.getElem?_append_left hi]
      refine exists_congr fun p => and_congr Iff.rfl (forall_congr' fun j => forall_congr' fun hj => ?_)
      rw [ih j hj (by omega), List.getElem?_append_left (by omega)]
  have hlen : ∀ (xs : List (Str × Str)) (i : Nat), TookEffect xs i → i < xs.length := by
    intro xs i h
    rw [TookEffect] at h
    obtain ⟨p, hp, -⟩ := h
    exact (List.getElem?_eq_some_iff.1 hp).1
  revert alias uri
  refine snoc_ind (P := fun calls => ∀ alias uri, (registry calls).get? alias = some uri ↔
    ∃ i, TookEffect calls i ∧ calls[i]? = some (uri, alias)) (fun alias uri => ?_) (fun xs p ih alias uri => ?_) calls
  · constructor
    · intro h; cases h
    · rintro ⟨i, -, h⟩; simp at h
  · rw [registry_append]
    simp only [List.foldl_cons, List.foldl_nil]
    obtain ⟨c1, c2⟩ := c82_register (registry xs) (c82_one_to_one xs) p.1 p.2
    have hlast : TookEffect (xs ++ [p]) xs.length ↔
        ∀ a u, (registry xs).get? a = some u → u ≠ p.1 ∧ a ≠ p.2 := by
      rw [TookEffect]
      simp only [List.getElem?_concat_length, Option.some.injEq, exists_eq_left']
      constructor
      · intro h a u hau
        obtain ⟨j, hj, e⟩ := (ih a u).1 hau
        have hjl := hlen _ _ hj
        exact h j hjl ((hpre xs [p] j hjl).2 hj) (u, a) (by rw [List.getElem?_append_left hjl]; exact e)
      · intro h j hj ht p' hp'
        rw [hpre xs [p] j hj] at ht
        rw [List.getElem?_append_left hj] at hp'
        exact h p'.2 p'.1 ((ih _ _).2 ⟨j, ht, hp'⟩)
    have hsplit : (∃ i, TookEffect (xs ++ [p]) i ∧ (xs ++ [p])[i]? = some (uri, alias)) ↔
        (registry xs).get? alias = some uri ∨ TookEffect (xs ++ [p]) xs.length ∧ p = (uri, alias) := by
      rw [ih alias uri]
      constructor
      · rintro ⟨i, h1, h2⟩
        have hi := hlen _ _ h1
        simp only [List.length_append, List.length_singleton] at hi
        rcases Nat.lt_or_ge i xs.length with hlt | hge
        · exact .inl ⟨i, (hpre xs [p] i hlt).1 h1, by rw [List.getElem?_append_left hlt] at h2; exact h2⟩
        · obtain rfl : i = xs.length := by omega
          simp only [List.getElem?_concat_length, Option.some.injEq] at h2
          exact .inr ⟨h1, h2⟩
      · rintro (⟨i, h1, h2⟩ | ⟨h1, h2⟩)
        · have hlt := hlen _ _ h1
          exact ⟨i, (hpre xs [p] i hlt).2 h1, by rw [List.getElem?_append_left hlt]; exact h2⟩
        · exact ⟨xs.length, h1, by simp [h2]⟩
    rw [hsplit, hlast, regStep]
    cases hc : registerNamespaceAlias (registry xs) p.1 p.2 with
    | none =>
      simp only [Option.getD_none]
      refine ⟨.inl, ?_⟩
      rintro (h | ⟨h, -⟩)
      · exact h
      · rcases c1.1 hc with ⟨b, -, hb⟩ | ⟨u, -, hu⟩
        · exact absurd rfl (h _ _ hb).1
        · exact absurd rfl (h _ _ hu).2
    | some reg' =>
      obtain ⟨-, hg⟩ := c2 reg' hc
      have hnot := mt c1.2 (by rw [hc]; simp)
      simp only [Option.getD_some, hg]
      constructor
      · intro h
        split at h
        · next e =>
          cases h
          by_cases hex : (registry xs).get? alias = some p.1
          · exact .inl hex
          · refine .inr ⟨fun a u hau => ⟨?_, ?_⟩, by rw [e]⟩
            · rintro rfl
              refine hnot (.inl ⟨a, ?_, hau⟩)
              rintro rfl; exact hex (e ▸ hau)
            · rintro rfl
              refine hnot (.inr ⟨u, ?_, hau⟩)
              rintro rfl; exact hex (e ▸ hau)
        · exact .inl h
      · rintro (h | ⟨-, h⟩)
        · split
          · next e =>
            by_cases hu : uri = p.1
            · rw [hu]
            · exact absurd (.inr ⟨uri, hu, e ▸ h⟩) hnot
          · exact h
        · rw [h]; simp

/-- **C82** A program registers three aliases after the library's own, two of them too late: one for an alias that is taken
    and one for a URI that has an alias. -/
example : registry [(t!"http://openid.net/extensions/sreg/1.1", t!"sreg"), (t!"http://openid.net/srv/ax/1.0", t!"ax"),
      (t!"http://e.example/", t!"ax"), (t!"http://openid.net/srv/ax/1.0", t!"ext"),
      (t!"http://openid.net/extensions/sreg/1.1", t!"sreg")] =
    [(t!"sreg", t!"http://openid.net/extensions/sreg/1.1"), (t!"ax", t!"http://openid.net/srv/ax/1.0")] := by decide

example : registry [(t!"http://openid.net/extensions/sreg/1.1", t!"sreg")] = libReg := by decide

/-! ## What is read -/

/-- the extension that a name stands for in a query: what it is declared for there, or, in OpenID 1, what it is registered
    for, if there are arguments under it -/
def StandsFor (reg q : Dict Str Str) (a u : Str) : Prop :=
  arg q (t!"ns." ++ a) = some u ∨ Implied reg (versionIn (arg q)) (arg q) a u

theorem parsed_arg {m : Msg} {u k : Str} (hs : u ≠ t!"sreg") {o : Option Str} (h : m.args.get? (.uri u, k) = o) :
    m.getArg (.uri u) k = .ok o := by
  simp [Msg.getArg, Msg.fixNS, hs, h]

/-- **C82** The arguments of an extension are read under the name that stands for it, declared or registered. -/
theorem c82_read_extension (reg q : Dict Str Str) (hq : Dict.WF q) (hreg : ∀ a u, reg.get? a = some u → u ≠ t!"sreg")
    (hdecl : ∀ a, arg q (t!"ns." ++ a) ≠ some t!"sreg") (m : Msg) (hm : fromPostArgs reg q = .ok m) (a u : Str)
    (ha : StandsFor reg q a u) (k : Str) :
    m.getArg (.uri u) k = .ok (arg q (a ++ '.' :: k)) ∧ m.getAliasedArg (a ++ '.' :: k) = .ok (arg q (a ++ '.' :: k)) := by
  have hd : ∀ b w, arg q (t!"ns." ++ b) = some w → w ≠ t!"sreg" := fun b w hb e => hdecl b (e ▸ hb)
  have key : m.namespaces.aliasToNs.get? (.name a) = some u ∧ m.args.get? (.uri u, k) = arg q (a ++ '.' :: k) := by
    rcases ha with ha | ha
    · obtain ⟨h1, h2⟩ := fromPostArgs_declared hq hreg hd hm ha
      exact ⟨h1, h2 k⟩
    · obtain ⟨h1, h2⟩ := fromPostArgs_implied hq hreg hd hm ha
      exact ⟨h1, h2 k⟩
  have hs : u ≠ t!"sreg" := by
    rcases ha with ha | ha
    · exact hd _ _ ha
    · exact hreg _ _ ha.2.2.2.2.2
  have hr := parsed_arg hs key.2
  refine ⟨hr, ?_⟩
  have hi := (fromPostArgs_has hq hm).1.inv
  obtain ⟨hdot, hne⟩ := ok_name (hi.ns.ok _ _ key.1)
  have h1 : a ++ '.' :: k ≠ t!"ns" := no_dot_eq nodot_ns
  have h2 : startsWith (a ++ '.' :: k) t!"ns." = false := by
    rw [Bool.eq_false_iff]
    intro h
    obtain ⟨r, e⟩ := (startsWith_iff _ _).1 h
    exact hne (dot_split hdot nodot_ns (e.trans (rfl : _ = t!"ns" ++ '.' :: r))).1
  rw [Msg.getAliasedArg, if_neg h1, h2]
  simp only [cut_append _ _ _ hdot, getNamespaceURI, key.1]
  exact hr

/-- **C82** An argument under a name that stands for nothing is one of the protocol itself, dot and all. -/
theorem c82_read_unnamed (reg q : Dict Str Str) (hq : Dict.WF q) (hreg : ∀ a u, reg.get? a = some u → u ≠ t!"sreg")
    (hdecl : ∀ a, arg q (t!"ns." ++ a) ≠ some t!"sreg") (m : Msg) (hm : fromPostArgs reg q = .ok m) (a : Str)
    (hdot : '.' ∉ a) (hns : a ≠ t!"ns") (ha : ∀ u, ¬ StandsFor reg q a u) (k : Str) :
    m.getArg .openid (a ++ '.' :: k) = .ok (arg q (a ++ '.' :: k)) := by
  have hd : ∀ b w, arg q (t!"ns." ++ b) = some w → w ≠ t!"sreg" := fun b w hb e => hdecl b (e ▸ hb)
  have hnone : arg q (t!"ns." ++ a) = none := by
    cases h : arg q (t!"ns." ++ a) with
    | none => rfl
    | some u => exact absurd (.inl h) (ha u)
  have h := fromPostArgs_dotted hq hreg hd hm hdot hns hnone (fun u hu => ha u (.inr hu)) k
  have hnull : m.namespaces.aliasToNs.get? .null = some (versionIn (arg q)) := (fromPostArgs_has hq hm).1.ns
  simp [Msg.getArg, Msg.fixNS, Msg.getOpenIDNamespace, getNamespaceURI, hnull, h]

/-- **C82** Nothing else is read: a message that is read has arguments of an extension only if some name stands for it in the
    query, and it is there under that name. -/
theorem c82_read_only (reg q : Dict Str Str) (hq : Dict.WF q) (hreg : ∀ a u, reg.get? a = some u → u ≠ t!"sreg")
    (hdecl : ∀ a, arg q (t!"ns." ++ a) ≠ some t!"sreg") (m : Msg) (hm : fromPostArgs reg q = .ok m) (u k v : Str)
    (hs : u ≠ t!"sreg") (hu : u ≠ versionIn (arg q)) (hv : m.getArg (.uri u) k = .ok (some v)) :
    ∃ a, StandsFor reg q a u ∧ arg q (a ++ '.' :: k) = some v := by
  have hd : ∀ b w, arg q (t!"ns." ++ b) = some w → w ≠ t!"sreg" := fun b w hb e => hdecl b (e ▸ hb)
  have hi := (fromPostArgs_has hq hm).1.inv
  have hv' : m.args.get? (.uri u, k) = some v := by
    simpa [Msg.getArg, Msg.fixNS, hs] using hv
  have hk := hi.known u k (List.mem_map.2 ⟨_, Dict.get?_mem _ _ _ hv', rfl⟩)
  obtain ⟨b, hb⟩ := Option.isSome_iff_exists.1 hk
  have hb' := (hi.ns.bij _ _).2 hb
  rcases fromPostArgs_names hq hreg hd hm hb' with ⟨-, e⟩ | ⟨a, -, h⟩
  · exact absurd e hu
  · refine ⟨a, h, ?_⟩
    have := (c82_read_extension reg q hq hreg hdecl m hm a u h k).1
    rw [this] at hv
    exact Except.ok.inj hv

/-- **C82** A registration decides what an OpenID 1 message means: the same query is about an extension when its name is
    registered, and an argument of the protocol when not.  (The library registers `sreg` and no other.) -/
theorem c82_registered_or_not (q : Dict Str Str) (hq : Dict.WF q) (calls : List (Str × Str)) (a u k v : Str)
    (hcalls : ∀ p ∈ calls, p.1 ≠ t!"sreg") (hdecl : ∀ b, arg q (t!"ns." ++ b) ≠ some t!"sreg")
    (h1 : versionIn (arg q) ∈ [t!"http://openid.net/signon/1.0", t!"http://openid.net/signon/1.1"])
    (hdot : '.' ∉ a) (hns : a ≠ t!"ns") (hnd : arg q (t!"ns." ++ a) = none) (hv : arg q (a ++ '.' :: k) = some v)
    (m : Msg) (hm : fromPostArgs (registry calls) q = .ok m) :
    ((registry calls).get? a = some u → m.getArg (.uri u) k = .ok (some v)) ∧
    ((registry calls).get? a = none → m.getArg .openid (a ++ '.' :: k) = .ok (some v)) := by
  have hreg : ∀ b w, (registry calls).get? b = some w → w ≠ t!"sreg" := by
    intro b w hb
    obtain ⟨i, -, e⟩ := (c82_first_come calls b w).1 hb
    exact hcalls _ (List.mem_of_getElem? e)
  constructor
  · intro hr
    rw [← hv]
    exact (c82_read_extension _ q hq hreg hdecl m hm a u (.inr ⟨h1, hdot, hns, ⟨k, v, hv⟩, hnd, hr⟩) k).1
  · intro hr
    rw [← hv]
    refine c82_read_unnamed _ q hq hreg hdecl m hm a hdot hns (fun w hw => ?_) k
    rcases hw with hw | hw
    · rw [hnd] at hw; cases hw
    · rw [hw.2.2.2.2.2] at hr; cases hr

/-- a request of OpenID 1 with two extensions of which one is registered -/
def regQuery : Dict Str Str :=
  [(t!"openid.mode", t!"checkid_setup"), (t!"openid.ax.mode", t!"fetch_request"), (t!"openid.sreg.required", t!"email"),
   (t!"openid.ns.e", t!"http://e.example/"), (t!"openid.e.k", t!"1")]

example : Dict.WF regQuery ∧ (∃ m, fromPostArgs (registry [(t!"http://openid.net/srv/ax/1.0", t!"ax")]) regQuery = .ok m ∧
      m.getArg (.uri t!"http://openid.net/srv/ax/1.0") t!"mode" = .ok (some t!"fetch_request") ∧
      m.getArg .openid t!"sreg.required" = .ok (some t!"email") ∧
      m.getArg (.uri t!"http://e.example/") t!"k" = .ok (some t!"1")) ∧
    (∃ m, fromPostArgs libReg regQuery = .ok m ∧
      m.getArg .openid t!"ax.mode" = .ok (some t!"fetch_request") ∧
      m.getArg (.uri t!"http://openid.net/srv/ax/1.0") t!"mode" = .ok none) ∧
    StandsFor libReg regQuery t!"e" t!"http://e.example/" ∧
    StandsFor libReg regQuery t!"sreg" t!"http://openid.net/extensions/sreg/1.1" :=
  ⟨by decide, ⟨_, rfl, by decide, by decide, by decide⟩, ⟨_, rfl, by decide, by decide⟩, .inl (by decide),
    .inr ⟨by decide, by decide, by decide, ⟨t!"required", t!"email", by decide⟩, by decide, by decide⟩⟩

end Props
