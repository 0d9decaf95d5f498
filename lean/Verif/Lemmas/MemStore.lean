import Verif.Lemmas.Store
import Verif.Model.MemStore

namespace MemStore
open Py Association Store

/-- the associations a state holds -/
def view (s : State) : AssocMap := fun u h => (Dict.get? s.serverAssocs u).bind fun d => Dict.get? d h

structure Inv (s : State) : Prop where
  wf : Dict.WF s.serverAssocs
  wfs : ∀ u d, Dict.get? s.serverAssocs u = some d → Dict.WF d
  wfn : Dict.WF s.nonces

theorem inv_init : Inv init := by
  refine ⟨Dict.WF_nil, ?_, Dict.WF_nil⟩
  intro u d h; simp [init, Dict.get?] at h

theorem getServerAssocs_spec (s : State) (hs : Inv s) (u : Str) :
    Inv (getServerAssocs s u).1 ∧ view (getServerAssocs s u).1 = view s ∧
    Dict.get? (getServerAssocs s u).1.serverAssocs u = some (getServerAssocs s u).2 ∧
    (∀ h, Dict.get? (getServerAssocs s u).2 h = view s u h) ∧
    (getServerAssocs s u).1.nonces = s.nonces := by
  unfold getServerAssocs
  split
  next d hd => exact ⟨hs, rfl, hd, fun h => by simp [view, hd], rfl⟩
  next hd =>
    refine ⟨⟨Dict.WF_set _ hs.wf _ _, ?_, hs.wfn⟩, ?_, ?_, fun h => ?_, rfl⟩
    · intro u' d' h'
      simp only [Dict.get?_set] at h'
      split at h'
      · cases h'; exact Dict.WF_nil
      · exact hs.wfs _ _ h'
    · funext u' h'
      simp only [view, Dict.get?_set]
      split
      next e => subst e; simp [hd, Dict.get?]
      next e => rfl
    · simp [Dict.get?_set]
    · simp [view, hd, Dict.get?]

theorem putServerAssocs_spec (s : State) (hs : Inv s) (u : Str) (d : ServerAssocs) (hd : Dict.WF d) :
    Inv (putServerAssocs s u d) ∧
    view (putServerAssocs s u d) = (fun u' h => if u' = u then Dict.get? d h else view s u' h) := by
  refine ⟨⟨Dict.WF_set _ hs.wf _ _, ?_, hs.wfn⟩, ?_⟩
  · intro u' d' h'
    simp only [putServerAssocs, Dict.get?_set] at h'
    split at h'
    · cases h'; exact hd
    · exact hs.wfs _ _ h'
  · funext u' h'
    simp only [view, putServerAssocs, Dict.get?_set]
    by_cases e : u = u'
    · subst e; simp
    · have : ¬ u' = u := fun h => e h.symm
      simp [e, this]

theorem storeAssociation_spec (s : State) (hs : Inv s) (u : Str) (a : Assoc) :
    Inv (storeAssociation s u a) ∧
    view (storeAssociation s u a) = (fun u' h => if u' = u ∧ h = a.handle then some a else view s u' h) ∧
    (storeAssociation s u a).nonces = s.nonces := by
  obtain ⟨h1, h2, h3, h4, h5⟩ := getServerAssocs_spec s hs u
  have hw := h1.wfs _ _ h3
  obtain ⟨g1, g2⟩ := putServerAssocs_spec (getServerAssocs s u).1 h1 u
    (Dict.set (getServerAssocs s u).2 a.handle a) (Dict.WF_set _ hw _ _)
  refine ⟨g1, ?_, h5⟩
  show view (putServerAssocs (getServerAssocs s u).1 u (Dict.set (getServerAssocs s u).2 a.handle a)) = _
  rw [g2, h2]
  funext u' h'
  simp only [Dict.get?_set, h4]
  by_cases e1 : u' = u <;> by_cases e2 : h' = a.handle <;> simp [e1, e2]
  all_goals grind

theorem removeAssociation_spec (s : State) (hs : Inv s) (u : Str) (h : Str) :
    Inv (removeAssociation s u h).1 ∧
    view (removeAssociation s u h).1 = (fun u' h' => if u' = u ∧ h' = h then none else view s u' h') ∧
    (removeAssociation s u h).1.nonces = s.nonces ∧
    (removeAssociation s u h).2 = (view s u h).isSome := by
  obtain ⟨h1, h2, h3, h4, h5⟩ := getServerAssocs_spec s hs u
  have hw := h1.wfs _ _ h3
  have hwd : Dict.WF (ServerAssocs.remove (getServerAssocs s u).2 h).1 := by
    unfold ServerAssocs.remove
    split
    · exact Dict.WF_del _ hw _
    · exact hw
  obtain ⟨g1, g2⟩ := putServerAssocs_spec (getServerAssocs s u).1 h1 u _ hwd
  refine ⟨g1, ?_, h5, ?_⟩
  · show view (putServerAssocs (getServerAssocs s u).1 u (ServerAssocs.remove (getServerAssocs s u).2 h).1) = _
    rw [g2, h2]
    funext u' h'
    unfold ServerAssocs.remove
    by_cases e1 : u' = u
    · subst e1
      simp only [if_true, true_and]
      split
      · simp only [Dict.get?_del _ hw, h4]
        by_cases e2 : h' = h <;> simp [e2]
        all_goals grind
      next hn =>
        simp only [h4]
        simp only [Dict.has, h4] at hn
        by_cases e2 : h' = h
        · subst e2; simpa using hn
        · simp [e2]
    · simp [e1]
  · show (ServerAssocs.remove (getServerAssocs s u).2 h).2 = _
    unfold ServerAssocs.remove
    split
    next hn => simp only [Dict.has, h4] at hn; simp [hn]
    next hn => simp only [Dict.has, h4] at hn; simpa using hn

theorem getAssociation_spec (s : State) (hs : Inv s) (u : Str) (h : Option Str) :
    Inv (getAssociation s u h).1 ∧ view (getAssociation s u h).1 = view s ∧
    (getAssociation s u h).1.nonces = s.nonces := by
  obtain ⟨h1, h2, h3, h4, h5⟩ := getServerAssocs_spec s hs u
  unfold getAssociation
  cases h <;> exact ⟨h1, h2, h5⟩

theorem getAssociation_some (s : State) (hs : Inv s) (u : Str) (h : Str) :
    (getAssociation s u (some h)).2 = view s u h :=
  (getServerAssocs_spec s hs u).2.2.2.1 h

theorem foldl_better (d : ServerAssocs) (b : Option Assoc) :
    let r := d.foldl (fun b p => ServerAssocs.better b p.2) b
    (r = none ↔ b = none ∧ d = []) ∧
    (∀ a, r = some a → b = some a ∨ ∃ h, (h, a) ∈ d) ∧
    (∀ a, r = some a → (∀ a', b = some a' → a'.issued ≤ a.issued) ∧ ∀ p ∈ d, p.2.issued ≤ a.issued) := by
  induction d generalizing b with
  | nil => simp +contextual
  | cons p d ih =>
    obtain ⟨i1, i2, i3⟩ := ih (ServerAssocs.better b p.2)
    simp only [List.foldl_cons]
    refine ⟨?_, ?_, ?_⟩
    · rw [i1]
      cases b with
      | none => simp [ServerAssocs.better]
      | some b => simp only [ServerAssocs.better]; split <;> simp
    · intro a ha
      rcases i2 a ha with h | ⟨h, hm⟩
      · cases b with
        | none => simp only [ServerAssocs.better, Option.some.injEq] at h; right; exact ⟨p.1, by simp [← h]⟩
        | some b =>
          simp only [ServerAssocs.better] at h
          split at h
          · right; exact ⟨p.1, by simp only [Option.some.injEq] at h; simp [← h]⟩
          · left; exact h
      · right; exact ⟨h, by simp [hm]⟩
    · intro a ha
      obtain ⟨j1, j2⟩ := i3 a ha
      cases b with
      | none =>
        have := j1 p.2 rfl
        refine ⟨by simp, fun q hq => ?_⟩
        rcases List.mem_cons.1 hq with rfl | hq
        · exact this
        · exact j2 q hq
      | some b =>
        simp only [ServerAssocs.better] at j1
        split at j1
        · have := j1 p.2 rfl
          refine ⟨fun a' h' => ?_, fun q hq => ?_⟩
          · cases h'; omega
          · rcases List.mem_cons.1 hq with rfl | hq
            · exact this
            · exact j2 q hq
        · have := j1 b rfl
          refine ⟨fun a' h' => ?_, fun q hq => ?_⟩
          · cases h'; omega
          · rcases List.mem_cons.1 hq with rfl | hq
            · omega
            · exact j2 q hq

theorem getAssociation_none (s : State) (hs : Inv s) (u : Str) :
    ((getAssociation s u none).2 = none ↔ ∀ h, view s u h = none) ∧
    (∀ a, (getAssociation s u none).2 = some a →
      (∃ h, view s u h = some a) ∧ ∀ h' a', view s u h' = some a' → a'.issued ≤ a.issued) := by
  obtain ⟨h1, h2, h3, h4, h5⟩ := getServerAssocs_spec s hs u
  have hw := h1.wfs _ _ h3
  obtain ⟨i1, i2, i3⟩ := foldl_better (getServerAssocs s u).2 none
  have e : (getAssociation s u none).2 =
      (getServerAssocs s u).2.foldl (fun b p => ServerAssocs.better b p.2) none := rfl
  rw [e]
  refine ⟨?_, fun a ha => ⟨?_, fun h' a' hh => ?_⟩⟩
  · rw [i1]
    simp only [true_and, ← h4]
    constructor
    · intro h; simp [h, Dict.get?]
    · intro h
      cases hd : (getServerAssocs s u).2 with
      | nil => rfl
      | cons p r =>
        have := h p.1
        rw [hd] at this
        obtain ⟨k, v⟩ := p
        simp [Dict.get?] at this
  · rcases i2 a ha with h | ⟨h, hm⟩
    · cases h
    · exact ⟨h, by rw [← h4]; exact Dict.get?_of_mem _ hw _ _ hm⟩
  · rw [← h4] at hh
    exact (i3 a ha).2 _ (Dict.get?_mem _ _ _ hh)

theorem getExpiresIn_zero (a : Assoc) (n : Int) : (a.getExpiresIn n == 0) = true ↔ expired n a := by
  simp only [Assoc.getExpiresIn, expired, beq_iff_eq]; omega

theorem mem_expiredHandles (n : Int) (d : ServerAssocs) (hd : Dict.WF d) (h : Str) :
    h ∈ ServerAssocs.expiredHandles n d ↔ ∃ a, Dict.get? d h = some a ∧ expired n a := by
  simp only [ServerAssocs.expiredHandles, List.mem_map, List.mem_filter, getExpiresIn_zero]
  constructor
  · rintro ⟨⟨k, a⟩, ⟨hm, he⟩, rfl⟩
    exact ⟨a, Dict.get?_of_mem _ hd _ _ hm, he⟩
  · rintro ⟨a, hg, he⟩
    exact ⟨(h, a), ⟨Dict.get?_mem _ _ _ hg, he⟩, rfl⟩

theorem get?_cleanup (n : Int) (d : ServerAssocs) (hd : Dict.WF d) (h : Str) :
    Dict.get? (ServerAssocs.cleanup n d).1 h = (Dict.get? d h).filter fun a => ¬ expired n a := by
  simp only [ServerAssocs.cleanup]
  rw [Dict.get?_delAll _ _ hd]
  cases hg : Dict.get? d h with
  | none => simp
  | some a =>
    by_cases he : expired n a
    · have : h ∈ ServerAssocs.expiredHandles n d := (mem_expiredHandles n d hd h).2 ⟨a, hg, he⟩
      simp [this, he, Option.filter]
    · have : h ∉ ServerAssocs.expiredHandles n d := by
        rw [mem_expiredHandles n d hd h]
        rintro ⟨a', h1, h2⟩
        rw [hg] at h1; cases h1; exact he h2
      simp [this, he, Option.filter]

theorem nodup_expiredHandles (n : Int) (d : ServerAssocs) (hd : Dict.WF d) :
    (ServerAssocs.expiredHandles n d).Nodup :=
  (List.Sublist.map _ List.filter_sublist).nodup hd

theorem view_cleaned (c : Clock) (now : Nat) (s : State) (hs : Inv s) :
    Inv (cleanupAssociations c now s).1 ∧
    view (cleanupAssociations c now s).1 =
      (fun u h => (view s u h).filter fun a => ¬ expired (c.seconds now) a) ∧
    (cleanupAssociations c now s).1.nonces = s.nonces := by
  have hmap : ((cleanedServers (c.seconds now) s).map fun p => (p.1, p.2.1)) =
      s.serverAssocs.map fun p => (p.1, (ServerAssocs.cleanup (c.seconds now) p.2).1) := by
    simp [cleanedServers]
  have hwm := Dict.WF_map s.serverAssocs (fun d => (ServerAssocs.cleanup (c.seconds now) d).1) hs.wf
  have hg : ∀ u, Dict.get? (cleanupAssociations c now s).1.serverAssocs u =
      if u ∈ ((cleanedServers (c.seconds now) s).filter fun p => p.2.1.length == 0).map (·.1) then none
      else (Dict.get? s.serverAssocs u).map fun d => (ServerAssocs.cleanup (c.seconds now) d).1 := by
    intro u
    show Dict.get? (List.foldl Dict.del ((cleanedServers (c.seconds now) s).map fun p => (p.1, p.2.1)) _) u = _
    rw [hmap, Dict.get?_delAll _ _ hwm]
    split
    · rfl
    · exact Dict.get?_map _ (fun d => (ServerAssocs.cleanup (c.seconds now) d).1) u
  refine ⟨⟨?_, ?_, hs.wfn⟩, ?_, rfl⟩
  · show Dict.WF (List.foldl Dict.del ((cleanedServers (c.seconds now) s).map fun p => (p.1, p.2.1)) _)
    rw [hmap]
    exact Dict.WF_delAll _ _ hwm
  · intro u d h
    rw [hg] at h
    split at h
    · cases h
    · rw [Option.map_eq_some_iff] at h
      obtain ⟨d0, h0, rfl⟩ := h
      exact Dict.WF_delAll _ _ (hs.wfs _ _ h0)
  · funext u h
    simp only [view, hg]
    split
    next hm =>
      simp only [cleanedServers, List.mem_map, List.mem_filter] at hm
      obtain ⟨⟨u', d', n'⟩, ⟨⟨⟨u2, d2⟩, hm2, he⟩, hl⟩, rfl⟩ := hm
      simp only [Prod.mk.injEq] at he
      obtain ⟨rfl, he⟩ := he
      have h2 := Dict.get?_of_mem _ hs.wf _ _ hm2
      have h3 := get?_cleanup (c.seconds now) d2 (hs.wfs _ _ h2) h
      rw [he] at h3
      have : d' = [] := List.length_eq_zero_iff.1 (by simpa using hl)
      simp only [this, Dict.get?] at h3
      rw [h2]; exact h3
    next hm =>
      cases h2 : Dict.get? s.serverAssocs u with
      | none => simp
      | some d =>
        simp only [Option.map_some, Option.bind_some]
        exact get?_cleanup (c.seconds now) d (hs.wfs _ _ h2) h

/-- the expired pairs, listed -/
def expiredPairs (n : Int) (s : State) : List (Str × Str) :=
  s.serverAssocs.flatMap fun p => (ServerAssocs.expiredHandles n p.2).map fun h => (p.1, h)

theorem expiredPairs_spec (n : Int) (s : State) (hs : Inv s) :
    (expiredPairs n s).Nodup ∧
    (∀ u h, (u, h) ∈ expiredPairs n s ↔ ∃ a, view s u h = some a ∧ expired n a) := by
  constructor
  · unfold expiredPairs
    rw [List.nodup_iff_pairwise_ne, List.pairwise_flatMap]
    refine ⟨?_, ?_⟩
    · intro p hp
      have := hs.wfs p.1 p.2 (Dict.get?_of_mem _ hs.wf _ _ hp)
      rw [List.pairwise_map]
      exact (List.nodup_iff_pairwise_ne.1 (nodup_expiredHandles n p.2 this)).imp (fun h e => h (by simpa using e))
    · have := hs.wf
      unfold Dict.WF Dict.keys at this
      rw [List.nodup_iff_pairwise_ne, List.pairwise_map] at this
      refine this.imp ?_
      intro p q hne x hx y hy exy
      subst exy
      simp only [List.mem_map] at hx hy
      obtain ⟨h1, -, rfl⟩ := hx
      obtain ⟨h2, -, e⟩ := hy
      exact hne (by simpa using (congrArg Prod.fst e).symm)
  · intro u h
    simp only [expiredPairs, List.mem_flatMap, List.mem_map, Prod.mk.injEq]
    constructor
    · rintro ⟨⟨u', d⟩, hm, h', hh, rfl, rfl⟩
      have hg := Dict.get?_of_mem _ hs.wf _ _ hm
      obtain ⟨a, ha, he⟩ := (mem_expiredHandles n d (hs.wfs _ _ hg) h').1 hh
      exact ⟨a, by simp [view, hg, ha], he⟩
    · rintro ⟨a, hv, he⟩
      simp only [view, Option.bind_eq_some_iff] at hv
      obtain ⟨d, hd, ha⟩ := hv
      exact ⟨(u, d), Dict.get?_mem _ _ _ hd, h, (mem_expiredHandles n d (hs.wfs _ _ hd) h).2 ⟨a, ha, he⟩, rfl, rfl⟩

theorem cleanup_count (c : Clock) (now : Nat) (s : State) :
    (cleanupAssociations c now s).2 = (expiredPairs (c.seconds now) s).length := by
  simp [cleanupAssociations, cleanedServers, expiredPairs, List.length_flatMap, ServerAssocs.cleanup, Function.comp_def]

/-! ## nonces -/

theorem outside_iff (c : Clock) (now : Nat) (t : Int) :
    outside c now t = true ↔ ¬ c.within Nonce.SKEW now t := by
  have : 0 ≤ Nonce.SKEW * (c.tick : Int) := Int.mul_nonneg (by decide) (by omega)
  simp only [outside, Clock.within, decide_eq_true_eq]
  omega

theorem mem_expiredNonces (c : Clock) (now : Nat) (s : State) (k : NonceKey) :
    k ∈ expiredNonces c now s ↔ k ∈ Dict.keys s.nonces ∧ ¬ c.within Nonce.SKEW now k.2.1 := by
  simp [expiredNonces, List.mem_filter, outside_iff]

theorem mem_cleanupNonces (c : Clock) (now : Nat) (s : State) (hs : Inv s) (k : NonceKey) :
    k ∈ Dict.keys (cleanupNonces c now s).1.nonces ↔
      k ∈ Dict.keys s.nonces ∧ c.within Nonce.SKEW now k.2.1 := by
  rw [Dict.mem_keys_iff, Dict.mem_keys_iff]
  show (Dict.get? (List.foldl Dict.del s.nonces _) k).isSome = true ↔ _
  rw [Dict.get?_delAll _ _ hs.wfn]
  by_cases h : k ∈ expiredNonces c now s
  · have := (mem_expiredNonces c now s k).1 h
    simp [h, this.2]
  · simp only [h, if_false]
    rw [mem_expiredNonces, Dict.mem_keys_iff] at h
    grind

theorem step_inv (c : Clock) (s : State) (hs : Inv s) (e : Event) : Inv (step c s e).1 := by
  obtain ⟨now, op⟩ := e
  cases op with
  | storeAssociation u a => exact (storeAssociation_spec s hs u a).1
  | getAssociation u h => exact (getAssociation_spec s hs u h).1
  | removeAssociation u h => exact (removeAssociation_spec s hs u h).1
  | useNonce u t salt =>
    simp only [step, useNonce]
    split
    · exact hs
    · split
      · exact hs
      · exact ⟨hs.wf, hs.wfs, Dict.WF_set _ hs.wfn _ _⟩
  | cleanupNonces => exact ⟨hs.wf, hs.wfs, Dict.WF_delAll _ _ hs.wfn⟩
  | cleanupAssociations => exact (view_cleaned c now s hs).1

theorem after_inv (c : Clock) (h : List Event) : Inv (after (step c) init h) := by
  induction h using snoc_induction with
  | nil => exact inv_init
  | snoc l e ih => rw [after_snoc]; exact step_inv c _ ih e

theorem after_view (c : Clock) (h : List Event) : view (after (step c) init h) = held c h := by
  induction h using snoc_induction with
  | nil => rfl
  | snoc l e ih =>
    have hs := after_inv c l
    rw [after_snoc, held_snoc, ← ih]
    obtain ⟨now, op⟩ := e
    cases op with
    | storeAssociation u a => exact (storeAssociation_spec _ hs u a).2.1
    | getAssociation u h => exact (getAssociation_spec _ hs u h).2.1
    | removeAssociation u h => exact (removeAssociation_spec _ hs u h).2.1
    | useNonce u t salt =>
      simp only [step, useNonce, heldStep]
      split
      · rfl
      · split <;> rfl
    | cleanupNonces => rfl
    | cleanupAssociations => exact (view_cleaned c now _ hs).2.1

theorem useNonce_true (c : Clock) (now : Nat) (s : State) (u : Str) (t : Int) (salt : Str) :
    (useNonce c now s u t salt).2 = true ↔
      c.within Nonce.SKEW now t ∧ (u, t, salt) ∉ Dict.keys s.nonces := by
  unfold useNonce
  split
  next h => rw [outside_iff] at h; simp [h]
  next h =>
    rw [outside_iff] at h
    split
    next h2 => have := (Dict.mem_keys_iff s.nonces (u, t, salt)).2 h2; simp [this]
    next h2 =>
      have : (u, t, salt) ∉ Dict.keys s.nonces := fun hh => h2 ((Dict.mem_keys_iff s.nonces (u, t, salt)).1 hh)
      simp [this]; exact Classical.not_not.1 h

theorem keys_useNonce (c : Clock) (now : Nat) (s : State) (u : Str) (t : Int) (salt : Str) (k : NonceKey) :
    k ∈ Dict.keys (useNonce c now s u t salt).1.nonces ↔
      k ∈ Dict.keys s.nonces ∨ (k = (u, t, salt) ∧ (useNonce c now s u t salt).2 = true) := by
  unfold useNonce
  split
  · simp
  · split
    · simp
    · simp only [Dict.mem_keys_iff, Dict.get?_set]
      by_cases h : k = (u, t, salt) <;> simp [h]
      all_goals grind

theorem step_nonces (c : Clock) (s : State) (hs : Inv s) (e : Event) (hn : ∀ u t sa, e.2 ≠ .useNonce u t sa)
    (hc : e.2 ≠ .cleanupNonces) : (step c s e).1.nonces = s.nonces := by
  obtain ⟨now, op⟩ := e
  cases op with
  | storeAssociation u a => exact (storeAssociation_spec s hs u a).2.2
  | getAssociation u h => exact (getAssociation_spec s hs u h).2.2
  | removeAssociation u h => exact (removeAssociation_spec s hs u h).2.2.1
  | useNonce u t salt => exact absurd rfl (hn u t salt)
  | cleanupNonces => exact absurd rfl hc
  | cleanupAssociations => exact (view_cleaned c now s hs).2.2

/-- The nonces kept are exactly the nonces taken, as far as any later clock reading can tell. -/
theorem nonces_taken (c : Clock) (h : List Event) (hm : Monotone h) (u : Str) (t : Int) (salt : Str) :
    ((u, t, salt) ∈ Dict.keys (after (step c) init h).nonces → NonceTaken (step c) init h u t salt) ∧
    (NonceTaken (step c) init h u t salt →
      (u, t, salt) ∈ Dict.keys (after (step c) init h).nonces ∨
      ∃ x ∈ h, t * c.tick < x.1 - Nonce.SKEW * c.tick) ∧
    (NonceTaken (step c) init h u t salt → ∃ x ∈ h, t * c.tick ≤ x.1 + Nonce.SKEW * c.tick) := by
  induction h using snoc_induction with
  | nil =>
    refine ⟨fun hh => ?_, ?_, ?_⟩
    · simp [after, init, Dict.keys] at hh
    · rintro ⟨pre, now, post, he, -⟩; simp at he
    · rintro ⟨pre, now, post, he, -⟩; simp at he
  | snoc l e ih =>
    obtain ⟨hl, hle⟩ := hm.snoc
    obtain ⟨i1, i2, i3⟩ := ih hl
    have hs := after_inv c l
    rw [nonceTaken_snoc, after_snoc]
    by_cases hu : ∃ u' t' s', e.2 = .useNonce u' t' s'
    · obtain ⟨u', t', s', hu⟩ := hu
      obtain ⟨now, op⟩ := e
      simp only at hu
      subst hu
      have hk := keys_useNonce c now (after (step c) init l) u' t' s' (u, t, salt)
      simp only [step, Answer.bool.injEq, Op.useNonce.injEq]
      rw [hk]
      simp only [Prod.mk.injEq]
      refine ⟨?_, ?_, ?_⟩
      · rintro (h1 | ⟨⟨rfl, rfl, rfl⟩, h2⟩)
        · exact .inl (i1 h1)
        · exact .inr ⟨⟨rfl, rfl, rfl⟩, h2⟩
      · rintro (h1 | ⟨⟨rfl, rfl, rfl⟩, h2⟩)
        · rcases i2 h1 with h | ⟨x, hx, hlt⟩
          · exact .inl (.inl h)
          · exact .inr ⟨x, by simp [hx], hlt⟩
        · exact .inl (.inr ⟨⟨rfl, rfl, rfl⟩, h2⟩)
      · rintro (h1 | ⟨⟨rfl, rfl, rfl⟩, h2⟩)
        · obtain ⟨x, hx, hlt⟩ := i3 h1
          exact ⟨x, by simp [hx], hlt⟩
        · exact ⟨_, List.mem_append_right _ (List.mem_singleton.2 rfl), ((useNonce_true _ _ _ _ _ _).1 h2).1.2⟩
    · have hnu : ∀ u t sa, e.2 ≠ .useNonce u t sa := fun u t sa h => hu ⟨u, t, sa, h⟩
      have hno : ¬ (e.2 = .useNonce u t salt ∧ (step c (after (step c) init l) e).2 = .bool true) :=
        fun h => hnu _ _ _ h.1
      rw [or_iff_left hno]
      refine ⟨?_, ?_, ?_⟩
      · intro h
        by_cases hc : e.2 = .cleanupNonces
        · obtain ⟨now, op⟩ := e
          simp only at hc
          subst hc
          exact i1 ((mem_cleanupNonces c now _ hs _).1 h).1
        · rw [step_nonces c _ hs e hnu hc] at h
          exact i1 h
      · intro h
        rcases i2 h with h1 | ⟨x, hx, hlt⟩
        · by_cases hc : e.2 = .cleanupNonces
          · obtain ⟨now, op⟩ := e
            simp only at hc
            subst hc
            by_cases hw : c.within Nonce.SKEW now t
            · left; exact (mem_cleanupNonces c now _ hs _).2 ⟨h1, hw⟩
            · right
              obtain ⟨x, hx, hxl⟩ := i3 h
              have := hle x hx
              refine ⟨_, List.mem_append_right _ (List.mem_singleton.2 rfl), ?_⟩
              simp only [Clock.within] at hw
              simp only at this ⊢
              omega
          · rw [step_nonces c _ hs e hnu hc]
            exact .inl h1
        · exact .inr ⟨x, by simp [hx], hlt⟩
      · intro h
        obtain ⟨x, hx, hlt⟩ := i3 h
        exact ⟨x, by simp [hx], hlt⟩

end MemStore
