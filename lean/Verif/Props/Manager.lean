import Verif.Spec.Manager
/-! # C42: discovered services are tried in order, each at most once -/

namespace Props
open Py Spec

variable {σ : Type}

theorem calls_append {s s' : Option (Manager.Manager σ)} {l1 l2 : List (ServiceCall σ)} :
    ServiceCalls s (l1 ++ l2) s' ↔ ∃ s1, ServiceCalls s l1 s1 ∧ ServiceCalls s1 l2 s' := by
  induction l1 generalizing s with
  | nil => simp [ServiceCalls]
  | cons c r ih =>
    cases c with
    | next u f h =>
      simp only [List.cons_append, ServiceCalls, ih]
      constructor
      · rintro ⟨d, h1, h2, s1, h3, h4⟩; exact ⟨s1, ⟨d, h1, h2, h3⟩, h4⟩
      · rintro ⟨s1, ⟨d, h1, h2, h3⟩, h4⟩; exact ⟨d, h1, h2, s1, h3, h4⟩
    | cleanup u f c =>
      simp only [List.cons_append, ServiceCalls, ih]
      constructor
      · rintro ⟨h1, s1, h3, h4⟩; exact ⟨s1, ⟨h1, h3⟩, h4⟩
      · rintro ⟨s1, ⟨h1, h3⟩, h4⟩; exact ⟨h1, s1, h3, h4⟩

/-- before anything was found the session has no entry -/
theorem calls_none {l : List (ServiceCall σ)} {s' : Option (Manager.Manager σ)} (h : ServiceCalls none l s')
    (hn : ∀ c ∈ l, ¬ FoundServices c) : s' = none := by
  induction l with
  | nil => exact h.symm
  | cons c r ih =>
    have hr := fun x hx => hn x (List.mem_cons_of_mem _ hx)
    have hc := hn c (by simp)
    cases c with
    | next u f hd =>
      obtain ⟨d, h1, h2, h3⟩ := h
      refine ih ?_ hr
      rcases d with e | ⟨y, _ | ⟨x, xs⟩⟩
      · exact h3
      · exact h3
      · rw [h1] at hc; exact absurd trivial hc
    | cleanup u f cur =>
      obtain ⟨h1, h3⟩ := h
      exact ih h3 hr

/-- where the session stands after a discovery that found `svcs` and further calls without one -/
def Stands (u y : Str) (svcs : List σ) (mid : List (ServiceCall σ)) (s : Option (Manager.Manager σ)) : Prop :=
  ∃ n, handedOut mid = (svcs.take n) ∧ n ≤ svcs.length ∧ 1 ≤ n ∧
    (s = some ⟨u, y, svcs.drop n, svcs[n - 1]?⟩ ∧ (∀ c ∈ mid, ¬ Discards u y c) ∨
      s = none ∧ (n = svcs.length ∨ ∃ c ∈ mid, Discards u y c))

/-- the entry after a discovery, where there was `s` -/
def entryAfter (s : Option (Manager.Manager σ)) (url : Str) : Except PyErr (Str × List σ) → Option (Manager.Manager σ)
  | .ok (y, x :: xs) => some ⟨url, y, xs, some x⟩
  | _ => s

theorem next_ask {s : Option (Manager.Manager σ)} {v : Str} (h : Manager.beforeDiscovery s v = none)
    (d : Except PyErr (Str × List σ)) :
    Manager.getNextService s v d = ⟨true, firstOf d, entryAfter (Manager.dropEmpty s v) v d⟩ := by
  unfold Manager.getNextService
  rw [h]
  have hc : Manager.truthyOpt (Manager.getManager (Manager.dropEmpty s v) v false) = false := by
    unfold Manager.beforeDiscovery at h
    cases hm : Manager.getManager s v false with
    | none => simp [Manager.dropEmpty, hm, Manager.truthyOpt]
    | some m =>
      rw [hm] at h
      simp only at h
      split at h
      · cases h
      · next ht =>
        have : Manager.dropEmpty s v = none := by simp [Manager.dropEmpty, hm, ht, Manager.destroyManager]
        rw [this]; rfl
  rcases d with e | ⟨y, _ | ⟨x, xs⟩⟩
  · rfl
  · simp [Manager.afterDiscovery, Manager.createManager, hc, Manager.takeNext, firstOf, entryAfter]; rfl
  · simp [Manager.afterDiscovery, Manager.createManager, hc, Manager.takeNext, firstOf, entryAfter]; rfl

theorem next_kept {m : Manager.Manager σ} {v : Str} (hv : v = m.startingUrl ∨ v = m.yadisUrl) {x : σ} {xs : List σ}
    (hx : m.services = x :: xs) (d : Except PyErr (Str × List σ)) :
    Manager.getNextService (some m) v d = ⟨false, .ok (some x), some { m with services := xs, current := some x }⟩ := by
  have hg : Manager.getManager (some m) v false = some m := by
    simp [Manager.getManager, Manager.Manager.forURL, hv]
  simp [Manager.getNextService, Manager.beforeDiscovery, hg, Manager.Manager.truthy, hx, Manager.takeNext]

theorem handedOut_append (l1 l2 : List (ServiceCall σ)) : handedOut (l1 ++ l2) = handedOut l1 ++ handedOut l2 :=
  List.filterMap_append

/-- a call that found nothing returned nothing -/
theorem handedOut_none {v : Str} {d : Except PyErr (Str × List σ)} (h : ∀ x y xs, d ≠ .ok (y, x :: xs)) :
    handedOut [ServiceCall.next v (some d) (firstOf d)] = [] := by
  rcases d with e | ⟨y, _ | ⟨x, xs⟩⟩
  · rfl
  · rfl
  · exact absurd rfl (h x y xs)

theorem entryAfter_none {s : Option (Manager.Manager σ)} {v : Str} {d : Except PyErr (Str × List σ)}
    (h : ∀ x y xs, d ≠ .ok (y, x :: xs)) : entryAfter s v d = s := by
  rcases d with e | ⟨y, _ | ⟨x, xs⟩⟩
  · rfl
  · rfl
  · exact absurd rfl (h x y xs)

theorem stands_next {u y : Str} {svcs : List σ} {mid : List (ServiceCall σ)} {s : Option (Manager.Manager σ)}
    (h : Stands u y svcs mid s) (v : Str) (d : Except PyErr (Str × List σ)) :
    ((v = u ∨ v = y) ∧ (∀ c ∈ mid, ¬ Discards u y c) ∧ (handedOut mid).length < svcs.length ∧
      (Manager.getNextService s v d).asked = false ∧
      (Manager.getNextService s v d).result = .ok svcs[(handedOut mid).length]? ∧
      Stands u y svcs (mid ++ [.next v none (Manager.getNextService s v d).result]) (Manager.getNextService s v d).session) ∨
    (¬ ((v = u ∨ v = y) ∧ (∀ c ∈ mid, ¬ Discards u y c) ∧ (handedOut mid).length < svcs.length) ∧
      (Manager.getNextService s v d).asked = true ∧ (Manager.getNextService s v d).result = firstOf d ∧
      ((∀ x y' xs, d ≠ .ok (y', x :: xs)) →
        Stands u y svcs (mid ++ [.next v (some d) (Manager.getNextService s v d).result])
          (Manager.getNextService s v d).session)) := by
  obtain ⟨n, h1, h2, h3, h4⟩ := h
  have hlen : (handedOut mid).length = n := by rw [h1]; simp; omega
  have hmid : ∀ (f : Option (Except PyErr (Str × List σ))) hd, (∀ c ∈ mid, ¬ Discards u y c) →
      ∀ c ∈ mid ++ [ServiceCall.next v f hd], ¬ Discards u y c := by
    intro f hd hm c hc
    rcases List.mem_append.1 hc with hc | hc
    · exact hm c hc
    · simp at hc; subst hc; simp [Discards]
  have hmid' : ∀ (f : Option (Except PyErr (Str × List σ))) hd, (∃ c ∈ mid, Discards u y c) →
      ∃ c ∈ mid ++ [ServiceCall.next v f hd], Discards u y c := by
    rintro f hd ⟨c, hc, hd⟩
    exact ⟨c, List.mem_append_left _ hc, hd⟩
  -- discovery is run
  have hrun : Manager.beforeDiscovery s v = none →
      (s ≠ none → Manager.dropEmpty s v = s ∨ Manager.dropEmpty s v = none ∧ n = svcs.length) →
      (Manager.getNextService s v d).asked = true ∧ (Manager.getNextService s v d).result = firstOf d ∧
      ((∀ x y' xs, d ≠ .ok (y', x :: xs)) →
        Stands u y svcs (mid ++ [.next v (some d) (Manager.getNextService s v d).result])
          (Manager.getNextService s v d).session) := by
    intro hb hdrop
    rw [next_ask hb]
    refine ⟨rfl, rfl, fun hn => ?_⟩
    refine ⟨n, ?_, h2, h3, ?_⟩
    · rw [handedOut_append, handedOut_none hn, h1, List.append_nil]
    · simp only [entryAfter_none hn]
      rcases h4 with ⟨hs, hm⟩ | ⟨hs, hm⟩
      · rcases hdrop (by rw [hs]; simp) with e | ⟨e, hn'⟩
        · rw [e]; exact .inl ⟨hs, hmid _ _ hm⟩
        · rw [e]; exact .inr ⟨rfl, .inl hn'⟩
      · subst hs
        refine .inr ⟨rfl, hm.imp_right (hmid' _ _)⟩
  rcases h4 with ⟨hs, hm⟩ | ⟨hs, hm⟩
  · by_cases hv : v = u ∨ v = y
    · by_cases hn : n < svcs.length
      · left
        have hx : svcs.drop n = svcs[n] :: svcs.drop (n + 1) := List.drop_eq_getElem_cons hn
        have := next_kept (m := ⟨u, y, svcs.drop n, svcs[n - 1]?⟩) (v := v) hv hx d
        rw [hs, this, hlen]
        refine ⟨hv, hm, hn, rfl, by rw [List.getElem?_eq_getElem hn], n + 1, ?_, hn, by omega, .inl ⟨?_, hmid _ _ hm⟩⟩
        · rw [handedOut_append, h1, List.take_add_one, List.getElem?_eq_getElem hn]; rfl
        · simp [List.getElem?_eq_getElem hn]
      · right
        refine ⟨by rw [hlen]; exact fun h => hn h.2.2, ?_⟩
        have hg : Manager.getManager s v false = some ⟨u, y, svcs.drop n, svcs[n - 1]?⟩ := by
          rw [hs]; simp [Manager.getManager, Manager.Manager.forURL, hv]
        have hd : svcs.drop n = [] := List.drop_eq_nil_of_le (by omega)
        apply hrun
        · simp [Manager.beforeDiscovery, hg, Manager.Manager.truthy, hd]
        · intro _
          right
          refine ⟨?_, by omega⟩
          simp [Manager.dropEmpty, hg, Manager.Manager.truthy, hd, Manager.destroyManager]
    · right
      refine ⟨fun h => hv h.1, ?_⟩
      have hg : Manager.getManager s v false = none := by
        rw [hs]; simp [Manager.getManager, Manager.Manager.forURL]; simpa using hv
      apply hrun
      · simp [Manager.beforeDiscovery, hg]
      · intro _; left; simp [Manager.dropEmpty, hg]
  · right
    refine ⟨?_, ?_⟩
    · rintro ⟨-, k1, k2⟩
      rcases hm with hm | ⟨c, hc, hd⟩
      · omega
      · exact k1 c hc hd
    · apply hrun
      · rw [hs]; rfl
      · intro h; exact absurd hs h

theorem stands_cleanup {u y : Str} {svcs : List σ} {mid : List (ServiceCall σ)} {s : Option (Manager.Manager σ)}
    (h : Stands u y svcs mid s) (v : Str) (force : Bool) :
    Stands u y svcs (mid ++ [.cleanup v force (Manager.cleanup s v force).1]) (Manager.cleanup s v force).2 := by
  obtain ⟨n, h1, h2, h3, h4⟩ := h
  refine ⟨n, by rw [handedOut_append, h1]; simp [handedOut], h2, h3, ?_⟩
  by_cases hd : Discards u y (.cleanup v force (Manager.cleanup s v force).1)
  · refine .inr ⟨?_, .inr ⟨_, List.mem_append_right _ (List.mem_singleton.2 rfl), hd⟩⟩
    rcases h4 with ⟨hs, hm⟩ | ⟨hs, hm⟩
    · have hg : Manager.getManager s v force = s := by
        rw [hs]
        simp only [Discards] at hd
        simp [Manager.getManager, Manager.Manager.forURL]
        grind
      rw [Manager.cleanup, hg, hs]
      simp only [Manager.destroyManager, ← hs, hg]
      simp [hs]
    · rw [hs]; rfl
  · rcases h4 with ⟨hs, hm⟩ | ⟨hs, hm⟩
    · left
      refine ⟨?_, ?_⟩
      · rw [Manager.cleanup]
        have hg : Manager.getManager s v force = none := by
          rw [hs]
          simp only [Discards] at hd
          simp [Manager.getManager, Manager.Manager.forURL]
          grind
        rw [hg]; exact hs
      · intro c hc
        rcases List.mem_append.1 hc with hc | hc
        · exact hm c hc
        · simp at hc; subst hc; exact hd
    · right
      refine ⟨by rw [hs]; rfl, hm.imp_right ?_⟩
      rintro ⟨c, hc, hd⟩
      exact ⟨c, List.mem_append_left _ hc, hd⟩

theorem stands_calls {u y : Str} {svcs : List σ} {mid l : List (ServiceCall σ)} {s s' : Option (Manager.Manager σ)}
    (h : Stands u y svcs mid s) (hc : ServiceCalls s l s') (hn : ∀ c ∈ l, ¬ FoundServices c) : Stands u y svcs (mid ++ l) s' := by
  induction l generalizing s mid with
  | nil => rw [ServiceCalls] at hc; rw [← hc]; simpa using h
  | cons c r ih =>
    have hr := fun x hx => hn x (List.mem_cons_of_mem _ hx)
    have hcn := hn c (by simp)
    rw [show mid ++ c :: r = (mid ++ [c]) ++ r by simp]
    cases c with
    | next v f hd =>
      obtain ⟨d, k1, k2, k3⟩ := hc
      refine ih ?_ k3 hr
      rcases stands_next h v d with ⟨-, -, -, q1, q2, q3⟩ | ⟨-, q1, q2, q3⟩
      · rw [k1, k2, if_neg (by simp [q1])]; exact q3
      · rw [if_pos q1] at k1
        rw [k1, k2]
        refine q3 ?_
        rintro x y' xs rfl
        rw [k1] at hcn
        exact hcn trivial
    | cleanup v f cur =>
      obtain ⟨k1, k3⟩ := hc
      refine ih ?_ k3 hr
      rw [k1]
      exact stands_cleanup h v f

/-- where it stands right after the discovery -/
theorem stands_start {pre mid : List (ServiceCall σ)} {u y : Str} {svcs : List σ} {handed : Except PyErr (Option σ)}
    {s s' : Option (Manager.Manager σ)} (hne : svcs ≠ [])
    (h : ServiceCalls s (pre ++ .next u (some (.ok (y, svcs))) handed :: mid) s') (hn : ∀ c ∈ mid, ¬ FoundServices c) :
    Stands u y svcs (.next u (some (.ok (y, svcs))) handed :: mid) s' := by
  obtain ⟨s1, -, d, h1, h2, h3⟩ := calls_append.1 h
  rw [show ServiceCall.next u (some (.ok (y, svcs))) handed :: mid = [.next u (some (.ok (y, svcs))) handed] ++ mid by rfl]
  refine stands_calls ?_ h3 hn
  have hb : Manager.beforeDiscovery s1 u = none := by
    cases hb : Manager.beforeDiscovery s1 u with
    | none => rfl
    | some x => obtain ⟨e, m⟩ := x; unfold Manager.getNextService at h1; rw [hb] at h1; simp at h1
  rw [next_ask hb] at h1 h2 ⊢
  simp only [if_true, Option.some.injEq] at h1
  subst h1
  obtain ⟨x, xs, rfl⟩ := List.exists_cons_of_ne_nil hne
  refine ⟨1, ?_, by simp, by omega, .inl ⟨?_, ?_⟩⟩
  · rw [h2]; rfl
  · simp [entryAfter]
  · intro c hc; simp at hc; subst hc; simp [Discards]

/-- **C42** After a discovery and until the next one that finds services, the services handed out are the ones found, in
    order, each place of the list at most once: they are a beginning of the list. -/
theorem c42_in_order {pre mid : List (ServiceCall σ)} {u y : Str} {svcs : List σ} {handed : Except PyErr (Option σ)}
    {s s' : Option (Manager.Manager σ)} (hne : svcs ≠ [])
    (h : ServiceCalls s (pre ++ .next u (some (.ok (y, svcs))) handed :: mid) s') (hn : ∀ c ∈ mid, ¬ FoundServices c) :
    handedOut (.next u (some (.ok (y, svcs))) handed :: mid) <+: svcs := by
  obtain ⟨n, h1, -⟩ := stands_start hne h hn
  rw [h1]
  exact List.take_prefix _ _

/-- **C42** None is left out: as long as nothing discarded them and some are left, the next call for the URL returns the
    next service without discovery.  In every other case discovery is run, and the first service it finds is returned; in
    particular a call for another URL never returns one of these services. -/
theorem c42_next {pre mid : List (ServiceCall σ)} {u y v : Str} {svcs : List σ} {handed handed' : Except PyErr (Option σ)}
    {found : Option (Except PyErr (Str × List σ))} {s s' : Option (Manager.Manager σ)} (hne : svcs ≠ [])
    (h : ServiceCalls s (pre ++ .next u (some (.ok (y, svcs))) handed :: mid ++ [.next v found handed']) s')
    (hn : ∀ c ∈ mid, ¬ FoundServices c) :
    ((v = u ∨ v = y) ∧ (∀ c ∈ mid, ¬ Discards u y c) ∧
      (handedOut (.next u (some (.ok (y, svcs))) handed :: mid)).length < svcs.length ∧
      found = none ∧ handed' = .ok svcs[(handedOut (.next u (some (.ok (y, svcs))) handed :: mid)).length]?) ∨
    (¬ ((v = u ∨ v = y) ∧ (∀ c ∈ mid, ¬ Discards u y c) ∧
      (handedOut (.next u (some (.ok (y, svcs))) handed :: mid)).length < svcs.length) ∧
      ∃ d, found = some d ∧ handed' = firstOf d) := by
  obtain ⟨s1, hc, d, k1, k2, -⟩ := calls_append.1 h
  have hst := stands_start hne hc hn
  have hdis : (∀ c ∈ ServiceCall.next u (some (.ok (y, svcs))) handed :: mid, ¬ Discards u y c) ↔
      ∀ c ∈ mid, ¬ Discards u y c := by
    constructor
    · intro h c hc; exact h c (List.mem_cons_of_mem _ hc)
    · intro h c hc
      rcases List.mem_cons.1 hc with rfl | hc
      · simp [Discards]
      · exact h c hc
  rw [← hdis]
  rcases stands_next hst v d with ⟨q1, q2, q3, q4, q5, -⟩ | ⟨q1, q4, q5, -⟩
  · left
    exact ⟨q1, q2, q3, by rw [k1, if_neg (by simp [q4])], by rw [k2, q5]⟩
  · right
    exact ⟨q1, d, by rw [k1, if_pos q4], by rw [k2, q5]⟩

/-- **C42** Before anything was found every call runs discovery. -/
theorem c42_first {pre : List (ServiceCall σ)} {v : Str} {handed : Except PyErr (Option σ)}
    {found : Option (Except PyErr (Str × List σ))} {s' : Option (Manager.Manager σ)}
    (h : ServiceCalls none (pre ++ [.next v found handed]) s') (hn : ∀ c ∈ pre, ¬ FoundServices c) :
    ∃ d, found = some d ∧ handed = firstOf d := by
  obtain ⟨s1, hc, d, k1, k2, -⟩ := calls_append.1 h
  have := calls_none hc hn
  subst this
  rw [next_ask rfl] at k1 k2
  exact ⟨d, by simpa using k1, k2⟩

/-- **C42** A cleanup for the URL, or a forced one, leaves no entry.  It returns the service handed out last (unless an
    earlier call had discarded the services, or all of them had been tried). -/
theorem c42_cleanup {pre mid : List (ServiceCall σ)} {u y v : Str} {svcs : List σ} {handed : Except PyErr (Option σ)} {force : Bool}
    {current : Option σ} {s s' : Option (Manager.Manager σ)} (hne : svcs ≠ [])
    (h : ServiceCalls s (pre ++ .next u (some (.ok (y, svcs))) handed :: mid ++ [.cleanup v force current]) s')
    (hn : ∀ c ∈ mid, ¬ FoundServices c) :
    (Discards u y (.cleanup v force current) → s' = none) ∧
    (Discards u y (.cleanup v force current) → (∀ c ∈ mid, ¬ Discards u y c) →
      (handedOut (.next u (some (.ok (y, svcs))) handed :: mid)).length < svcs.length →
      current = (handedOut (.next u (some (.ok (y, svcs))) handed :: mid)).getLast?) ∧
    (current = none ∨ Discards u y (.cleanup v force current) ∧
      current = (handedOut (.next u (some (.ok (y, svcs))) handed :: mid)).getLast?) := by
  obtain ⟨s1, hc, k1, k2⟩ := calls_append.1 h
  rw [ServiceCalls] at k2
  obtain ⟨n, h1, h2, h3, h4⟩ := stands_start hne hc hn
  rcases h4 with ⟨hs, -⟩ | ⟨hs, hm⟩
  · by_cases hd : Discards u y (.cleanup v force current)
    · have hg : Manager.getManager s1 v force = s1 := by
        rw [hs]
        simp only [Discards] at hd
        simp [Manager.getManager, Manager.Manager.forURL]
        grind
      rw [Manager.cleanup, hg, hs] at k1 k2
      simp only [Manager.destroyManager, ← hs, hg] at k1 k2
      have hs' : s' = none := by rw [← k2]; simp [hs]
      have hl : current = (handedOut (.next u (some (.ok (y, svcs))) handed :: mid)).getLast? := by
        rw [k1, h1, List.getLast?_eq_getElem?, List.length_take, Nat.min_eq_left h2, List.getElem?_take_of_lt (by omega)]
      exact ⟨fun _ => hs', fun _ _ _ => hl, .inr ⟨hd, hl⟩⟩
    · have hg : Manager.getManager s1 v force = none := by
        rw [hs]
        simp only [Discards] at hd
        simp [Manager.getManager, Manager.Manager.forURL]
        grind
      exact ⟨fun h => absurd h hd, fun h => absurd h hd, .inl (by rw [k1, Manager.cleanup, hg])⟩
  · subst hs
    refine ⟨fun _ => k2.symm, fun _ hm' hl => ?_, .inl k1⟩
    rcases hm with hm | ⟨c, hc, hd⟩
    · rw [h1, List.length_take] at hl; omega
    · rcases List.mem_cons.1 hc with rfl | hc
      · simp [Discards] at hd
      · exact absurd hd (hm' c hc)

/-! ## A history -/

-- three found; two tried; another URL; the third; then a discovery that finds nothing; cleanup
example : ServiceCalls none
    [.next t!"u" (some (.ok (t!"y", [1, 2, 3]))) (.ok (some 1)), .next t!"y" none (.ok (some 2)),
     .next t!"v" (some (.ok (t!"v", []))) (.ok none), .cleanup t!"v" false none, .next t!"u" none (.ok (some 3)),
     .next t!"v" (some (.error .discoveryFailure)) (.error .discoveryFailure), .cleanup t!"u" false (some 3),
     .next t!"u" (some (.ok (t!"y", [4]))) (.ok (some 4))] (some ⟨t!"u", t!"y", [], some 4⟩) := by
  exact ⟨.ok (t!"y", [1, 2, 3]), rfl, rfl, .error .typeError, rfl, rfl, .ok (t!"v", []), rfl, rfl, rfl, .error .typeError, rfl,
    rfl, .error .discoveryFailure, rfl, rfl, rfl, .ok (t!"y", [4]), rfl, rfl, rfl⟩

-- the hypotheses of `c42_next` are met in all its cases
example : handedOut [ServiceCall.next t!"u" (some (.ok (t!"y", [1, 2, 3]))) (.ok (some 1)), .next t!"y" none (.ok (some 2)),
     .next t!"v" (some (.ok (t!"v", []))) (.ok none), .cleanup t!"v" false none] = [1, 2] ∧
    ¬ FoundServices (ServiceCall.next t!"v" (some (.ok (t!"v", []))) (.ok none) : ServiceCall Nat) ∧
    ¬ Discards t!"u" t!"y" (ServiceCall.cleanup t!"v" false none : ServiceCall Nat) ∧
    Discards t!"u" t!"y" (ServiceCall.cleanup t!"v" true none : ServiceCall Nat) := by
  refine ⟨rfl, id, ?_, .inl rfl⟩
  simp [Discards]

end Props
