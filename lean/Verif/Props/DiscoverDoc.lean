import Verif.Props.Discover
import Verif.Props.Yadis
import Verif.Lemmas.Words
/-! # C57, C58, C59: the endpoints documents name -/

namespace Props
open Py Xml Spec Discover

/-! ## C59: one local identifier -/

theorem oneLocalId_some (t : Str) (ts : List (Option Str)) :
    (oneLocalId (some t) ts = .ok (some t) ∧ ∀ x ∈ ts, x = some t) ∨
    (oneLocalId (some t) ts = .error .discoveryFailure ∧ ∃ x ∈ ts, x ≠ some t) := by
  induction ts with
  | nil => exact .inl ⟨rfl, by simp⟩
  | cons x r ih =>
    rw [oneLocalId]
    by_cases hx : some t ≠ x
    · rw [if_pos hx]; exact .inr ⟨rfl, x, by simp, Ne.symm hx⟩
    · rw [if_neg hx]
      simp only [ne_eq, Decidable.not_not] at hx
      rcases ih with ⟨h1, h2⟩ | ⟨h1, y, h2, h3⟩
      · exact .inl ⟨h1, by simp [← hx]; exact h2⟩
      · exact .inr ⟨h1, y, by simp [h2], h3⟩

theorem oneLocalId_none (ts : List (Option Str)) :
    (∀ r, oneLocalId none ts = .ok r →
      (r = none ∧ ∀ x ∈ ts, x = none) ∨ ∃ t k m, r = some t ∧ ts = List.replicate k none ++ List.replicate (m + 1) (some t)) ∧
    (∀ e, oneLocalId none ts = .error e →
      e = .discoveryFailure ∧ ∃ k t rest, ts = List.replicate k none ++ some t :: rest ∧ ∃ x ∈ rest, x ≠ some t) := by
  induction ts with
  | nil => exact ⟨by simp [oneLocalId], by simp [oneLocalId]⟩
  | cons x r ih =>
    cases x with
    | none =>
      refine ⟨fun o h => ?_, fun e h => ?_⟩ <;> rw [oneLocalId] at h
      · rcases ih.1 o h with ⟨h1, h2⟩ | ⟨t, k, m, h1, h2⟩
        · exact .inl ⟨h1, by simpa using h2⟩
        · exact .inr ⟨t, k + 1, m, h1, by rw [h2, List.replicate_succ]; rfl⟩
      · obtain ⟨h1, k, t, rest, h2, h3⟩ := ih.2 e h
        exact ⟨h1, k + 1, t, rest, by rw [h2, List.replicate_succ]; rfl, h3⟩
    | some t =>
      refine ⟨fun o h => ?_, fun e h => ?_⟩ <;> rw [oneLocalId] at h <;>
        rcases oneLocalId_some t r with ⟨h1, h2⟩ | ⟨h1, h2⟩ <;> rw [h1] at h <;> simp at h
      · subst h
        exact .inr ⟨t, 0, r.length, rfl, by rw [List.replicate_succ]; simp; exact List.eq_replicate_iff.2 ⟨rfl, h2⟩⟩
      · subst h
        exact ⟨rfl, 0, t, r, rfl, h2⟩

theorem localIds_eq (service : Elem) :
    ((localIdTags (typesOf service)).flatMap fun tag => (service.findall tag).map (·.text)) = localIds service := by
  rw [localIdTags, localIds, List.flatMap_append]
  congr 1
  · simp only [Bool.or_eq_true, List.contains_iff_mem]
    by_cases h : OPENID_1_1_TYPE ∈ typesOf service ∨ OPENID_1_0_TYPE ∈ typesOf service
    · rw [if_pos h, if_pos (by exact h)]; simp; rfl
    · rw [if_neg h, if_neg (by exact h)]; rfl
  · simp only [List.contains_iff_mem]
    by_cases h : OPENID_2_0_TYPE ∈ typesOf service
    · rw [if_pos h, if_pos (by exact h)]; simp; rfl
    · rw [if_neg h, if_neg (by exact h)]; rfl

/-- The local identifier of a service is the only one it has (elements without text before it do not count); none if none
    has a text.  Two different ones are a failure. -/
theorem c59_local_id (service : Elem) :
    (∀ r, findOPLocalIdentifier service (typesOf service) = .ok r →
      (r = none ∧ ∀ x ∈ localIds service, x = none) ∨
      ∃ t k m, r = some t ∧ localIds service = List.replicate k none ++ List.replicate (m + 1) (some t)) ∧
    (∀ e, findOPLocalIdentifier service (typesOf service) = .error e →
      e = .discoveryFailure ∧
      ∃ k t rest, localIds service = List.replicate k none ++ some t :: rest ∧ ∃ x ∈ rest, x ≠ some t) := by
  rw [findOPLocalIdentifier, localIds_eq]
  exact oneLocalId_none _

-- both kinds, the same; different ones; one for a type the service does not have
example : findOPLocalIdentifier (service0 [OPENID_1_1_TYPE, OPENID_2_0_TYPE]
      [elem0 localIDTag (some t!"http://me/"), elem0 delegateTag none, elem0 delegateTag (some t!"http://me/")])
      [OPENID_1_1_TYPE, OPENID_2_0_TYPE] = .ok (some t!"http://me/") ∧
    findOPLocalIdentifier (service0 [OPENID_1_1_TYPE, OPENID_2_0_TYPE]
      [elem0 localIDTag (some t!"http://me/"), elem0 delegateTag (some t!"http://you/")])
      [OPENID_1_1_TYPE, OPENID_2_0_TYPE] = .error .discoveryFailure ∧
    findOPLocalIdentifier (service0 [OPENID_1_1_TYPE]
      [elem0 localIDTag (some t!"http://me/"), elem0 delegateTag (some t!"http://you/")])
      [OPENID_1_1_TYPE] = .ok (some t!"http://you/") := by decide +kernel

/-- An element without text after one with text is taken for another identifier. -/
theorem c59_empty_conflicts : findOPLocalIdentifier (service0 [OPENID_2_0_TYPE]
      [elem0 localIDTag (some t!"http://me/"), elem0 localIDTag none]) [OPENID_2_0_TYPE] = .error .discoveryFailure ∧
    findOPLocalIdentifier (service0 [OPENID_2_0_TYPE]
      [elem0 localIDTag none, elem0 localIDTag (some t!"http://me/")]) [OPENID_2_0_TYPE] = .ok (some t!"http://me/") := by
  decide +kernel

/-! ## C57: XRDS documents -/

theorem getTypeURIs_ok {service : Elem} {types : List Str} (h : Etxrd.getTypeURIs service = .ok types) : types = typesOf service := by
  rw [Etxrd.getTypeURIs] at h
  have ht : typesOf service = (service.findall Etxrd.typeTag).filterMap (·.text) := rfl
  rw [ht]
  revert h types
  generalize service.findall Etxrd.typeTag = l
  induction l with
  | nil => intro types h; simp at h; simp [← h]
  | cons x r ih =>
    intro types h
    rw [List.mapM_cons] at h
    obtain ⟨b, h1, h⟩ := bind_eq_ok.1 h
    obtain ⟨bs, h2, h⟩ := bind_eq_ok.1 h
    simp only [pure_eq_ok, Except.ok.injEq] at h
    subst h
    cases hx : x.text with
    | none => rw [hx] at h1; simp at h1
    | some t => rw [hx] at h1; simp at h1; subst h1; rw [List.filterMap_cons, hx, ih h2]

open scoped Classical in
theorem fromBasic_forall {y : Str} {s : Elem} {uris : List Elem} {found : List (Option Endpoint)}
    (h : (uris.map (·.text)).mapM (fun u => fromBasicServiceEndpoint y (typesOf s) s u) = .ok found) :
    Each (fun u e => IsEndpoint y s u e) (uris.filter fun u => Usable s u) (found.filterMap id) := by
  induction uris generalizing found with
  | nil => simp at h; subst h; exact .nil
  | cons u r ih =>
    rw [List.map_cons, List.mapM_cons] at h
    obtain ⟨b, h1, h⟩ := bind_eq_ok.1 h
    obtain ⟨bs, h2, h⟩ := bind_eq_ok.1 h
    simp only [pure_eq_ok, Except.ok.injEq] at h
    subst h
    have ih := ih h2
    rw [fromBasicServiceEndpoint.eq_def] at h1
    cases hu : u.text with
    | none =>
      rw [hu] at h1
      simp only [Except.ok.injEq] at h1
      subst h1
      rw [List.filter_cons, if_neg (by simp [Usable, hu])]
      exact ih
    | some uri =>
      rw [hu] at h1
      simp only at h1
      by_cases hm : (matchTypes (typesOf s) openidTypeUris).isEmpty = true
      · rw [if_pos hm] at h1
        simp only [Except.ok.injEq] at h1
        subst h1
        rw [List.filter_cons, if_neg]
        · exact ih
        · simp only [decide_eq_true_eq]
          rintro ⟨⟨t, ht, hk⟩, -⟩
          rw [List.isEmpty_iff, matchTypes, List.filter_eq_nil_iff] at hm
          exact hm t hk (List.contains_iff_mem.2 ht)
      · rw [if_neg hm] at h1
        obtain ⟨e, h3, h4⟩ := bind_eq_ok.1 h1
        simp only [pure_eq_ok, Except.ok.injEq] at h4
        subst h4
        rw [List.filter_cons, if_pos (by simp [Usable, hu, matchTypes_known hm])]
        refine .cons ?_ ih
        obtain ⟨k1, k2, k3, k4, k5, k6⟩ := parseService_claimed h3
        refine ⟨by rw [hu, k2], k3, k4, k5, k6, ?_⟩
        rcases k1 with ⟨k1, k7, k8⟩ | ⟨k1, k7, k8⟩
        · rw [if_pos (by exact k1)]; exact ⟨k7, k8⟩
        · rw [if_neg (by exact k1)]
          refine ⟨k7, ?_⟩
          rcases (c59_local_id s).1 _ k8 with ⟨j1, j2⟩ | ⟨t, k, m, j1, j2⟩
          · rw [j1]; exact ⟨fun t ht => .inl (j2 t ht), by simp⟩
          · rw [j1, j2]
            refine ⟨?_, ?_⟩
            · intro x hx
              rcases List.mem_append.1 hx with hx | hx
              · exact .inl (List.eq_of_mem_replicate hx)
              · exact .inr (List.eq_of_mem_replicate hx)
            · intro t' ht'
              simp only [Option.some.injEq] at ht'
              subst ht'
              simp

open scoped Classical in
theorem getServiceEndpoints_forall {W : World} {i : Nat} {y : Str} {s : Elem} {es : List Endpoint}
    (hs : ∀ l, (W.shuffleURIs i l).Perm l) (h : getServiceEndpoints W i y s = .ok es) :
    ∃ uris : List Elem, uris.Perm (uriElems s) ∧ uris.Pairwise (MayPrecede W.digits) ∧
      Each (fun u e => IsEndpoint y s u e) (uris.filter fun u => Usable s u) es := by
  rw [getServiceEndpoints] at h
  obtain ⟨basic, h1, h⟩ := bind_eq_ok.1 h
  obtain ⟨found, h2, h⟩ := bind_eq_ok.1 h
  simp only [pure_eq_ok, Except.ok.injEq] at h
  subst h
  obtain ⟨uris, k1, k2, k3⟩ := c44_sortedURIs W.digits (W.shuffleURIs i) hs s
  refine ⟨uris, k2, k3, ?_⟩
  rw [Etxrd.expandService, k1] at h1
  -- the texts of the URIs, or no URI at all
  have hb : ∀ l : List (Option Str), ∀ b, (l.mapM fun u => do let types ← Etxrd.getTypeURIs s; return (types, u)) = .ok b →
      b = l.map fun u => (typesOf s, u) := by
    intro l
    induction l with
    | nil => intro b h; simp at h; simp [← h]
    | cons x r ih =>
      intro b h
      rw [List.mapM_cons] at h
      obtain ⟨c, h3, h⟩ := bind_eq_ok.1 h
      obtain ⟨cs, h4, h⟩ := bind_eq_ok.1 h
      simp only [pure_eq_ok, Except.ok.injEq] at h
      subst h
      obtain ⟨types, h5, h6⟩ := bind_eq_ok.1 h3
      simp only [pure_eq_ok, Except.ok.injEq] at h6
      subst h6
      rw [List.map_cons, ih _ h4, getTypeURIs_ok h5]
  have hb := hb _ _ h1
  subst hb
  rw [List.mapM_map] at h2
  cases uris with
  | nil =>
    simp [fromBasicServiceEndpoint] at h2
    subst h2
    exact .nil
  | cons u us =>
    rw [if_neg (by simp)] at h2
    exact fromBasic_forall h2

theorem endpointsOf_forall {W : World} {y : Str} {l : List Elem} {i : Nat}
    {es : List Endpoint} (h : endpointsOf W y i l = .ok es) :
    ∃ groups : List (Elem × List Elem × List Endpoint), groups.map (·.1) = l ∧ es = groups.flatMap (·.2.2) ∧
      ∀ g ∈ groups, ∃ i, getServiceEndpoints W i y g.1 = .ok g.2.2 := by
  induction l generalizing i es with
  | nil => simp [endpointsOf] at h; subst h; exact ⟨[], rfl, rfl, by simp⟩
  | cons s r ih =>
    rw [endpointsOf] at h
    obtain ⟨a, h1, h⟩ := bind_eq_ok.1 h
    obtain ⟨b, h2, h⟩ := bind_eq_ok.1 h
    simp only [pure_eq_ok, Except.ok.injEq] at h
    subst h
    obtain ⟨gs, k1, k2, k3⟩ := ih h2
    refine ⟨(s, [], a) :: gs, by simp [k1], by simp [k2], ?_⟩
    intro g hg
    rcases List.mem_cons.1 hg with rfl | hg
    · exact ⟨i, h1⟩
    · exact k3 g hg

open scoped Classical in
/-- The endpoints of an XRDS document: for the services of the last XRD, by priority, and for the URIs of each, by priority,
    one each if the service has a known type. -/
theorem c57_fromXRDS (W : World) (hs : ∀ i l, (W.shuffle i l).Perm l) (hu : ∀ i l, (W.shuffleURIs i l).Perm l) (y : Str)
    (body : Bytes) (es : List Endpoint) (h : fromXRDS W y body = .ok es) :
    ∃ root xrd, W.xml body = some root ∧ root.tag = t!"{xri://$xrds}XRDS" ∧
      (root.children.filter fun c => c.tag = t!"{xri://$xrd*($v*2.0)}XRD").getLast? = some xrd ∧
    ∃ groups : List (Elem × List Elem × List Endpoint),
      (groups.map (·.1)).Perm (xrd.children.filter fun c => c.tag = t!"{xri://$xrd*($v*2.0)}Service") ∧
      (groups.map (·.1)).Pairwise (MayPrecede W.digits) ∧
      (∀ g ∈ groups, g.2.1.Perm (uriElems g.1) ∧ g.2.1.Pairwise (MayPrecede W.digits) ∧
        Each (fun u e => IsEndpoint y g.1 u e) (g.2.1.filter fun u => Usable g.1 u) g.2.2) ∧
      es = groups.flatMap (·.2.2) := by
  rw [fromXRDS] at h
  obtain ⟨root, h1, h⟩ := bind_eq_ok.1 h
  obtain ⟨services, h2, h⟩ := bind_eq_ok.1 h
  have hroot : W.xml body = some root ∧ root.tag = t!"{xri://$xrds}XRDS" := by
    rw [Etxrd.parseXRDS.eq_def] at h1
    split at h1
    · split at h1
      · next hx =>
        simp only [Except.ok.injEq] at h1
        subst h1
        refine ⟨by assumption, ?_⟩
        rw [Etxrd.isXRDS, decide_eq_true_eq] at hx
        exact hx
      · simp at h1
    · simp at h1
  have hi := c44_iterServices W.digits (W.shuffle 0) (hs 0) root
  split at hi
  · rw [hi] at h2; simp at h2
  · next xrd hx =>
    obtain ⟨out, h3, h4, h5⟩ := hi
    rw [h3] at h2
    simp only [Except.ok.injEq] at h2
    subst h2
    refine ⟨root, xrd, hroot.1, hroot.2, hx, ?_⟩
    obtain ⟨gs, k1, k2, k3⟩ := endpointsOf_forall h
    -- choose the order of the URIs of each
    have : ∃ groups : List (Elem × List Elem × List Endpoint), groups.map (·.1) = gs.map (·.1) ∧
        groups.flatMap (·.2.2) = gs.flatMap (·.2.2) ∧
        ∀ g ∈ groups, g.2.1.Perm (uriElems g.1) ∧ g.2.1.Pairwise (MayPrecede W.digits) ∧
          Each (fun u e => IsEndpoint y g.1 u e) (g.2.1.filter fun u => Usable g.1 u) g.2.2 := by
      clear k1 k2
      induction gs with
      | nil => exact ⟨[], rfl, rfl, by simp⟩
      | cons g gs ih =>
        obtain ⟨groups, j1, j2, j3⟩ := ih fun g' hg' => k3 g' (by simp [hg'])
        obtain ⟨i, hi⟩ := k3 g (by simp)
        obtain ⟨uris, u1, u2, u3⟩ := getServiceEndpoints_forall (hu i) hi
        refine ⟨(g.1, uris, g.2.2) :: groups, by simp [j1], by simp [j2], ?_⟩
        intro g' hg'
        rcases List.mem_cons.1 hg' with rfl | hg'
        · exact ⟨u1, u2, u3⟩
        · exact j3 g' hg'
    obtain ⟨groups, j1, j2, j3⟩ := this
    exact ⟨groups, by rw [j1, k1]; exact h4, by rw [j1, k1]; exact h5, j3, by rw [k2, j2]⟩

-- the example document: of three services, the last two have known types
example : (∀ i l, (disco0.shuffle i l).Perm l) ∧ (∀ i l, (disco0.shuffleURIs i l).Perm l) :=
  ⟨fun _ l => List.reverse_perm l, fun _ l => List.reverse_perm l⟩

example : fromXRDS disco0 t!"http://b.com/final#x" [1] = .ok [found1, found2] := by decide +kernel

theorem mapM_error {α β : Type} {f : α → Except PyErr β} {l : List α} {e : PyErr} (h : l.mapM f = .error e) :
    ∃ a ∈ l, f a = .error e := by
  induction l with
  | nil => simp at h
  | cons x r ih =>
    rw [List.mapM_cons] at h
    rcases bind_eq_error.1 h with h | ⟨b, -, h⟩
    · exact ⟨x, by simp, h⟩
    · rcases bind_eq_error.1 h with h | ⟨bs, -, h⟩
      · obtain ⟨a, ha, hf⟩ := ih h
        exact ⟨a, by simp [ha], hf⟩
      · simp at h

/-- The service breaks the document: it has a type without a text, or it has two different local identifiers. -/
def Breaks (service : Elem) (e : PyErr) : Prop :=
  (e = .attributeError ∧ ∃ t ∈ service.children, t.tag = t!"{xri://$xrd*($v*2.0)}Type" ∧ t.text = none) ∨
  (e = .discoveryFailure ∧ ∃ a ∈ localIds service, ∃ b ∈ localIds service, a ≠ b)

theorem getServiceEndpoints_error {W : World} {i : Nat} {y : Str} {s : Elem} {e : PyErr}
    (h : getServiceEndpoints W i y s = .error e) : Breaks s e := by
  rw [getServiceEndpoints] at h
  rcases bind_eq_error.1 h with h | ⟨basic, h1, h⟩
  · rw [Etxrd.expandService] at h
    obtain ⟨u, -, h⟩ := mapM_error h
    rcases bind_eq_error.1 h with h | ⟨_, -, h⟩
    · rw [Etxrd.getTypeURIs] at h
      obtain ⟨t, ht, h⟩ := mapM_error h
      have := List.mem_filter.1 ht
      split at h
      · simp at h
      · next hn =>
        simp only [Except.error.injEq] at h
        exact .inl ⟨h.symm, t, this.1, of_decide_eq_true this.2, hn⟩
    · simp at h
  · rcases bind_eq_error.1 h with h | ⟨_, -, h⟩
    · obtain ⟨b, hb, h⟩ := mapM_error h
      have hty : b.1 = typesOf s := by
        rw [Etxrd.expandService] at h1
        obtain ⟨u, -, h2⟩ := mapM_ok_mem h1 b hb
        obtain ⟨types, h3, h4⟩ := bind_eq_ok.1 h2
        simp only [pure_eq_ok, Except.ok.injEq] at h4
        rw [← h4]
        exact getTypeURIs_ok h3
      rw [fromBasicServiceEndpoint.eq_def, hty] at h
      split at h
      · split at h
        · simp at h
        · rcases bind_eq_error.1 h with h | ⟨_, -, h⟩
          · rw [parseService] at h
            split at h
            · simp at h
            · rcases bind_eq_error.1 h with h | ⟨_, -, h⟩
              · obtain ⟨h1, k, t, rest, h2, x, hx, h3⟩ := (c59_local_id s).2 _ h
                exact .inr ⟨h1, some t, by rw [h2]; simp, x, by rw [h2]; simp [hx], Ne.symm h3⟩
              · simp at h
          · simp at h
      · simp at h
    · simp at h

theorem endpointsOf_error {W : World} {y : Str} {l : List Elem} {i : Nat} {e : PyErr} (h : endpointsOf W y i l = .error e) :
    ∃ s ∈ l, Breaks s e := by
  induction l generalizing i with
  | nil => simp [endpointsOf] at h
  | cons s r ih =>
    rw [endpointsOf] at h
    rcases bind_eq_error.1 h with h | ⟨_, -, h⟩
    · exact ⟨s, by simp, getServiceEndpoints_error h⟩
    · rcases bind_eq_error.1 h with h | ⟨_, -, h⟩
      · obtain ⟨s', h1, h2⟩ := ih h
        exact ⟨s', by simp [h1], h2⟩
      · simp at h

/-- Reading an XRDS document fails because it is not one, because it has no XRD, or because a service of the last one breaks
    it. -/
theorem c57_errors (W : World) (hs : ∀ i l, (W.shuffle i l).Perm l) (y : Str) (body : Bytes) (e : PyErr)
    (h : fromXRDS W y body = .error e) :
    (e = .xrdsError ∧ ∀ root, W.xml body = some root → root.tag = t!"{xri://$xrds}XRDS" →
      root.children.filter (fun c => c.tag = t!"{xri://$xrd*($v*2.0)}XRD") = []) ∨
    ∃ root xrd service, W.xml body = some root ∧
      (root.children.filter fun c => c.tag = t!"{xri://$xrd*($v*2.0)}XRD").getLast? = some xrd ∧
      service ∈ xrd.children ∧ service.tag = t!"{xri://$xrd*($v*2.0)}Service" ∧ Breaks service e := by
  rw [fromXRDS] at h
  rcases bind_eq_error.1 h with h | ⟨root, h1, h⟩
  · rw [Etxrd.parseXRDS.eq_def] at h
    split at h
    · next root hx =>
      split at h
      · simp at h
      · next hn =>
        simp only [Except.error.injEq] at h
        refine .inl ⟨h.symm, fun r hr ht => absurd ?_ hn⟩
        rw [hx] at hr
        simp only [Option.some.injEq] at hr
        subst hr
        rw [Etxrd.isXRDS, decide_eq_true_eq]
        exact ht
    · next hx =>
      simp only [Except.error.injEq] at h
      exact .inl ⟨h.symm, by simp [hx]⟩
  · have hroot : W.xml body = some root := by
      rw [Etxrd.parseXRDS.eq_def] at h1
      split at h1
      · split at h1
        · simp only [Except.ok.injEq] at h1; subst h1; assumption
        · simp at h1
      · simp at h1
    have hi := c44_iterServices W.digits (W.shuffle 0) (hs 0) root
    rcases bind_eq_error.1 h with h | ⟨services, h2, h⟩
    · split at hi
      · next hn =>
        rw [hi] at h
        simp only [Except.error.injEq] at h
        refine .inl ⟨h.symm, fun r hr _ => ?_⟩
        rw [hroot] at hr
        simp only [Option.some.injEq] at hr
        subst hr
        exact List.getLast?_eq_none_iff.1 hn
      · obtain ⟨out, h3, -⟩ := hi; rw [h3] at h; simp at h
    · split at hi
      · rw [hi] at h2; simp at h2
      · next xrd hx =>
        obtain ⟨out, h3, h4, -⟩ := hi
        rw [h3] at h2
        simp only [Except.ok.injEq] at h2
        subst h2
        obtain ⟨s, k1, k2⟩ := endpointsOf_error h
        have := List.mem_filter.1 (h4.mem_iff.1 k1)
        exact .inr ⟨root, xrd, s, hroot, hx, this.1, by simpa using this.2, k2⟩

/-- One empty type, of whatever service, and nothing of the document is read. -/
theorem c57_empty_type : endpointsOf disco0 t!"http://a/" 0
    [service0 [OPENID_2_0_TYPE] [elem0 Etxrd.uriTag (some t!"http://op/")], service0 [] [elem0 Etxrd.typeTag none]] =
    .error .attributeError := by decide +kernel

example : Breaks (service0 [] [elem0 Etxrd.typeTag none]) .attributeError :=
  .inl ⟨rfl, elem0 Etxrd.typeTag none, by simp [service0, Elem.children], rfl, rfl⟩

/-! ## C58: HTML pages -/

theorem firstLink_eq {root : Elem} {rel : Str} (hw : rel ≠ []) (hn : ∀ c ∈ rel, isXmlSpace c = false) :
    (links root rel).head? = firstLink root rel := by
  classical
  rw [links, firstLink, List.head?_filter]
  have hh : inHead t!"link" root = headElems root t!"link" := rfl
  rw [hh]
  congr 1
  funext l
  rw [Bool.eq_iff_iff, relMatches_iff rel l hw hn, decide_eq_true_eq]

theorem fromLinks_iff {uri : Str} {root : Elem} {t a b : Str} (ha : a ≠ []) (ha' : ∀ c ∈ a, isXmlSpace c = false)
    (hb : b ≠ []) (hb' : ∀ c ∈ b, isXmlSpace c = false) :
    (∃ e, fromLinks uri root t a b = [e] ∧ IsHtmlEndpoint uri root t a b e) ∨
    (fromLinks uri root t a b = [] ∧ ∀ e, ¬ IsHtmlEndpoint uri root t a b e) := by
  rw [fromLinks, firstLink_eq ha ha', firstLink_eq hb hb']
  cases h1 : firstLink root a with
  | none => exact .inr ⟨rfl, by rintro e ⟨⟨l, h, -⟩, -⟩; rw [h1] at h; simp at h⟩
  | some l =>
    simp only
    cases h2 : l.get t!"href" with
    | none =>
      refine .inr ⟨rfl, ?_⟩
      rintro e ⟨⟨l', h, h3⟩, -⟩
      rw [h1] at h; simp only [Option.some.injEq] at h; subst h; rw [h2] at h3; simp at h3
    | some u =>
      cases u with
      | nil =>
        refine .inr ⟨rfl, ?_⟩
        rintro e ⟨⟨l', h, h3⟩, h4, -⟩
        rw [h1] at h; simp only [Option.some.injEq] at h; subst h; rw [h2] at h3; simp only [Option.some.injEq] at h3
        exact h4 h3.symm
      | cons c cs => exact .inl ⟨_, rfl, ⟨l, h1, h2⟩, by simp, rfl, rfl, rfl, rfl, rfl, rfl⟩

/-- The endpoints of an HTML page: one of OpenID 2 if the first link for its provider has an address, then one of OpenID 1
    likewise. -/
theorem c58_fromHTML (W : World) (uri : Str) (body : Bytes) :
    (W.html body = none → fromHTML W uri body = []) ∧
    ∀ root, W.html body = some root → ∃ two one, fromHTML W uri body = two ++ one ∧
      ((∃ e, two = [e] ∧ IsHtmlEndpoint uri root t!"http://specs.openid.net/auth/2.0/signon" t!"openid2.provider"
          t!"openid2.local_id" e) ∨
       two = [] ∧ ∀ e, ¬ IsHtmlEndpoint uri root t!"http://specs.openid.net/auth/2.0/signon" t!"openid2.provider"
          t!"openid2.local_id" e) ∧
      ((∃ e, one = [e] ∧ IsHtmlEndpoint uri root t!"http://openid.net/signon/1.1" t!"openid.server" t!"openid.delegate" e) ∨
       one = [] ∧ ∀ e, ¬ IsHtmlEndpoint uri root t!"http://openid.net/signon/1.1" t!"openid.server" t!"openid.delegate" e) := by
  refine ⟨fun h => by rw [fromHTML, h], fun root h => ?_⟩
  rw [fromHTML, h]
  exact ⟨_, _, rfl, fromLinks_iff (by decide) (by decide) (by decide) (by decide),
    fromLinks_iff (by decide) (by decide) (by decide) (by decide)⟩

example : fromHTML disco0 t!"http://a.com/" [2] =
    [⟨some t!"http://a.com/", t!"http://op/", [OPENID_2_0_TYPE], none, none, false, none⟩,
     ⟨some t!"http://a.com/", t!"http://op/", [OPENID_1_1_TYPE], some t!"http://me/", none, false, none⟩] := by decide +kernel

example : IsWord t!"openid.server" t!"x openid2.provider\nopenid.server" :=
  ⟨t!"x openid2.provider\n", [], by decide, by decide, by decide, .inr ⟨'\n', by decide, by decide⟩, .inl rfl⟩

/-- A first link without an address hides the links after it. -/
theorem c58_first_only : fromLinks t!"http://a/" (html0 [link0 t!"openid.server" [], link0 t!"openid.server" t!"http://op/"])
    OPENID_1_1_TYPE t!"openid.server" t!"openid.delegate" = [] := by decide +kernel

end Props
