import Verif.Lemmas.DiscoverUrl
import Verif.Props.TrustRoot
/-! # C55, C56: what discovery on a URL asks for, and whom the endpoints are for -/

namespace Props
open Py Xml Spec Discover

/-! ## C55 -/

theorem fromLinks_claimed {uri : Str} {root : Elem} {t a b : Str} {e : Endpoint} (h : e ∈ fromLinks uri root t a b) :
    e.claimedId = some uri ∧ e.typeUris = [t] ∧ e.canonicalID = none ∧ e.displayIdentifier = none := by
  rw [fromLinks] at h
  (repeat' split at h) <;> simp at h <;> subst h <;> exact ⟨rfl, rfl, rfl, rfl⟩

theorem fromHTML_claimed {W : World} {uri : Str} {body : Bytes} {e : Endpoint} (h : e ∈ fromHTML W uri body) :
    e.claimedId = some uri ∧ OPENID_IDP_2_0_TYPE ∉ e.typeUris ∧ (∃ t ∈ e.typeUris, Known t) ∧ e.canonicalID = none ∧
    e.displayIdentifier = none := by
  rw [fromHTML] at h
  split at h
  · simp at h
  · rcases List.mem_append.1 h with h | h <;> obtain ⟨h1, h2, h3, h4⟩ := fromLinks_claimed h
    · exact ⟨h1, by rw [h2]; decide, ⟨OPENID_2_0_TYPE, by rw [h2]; simp, by simp only [Known]; decide⟩, h3, h4⟩
    · exact ⟨h1, by rw [h2]; decide, ⟨OPENID_1_1_TYPE, by rw [h2]; simp, by simp only [Known]; decide⟩, h3, h4⟩

theorem parseService_claimed {y uri : Str} {types : List Str} {s : Elem} {e : Endpoint} (h : parseService y uri types s = .ok e) :
    (OPENID_IDP_2_0_TYPE ∈ types ∧ e.claimedId = none ∧ e.localId = none ∨
      OPENID_IDP_2_0_TYPE ∉ types ∧ e.claimedId = some y ∧ findOPLocalIdentifier s types = .ok e.localId) ∧
    e.serverUrl = uri ∧ e.typeUris = types ∧ e.canonicalID = none ∧ e.displayIdentifier = none ∧ e.usedYadis = true := by
  rw [parseService] at h
  split at h
  · next hc =>
    simp only [Except.ok.injEq] at h
    subst h
    exact ⟨.inl ⟨List.contains_iff_mem.1 hc, rfl, rfl⟩, rfl, rfl, rfl, rfl, rfl⟩
  · next hc =>
    obtain ⟨l, h1, h2⟩ := bind_eq_ok.1 h
    simp only [pure_eq_ok, Except.ok.injEq] at h2
    subst h2
    exact ⟨.inr ⟨fun h => hc (List.contains_iff_mem.2 h), rfl, h1⟩, rfl, rfl, rfl, rfl, rfl⟩

theorem matchTypes_known {types : List Str} (h : ¬ (matchTypes types openidTypeUris).isEmpty = true) : ∃ t ∈ types, Known t := by
  rw [List.isEmpty_iff, matchTypes, List.filter_eq_nil_iff] at h
  simp only [List.contains_iff_mem, Classical.not_forall, Decidable.not_not] at h
  obtain ⟨t, h1, h2⟩ := h
  exact ⟨t, h2, h1⟩

theorem mapM_ok_mem {α β : Type} {f : α → Except PyErr β} {l : List α} {out : List β} (h : l.mapM f = .ok out) :
    ∀ b ∈ out, ∃ a ∈ l, f a = .ok b := by
  induction l generalizing out with
  | nil => simp at h; subst h; simp
  | cons x r ih =>
    rw [List.mapM_cons] at h
    obtain ⟨b, h1, h2⟩ := bind_eq_ok.1 h
    obtain ⟨bs, h3, h4⟩ := bind_eq_ok.1 h2
    simp only [pure_eq_ok, Except.ok.injEq] at h4
    subst h4
    intro c hc
    rcases List.mem_cons.1 hc with rfl | hc
    · exact ⟨x, by simp, h1⟩
    · obtain ⟨a, ha, hf⟩ := ih h3 c hc
      exact ⟨a, by simp [ha], hf⟩

theorem getServiceEndpoints_claimed {W : World} {i : Nat} {y : Str} {s : Elem} {es : List Endpoint}
    (h : getServiceEndpoints W i y s = .ok es) : ∀ e ∈ es,
    (OPENID_IDP_2_0_TYPE ∈ e.typeUris ∧ e.claimedId = none ∧ e.localId = none ∨
      OPENID_IDP_2_0_TYPE ∉ e.typeUris ∧ e.claimedId = some y) ∧
    (∃ t ∈ e.typeUris, Known t) ∧ e.canonicalID = none ∧ e.displayIdentifier = none := by
  rw [getServiceEndpoints] at h
  obtain ⟨basic, h1, h2⟩ := bind_eq_ok.1 h
  obtain ⟨found, h3, h4⟩ := bind_eq_ok.1 h2
  simp only [pure_eq_ok, Except.ok.injEq] at h4
  subst h4
  intro e he
  obtain ⟨o, ho, rfl⟩ : ∃ o ∈ found, o = some e := by
    obtain ⟨o, ho, h⟩ := List.mem_filterMap.1 he; exact ⟨o, ho, h⟩
  obtain ⟨b, hb, hf⟩ := mapM_ok_mem h3 _ ho
  rw [fromBasicServiceEndpoint.eq_def] at hf
  split at hf
  · split at hf
    · simp at hf
    · next hm =>
      obtain ⟨e', h5, h6⟩ := bind_eq_ok.1 hf
      simp only [pure_eq_ok, Except.ok.injEq, Option.some.injEq] at h6
      subst h6
      obtain ⟨h7, h8, h9, h10, h11, h12⟩ := parseService_claimed h5
      refine ⟨?_, by rw [h9]; exact matchTypes_known hm, h10, h11⟩
      rw [h9]
      rcases h7 with h | ⟨ha, hb, -⟩
      · exact .inl h
      · exact .inr ⟨ha, hb⟩
  · simp at hf

theorem endpointsOf_mem {W : World} {y : Str} {l : List Elem} {i : Nat} {es : List Endpoint} (h : endpointsOf W y i l = .ok es) :
    ∀ e ∈ es, ∃ j, ∃ s ∈ l, ∃ es', getServiceEndpoints W j y s = .ok es' ∧ e ∈ es' := by
  induction l generalizing i es with
  | nil => simp [endpointsOf] at h; subst h; simp
  | cons s r ih =>
    rw [endpointsOf] at h
    obtain ⟨a, h1, h2⟩ := bind_eq_ok.1 h
    obtain ⟨b, h3, h4⟩ := bind_eq_ok.1 h2
    simp only [pure_eq_ok, Except.ok.injEq] at h4
    subst h4
    intro e he
    rcases List.mem_append.1 he with he | he
    · exact ⟨i, s, by simp, a, h1, he⟩
    · obtain ⟨j, s', hs, es', h5, h6⟩ := ih h3 e he
      exact ⟨j, s', by simp [hs], es', h5, h6⟩

theorem fromXRDS_claimed {W : World} {y : Str} {body : Bytes} {es : List Endpoint} (h : fromXRDS W y body = .ok es) : ∀ e ∈ es,
    (OPENID_IDP_2_0_TYPE ∈ e.typeUris ∧ e.claimedId = none ∧ e.localId = none ∨
      OPENID_IDP_2_0_TYPE ∉ e.typeUris ∧ e.claimedId = some y) ∧
    (∃ t ∈ e.typeUris, Known t) ∧ e.canonicalID = none ∧ e.displayIdentifier = none := by
  rw [fromXRDS] at h
  obtain ⟨a, -, h⟩ := bind_eq_ok.1 h
  obtain ⟨b, -, h⟩ := bind_eq_ok.1 h
  intro e he
  obtain ⟨j, s, -, es', h1, h2⟩ := endpointsOf_mem h e he
  exact getServiceEndpoints_claimed h1 e h2

theorem mem_getOPOrUserServices {es : List Endpoint} {e : Endpoint} (h : e ∈ getOPOrUserServices es) : e ∈ es := by
  rw [getOPOrUserServices] at h
  split at h <;> (rw [arrangeByType_eq, mem_sortBy] at h; exact h)

/-- Nothing a page says makes an endpoint of another user: the endpoints found for a URL are for the address its page was
    fetched from in the end, or, for users to choose their identifier at the provider, for none, with no local identifier. -/
theorem c55_claimed (W : World) (id : Str) (gets : List Get) (claimed : Str) (services : List Endpoint)
    (h : Gets (discoverURI W id) gets (.ok (claimed, services))) :
    ∃ url uri g page, (url = id ∨ url = t!"http://" ++ id) ∧ normalizeURL W.uni url = .ok uri ∧
      g ∈ gets ∧ g.url = uri ∧ Got g page ∧ normalizeURL W.uni page.finalUrl = .ok claimed ∧
      ∀ e ∈ services, (∃ t ∈ e.typeUris, Known t) ∧ e.canonicalID = none ∧ e.displayIdentifier = none ∧
        if e.isOPIdentifier then e.claimedId = none ∧ e.localId = none else e.claimedId = some page.finalUrl := by
  have hid : ∀ url, identifierURL W.uni id = .ok url → url = id ∨ url = t!"http://" ++ id := by
    intro url h
    rw [identifierURL] at h
    obtain ⟨p, -, h⟩ := bind_eq_ok.1 h
    (repeat' split at h) <;> simp at h <;> simp [← h]
  have hop : ∀ e : Endpoint, e.isOPIdentifier = true ↔ OPENID_IDP_2_0_TYPE ∈ e.typeUris := fun e => List.contains_iff_mem
  have fin : ∀ (es : List Endpoint) y, (∀ e ∈ es, (OPENID_IDP_2_0_TYPE ∈ e.typeUris ∧ e.claimedId = none ∧ e.localId = none ∨
      OPENID_IDP_2_0_TYPE ∉ e.typeUris ∧ e.claimedId = some y) ∧
      (∃ t ∈ e.typeUris, Known t) ∧ e.canonicalID = none ∧ e.displayIdentifier = none) →
      ∀ e ∈ es, (∃ t ∈ e.typeUris, Known t) ∧ e.canonicalID = none ∧ e.displayIdentifier = none ∧
        if e.isOPIdentifier then e.claimedId = none ∧ e.localId = none else e.claimedId = some y := by
    intro es y h e he
    obtain ⟨h1, h2, h3, h4⟩ := h e he
    refine ⟨h2, h3, h4, ?_⟩
    rcases h1 with ⟨h1, h5⟩ | ⟨h1, h5⟩
    · rw [if_pos ((hop e).2 h1)]; exact h5
    · rw [if_neg (fun h => h1 ((hop e).1 h))]; exact h5
  have finH : ∀ y body, ∀ e ∈ fromHTML W y body, (OPENID_IDP_2_0_TYPE ∈ e.typeUris ∧ e.claimedId = none ∧ e.localId = none ∨
      OPENID_IDP_2_0_TYPE ∉ e.typeUris ∧ e.claimedId = some y) ∧
      (∃ t ∈ e.typeUris, Known t) ∧ e.canonicalID = none ∧ e.displayIdentifier = none := by
    intro y body e he
    obtain ⟨h1, h2, h3, h4, h5⟩ := fromHTML_claimed he
    exact ⟨.inr ⟨h2, h1⟩, h3, h4, h5⟩
  rcases gets_discoverURI h with ⟨e, -, -, h⟩ | ⟨url, uri, hu, hn, ⟨e, -, h⟩ | ⟨found, services', hy, ⟨e, -, h⟩ | ⟨cid, hc, h⟩⟩⟩
  · simp at h
  · simp at h
  · simp at h
  simp only [Except.ok.injEq, Prod.mk.injEq] at h
  obtain ⟨rfl, rfl⟩ := h
  rcases gets_discoverYadis hy with ⟨e, -, h⟩ | ⟨g1, g2, y, rfl, h1, h2⟩
  · simp at h
  obtain ⟨p, hp, hpf, hmem⟩ : ∃ p, Got ⟨uri, some yadisAccept, .ok p⟩ p ∧ y.normalizedUri = p.finalUrl ∧
      ⟨uri, some yadisAccept, .ok p⟩ ∈ g1 := by
    rcases gets_yadisDiscover h1 with ⟨o, e, -, k, -⟩ | ⟨p, loc, hp, -, ⟨-, rfl, k⟩ | ⟨l, o, -, rfl, k⟩⟩
    · simp at k
    · simp only [Except.ok.injEq] at k; exact ⟨p, hp, by rw [k], by simp⟩
    · rcases k with ⟨e, -, k⟩ | ⟨q, -, -, k⟩ | ⟨q, -, -, k⟩
      · simp at k
      · simp at k
      · simp only [Except.ok.injEq] at k; exact ⟨p, hp, by rw [k], by simp⟩
  rcases h2 with ⟨e, -, -, -, -, k⟩ | ⟨es, rfl, hx, -, k⟩ | ⟨-, ⟨-, k⟩ | ⟨-, rfl, k⟩⟩
  · simp at k
  · simp only [Except.ok.injEq, Prod.mk.injEq] at k
    obtain ⟨rfl, rfl⟩ := k
    refine ⟨url, uri, _, p, hid url hu, hn, by simp [hmem], rfl, hp, hpf ▸ hc, ?_⟩
    intro e he
    exact fin es _ (hpf ▸ fromXRDS_claimed hx) e (mem_getOPOrUserServices he)
  · obtain ⟨o, rfl, ⟨e, -, k⟩ | ⟨q, -, -, k⟩ | ⟨q, rfl, hq, k⟩⟩ := gets_discoverNoYadis k
    · simp at k
    · simp at k
    · simp only [Except.ok.injEq, Prod.mk.injEq] at k
      obtain ⟨rfl, rfl⟩ := k
      refine ⟨url, uri, _, q, hid url hu, hn, by simp, rfl, hq, hc, ?_⟩
      exact fin _ _ (finH _ _)
  · simp only [Except.ok.injEq, Prod.mk.injEq] at k
    obtain ⟨rfl, rfl⟩ := k
    refine ⟨url, uri, _, p, hid url hu, hn, by simp [hmem], rfl, hp, hpf ▸ hc, ?_⟩
    intro e he
    exact fin _ _ (hpf ▸ finH _ _) e (mem_getOPOrUserServices he)

/-! ## C56 -/

/-- Discovery on a URL asks at most three times: for the URL itself (its normal form), with the Accept header; for the XRDS
    document the page names, if that is elsewhere; and, if there was no use in an XRDS document, for the URL again. -/
theorem c56_requests (W : World) (id : Str) (gets : List Get) (r : Except PyErr (Str × List Endpoint))
    (h : Gets (discoverURI W id) gets r) :
    (gets = [] ∧ ∃ e, r = .error e) ∨
    ∃ url uri o rest, (url = id ∨ url = t!"http://" ++ id) ∧ normalizeURL W.uni url = .ok uri ∧
      gets = ⟨uri, some t!"text/html; q=0.3, application/xhtml+xml; q=0.5, application/xrds+xml", o⟩ :: rest ∧
      (rest = [] ∨ (∃ o', rest = [⟨uri, none, o'⟩]) ∨
       ∃ page loc o2, o = .ok page ∧ (page.status = 200 ∨ page.status = 206) ∧ whereIsYadis W page = .ok (some loc) ∧
        loc ≠ page.finalUrl ∧ loc ≠ [] ∧ (rest = [⟨loc, none, o2⟩] ∨ ∃ o3, rest = [⟨loc, none, o2⟩, ⟨uri, none, o3⟩])) := by
  have hid : ∀ url, identifierURL W.uni id = .ok url → url = id ∨ url = t!"http://" ++ id := by
    intro url h
    rw [identifierURL] at h
    obtain ⟨p, -, h⟩ := bind_eq_ok.1 h
    (repeat' split at h) <;> simp at h <;> simp [← h]
  rcases gets_discoverURI h with ⟨e, rfl, -, h⟩ | ⟨url, uri, hu, hn, h⟩
  · exact .inl ⟨rfl, e, h⟩
  obtain ⟨r', hy⟩ : ∃ r', Gets (discoverYadis W uri) gets r' := by
    rcases h with ⟨e, h, -⟩ | ⟨f, s, h, -⟩
    · exact ⟨_, h⟩
    · exact ⟨_, h⟩
  right
  have hg : ∀ {g r}, Gets (yadisDiscover W uri) g r → (∃ o, g = [⟨uri, some yadisAccept, o⟩]) ∨
      ∃ page loc o2, (page.status = 200 ∨ page.status = 206) ∧ whereIsYadis W page = .ok (some loc) ∧
        loc ≠ page.finalUrl ∧ loc ≠ [] ∧ g = [⟨uri, some yadisAccept, .ok page⟩, ⟨loc, none, o2⟩] := by
    intro g r h
    rcases gets_yadisDiscover h with ⟨o, e, rfl, -⟩ | ⟨p, loc, hp, hw, ⟨-, rfl, -⟩ | ⟨l, o, ⟨rfl, h1, h2⟩, rfl, -⟩⟩
    · exact .inl ⟨o, rfl⟩
    · exact .inl ⟨_, rfl⟩
    · exact .inr ⟨p, l, o, hp.2, hw, h2, h1, rfl⟩
  rcases gets_discoverYadis hy with ⟨e, h1, -⟩ | ⟨g1, g2, y, rfl, h1, h2⟩
  · rcases hg h1 with ⟨o, rfl⟩ | ⟨page, loc, o2, k1, k2, k3, k4, rfl⟩
    · exact ⟨url, uri, o, [], hid url hu, hn, rfl, .inl rfl⟩
    · exact ⟨url, uri, _, _, hid url hu, hn, rfl, .inr (.inr ⟨page, loc, o2, rfl, k1, k2, k3, k4, .inl rfl⟩)⟩
  · have h3 : g2 = [] ∨ ∃ o, g2 = [⟨uri, none, o⟩] := by
      rcases h2 with ⟨e, rfl, -⟩ | ⟨es, rfl, -⟩ | ⟨-, ⟨-, h⟩ | ⟨-, rfl, -⟩⟩
      · exact .inl rfl
      · exact .inl rfl
      · obtain ⟨o, rfl, -⟩ := gets_discoverNoYadis h; exact .inr ⟨o, rfl⟩
      · exact .inl rfl
    rcases hg h1 with ⟨o, rfl⟩ | ⟨page, loc, o2, k1, k2, k3, k4, rfl⟩ <;> rcases h3 with rfl | ⟨o3, rfl⟩
    · exact ⟨url, uri, o, [], hid url hu, hn, rfl, .inl rfl⟩
    · exact ⟨url, uri, o, _, hid url hu, hn, rfl, .inr (.inl ⟨o3, rfl⟩)⟩
    · exact ⟨url, uri, _, _, hid url hu, hn, rfl, .inr (.inr ⟨page, loc, o2, rfl, k1, k2, k3, k4, .inl rfl⟩)⟩
    · exact ⟨url, uri, _, _, hid url hu, hn, rfl, .inr (.inr ⟨page, loc, o2, rfl, k1, k2, k3, k4, .inr ⟨o3, rfl⟩⟩)⟩

/-- The URL asked for and the claimed identifier are http or https URLs without a fragment. -/
theorem c56_http (W : World) (id : Str) (gets : List Get) (r : Except PyErr (Str × List Endpoint))
    (h : Gets (discoverURI W id) gets r) :
    (∀ g rest, gets = g :: rest →
      (startsWith g.url t!"http://" = true ∨ startsWith g.url t!"https://" = true) ∧ '#' ∉ g.url) ∧
    (∀ claimed services, r = .ok (claimed, services) →
      (startsWith claimed t!"http://" = true ∨ startsWith claimed t!"https://" = true) ∧ '#' ∉ claimed) := by
  refine ⟨?_, ?_⟩
  · rintro g rest rfl
    rcases c56_requests W id _ r h with ⟨h, -⟩ | ⟨url, uri, o, rest', -, hn, hg, -⟩
    · simp at h
    · simp only [List.cons.injEq] at hg
      rw [hg.1]
      exact normalizeURL_http hn
  · rintro claimed services rfl
    obtain ⟨_, _, _, _, -, -, -, -, -, hn, -⟩ := c55_claimed W id gets claimed services h
    exact normalizeURL_http hn

/-- An identifier with another scheme is refused, and nothing is asked for. -/
theorem c56_scheme (W : World) (id : Str) (p : Url.Parsed) (hp : Url.urlparse W.uni id = .ok p) (hs : p.scheme ≠ [])
    (hn : p.netloc ≠ []) (h1 : p.scheme ≠ t!"http") (h2 : p.scheme ≠ t!"https") (gets : List Get)
    (r : Except PyErr (Str × List Endpoint)) (h : Gets (discoverURI W id) gets r) :
    gets = [] ∧ r = .error .discoveryFailure := by
  have : identifierURL W.uni id = .error .discoveryFailure := by
    rw [identifierURL, hp]
    simp only [ok_bind]
    rw [if_pos ⟨hs, hn⟩, if_neg (by simp [h1, h2])]
    rfl
  rcases gets_discoverURI h with ⟨e, h1, h2, h3⟩ | ⟨url, uri, h1, -⟩
  · rw [this] at h2
    rcases h2 with h2 | ⟨_, h2, -⟩
    · simp only [Except.error.injEq] at h2; exact ⟨h1, by rw [h3, h2]⟩
    · simp at h2
  · rw [this] at h1; simp at h1

theorem isYadisType_iff (U : Url.Uni) (header : Option Str) :
    isYadisType U header = true ↔ HasMediaType (Url.lower U) header t!"application/xrds+xml" := by
  rw [isYadisType.eq_def, HasMediaType]
  cases header with
  | none => simp
  | some t =>
    simp only [Bool.and_eq_true, decide_eq_true_eq]
    constructor
    · rintro ⟨-, h⟩
      cases hc : cut ';' t with
      | none =>
        have hm := (cut_eq_none_iff ..).1 hc
        rw [splitOn_not_mem _ _ hm] at h
        exact ⟨t, [], by simp, hm, .inl rfl, h⟩
      | some q =>
        obtain ⟨a, b⟩ := q
        obtain ⟨rfl, hm⟩ := (cut_eq_some_iff ..).1 hc
        rw [splitOn_append _ _ _ hm] at h
        exact ⟨a, ';' :: b, rfl, hm, .inr rfl, h⟩
    · rintro ⟨a, rest, h1, hm, h2, h3⟩
      simp only [Option.some.injEq] at h1
      subst h1
      have ha : a ≠ [] := by rintro rfl; simp [Url.lower, isAscii] at h3
      refine ⟨by simp [ha], ?_⟩
      rcases h2 with rfl | h2
      · rw [List.append_nil, splitOn_not_mem _ _ hm]; exact h3
      · cases rest with
        | nil => simp at h2
        | cons c b =>
          simp only [List.head?_cons, Option.some.injEq] at h2
          subst h2
          rw [splitOn_append _ _ _ hm]; exact h3

theorem findHTMLMeta_iff (U : Url.Uni) (root : Option Elem) (loc : Str) :
    findHTMLMeta U root = some loc ↔ ∃ r, root = some r ∧ NamesLocation (Url.lower U) r loc := by
  cases root with
  | none => simp [findHTMLMeta]
  | some root =>
    have hh : ∀ tag, inHead tag root = headElems root tag := fun _ => rfl
    rw [findHTMLMeta]
    constructor
    · intro h
      split at h
      · next m hm =>
        obtain ⟨h1, pre, post, h2, h3⟩ := List.find?_eq_some_iff_append.1 hm
        refine ⟨root, rfl, pre, m, post, h2, ?_, ?_, h⟩
        · intro x hx h' hxh e
          have := h3 x hx
          simp [hxh, e, yadisHeader] at this
        · rw [decide_eq_true_eq] at h1
          obtain ⟨h', k1, k2⟩ := Option.map_eq_some_iff.1 h1
          exact ⟨h', k1, k2⟩
      · simp at h
    · rintro ⟨r, h0, pre, m, post, h1, h2, ⟨h', k1, k2⟩, h3⟩
      simp only [Option.some.injEq] at h0
      subst h0
      have : (inHead t!"meta" root).find? (fun m => ((m.get t!"http-equiv").map (Url.lower U)) = some yadisHeader) = some m := by
        rw [List.find?_eq_some_iff_append]
        refine ⟨by simp [k1, k2, yadisHeader], pre, post, h1, ?_⟩
        intro x hx
        cases hxh : x.get t!"http-equiv" with
        | none => simp
        | some y => simpa [yadisHeader] using h2 x hx y hxh
      rw [this]
      exact h3

open scoped Classical in
/-- Where the XRDS document of a page is: at the page, if that is of the media type of XRDS; else at the place its
    `X-XRDS-Location` header says; else at the place a `meta` element in the page says, read with the charset of the page
    or, if the page is not of that charset, as it is. -/
theorem c56_location (W : World) (p : Page) (loc : Str) :
    whereIsYadis W p = .ok (some loc) ↔
    if HasMediaType (Url.lower W.uni) (p.headers.get? t!"content-type") t!"application/xrds+xml" then loc = p.finalUrl
    else if ∃ l, p.headers.get? t!"x-xrds-location" = some l ∧ l ≠ [] then p.headers.get? t!"x-xrds-location" = some loc
    else
      (∃ text root, W.decodeBody (encodingOf ((p.headers.get? t!"content-type").getD [])) p.body = .ok text ∧
        W.htmlText text = some root ∧ NamesLocation (Url.lower W.uni) root loc) ∨
      (∃ root, W.decodeBody (encodingOf ((p.headers.get? t!"content-type").getD [])) p.body = .error .unicodeError ∧
        W.htmlBytes p.body = some root ∧ NamesLocation (Url.lower W.uni) root loc) := by
  rw [whereIsYadis]
  by_cases hy : isYadisType W.uni (p.headers.get? t!"content-type") = true
  · rw [if_pos hy, if_pos ((isYadisType_iff ..).1 hy)]
    simp only [Except.ok.injEq, Option.some.injEq]
    exact eq_comm
  · rw [if_neg hy, if_neg (fun h => hy ((isYadisType_iff ..).2 h))]
    by_cases hl : ∃ l, p.headers.get? t!"x-xrds-location" = some l ∧ l ≠ []
    · rw [if_pos hl]
      obtain ⟨l, h1, h2⟩ := hl
      have h1' : p.headers.get? yadisHeader = some l := h1
      rw [h1, h1']
      cases l with
      | nil => exact absurd rfl h2
      | cons c cs => simp
    · rw [if_neg hl]
      suffices hh : metaLocation W ((p.headers.get? t!"content-type").getD []) p.body = .ok (some loc) ↔ _ by
        split
        · next c cs h => exact absurd ⟨_, h, by simp⟩ hl
        · exact hh
      rw [metaLocation]
      cases hd : W.decodeBody (encodingOf ((p.headers.get? t!"content-type").getD [])) p.body with
      | ok text =>
        simp only [Except.ok.injEq, findHTMLMeta_iff]
        constructor
        · rintro ⟨r, h1, h2⟩; exact .inl ⟨text, r, rfl, h1, h2⟩
        · rintro (⟨t, r, h0, h1, h2⟩ | ⟨r, h0, -⟩)
          · subst h0; exact ⟨r, h1, h2⟩
          · simp at h0
      | error e =>
        by_cases he : e = .unicodeError
        · subst he
          simp only [Except.ok.injEq, findHTMLMeta_iff]
          constructor
          · rintro ⟨r, h1, h2⟩; exact .inr ⟨r, trivial, h1, h2⟩
          · rintro (⟨t, r, h0, -⟩ | ⟨r, -, h1, h2⟩)
            · simp at h0
            · exact ⟨r, h1, h2⟩
        · split
          · next h => simp at h
          · next h => simp only [Except.error.injEq] at h; exact absurd h he
          · simp [he]

/-- The charset is UTF-8 unless the last parameter of the media type says another. -/
theorem c56_charset (type : Str) :
    (';' ∉ type → encodingOf type = t!"UTF-8") ∧
    (∀ a sp v, type = a ++ t!";" ++ sp ++ t!"charset=" ++ v → (∀ c ∈ sp, c = ' ') → ';' ∉ v →
      encodingOf type = strip v) := by
  refine ⟨?_, ?_⟩
  · intro h
    rw [encodingOf, (rcut_eq_none_iff ..).2 h]
  · rintro a sp v rfl hsp hv
    have hl : ';' ∉ sp ++ t!"charset=" ++ v := by
      simp only [List.mem_append, not_or]
      exact ⟨⟨fun h => absurd (hsp _ h) (by decide), by decide⟩, hv⟩
    have e : a ++ t!";" ++ sp ++ t!"charset=" ++ v = a ++ ';' :: (sp ++ t!"charset=" ++ v) := by simp
    rw [encodingOf, e, rcut_append _ _ _ hl]
    have e2 : sp ++ t!"charset=" ++ v = (sp ++ t!"charset") ++ '=' :: v := by simp
    have hc : '=' ∉ sp ++ t!"charset" := by
      simp only [List.mem_append, not_or]
      exact ⟨fun h => absurd (hsp _ h) (by decide), by decide⟩
    simp only
    rw [e2, cut_append _ _ _ hc]
    simp only
    rw [if_pos]
    have hls : lstrip (sp ++ (t!"charset" ++ '=' :: v)) = t!"charset" ++ '=' :: v := by
      clear e e2 hl hc
      induction sp with
      | nil => rfl
      | cons c cs ih =>
        have := hsp c (by simp)
        subst this
        exact ih fun d hd => hsp d (by simp [hd])
    have hrs : ∀ w : Str, rstrip ('=' :: w) = '=' :: rstrip w := by
      intro w
      rw [rstrip]
      cases rstrip w with
      | nil => rfl
      | cons d r => rfl
    have hrs2 : ∀ (l w w' : Str), rstrip w = w' → w' ≠ [] → rstrip (l ++ w) = l ++ w' := by
      intro l w w' h1 h2
      induction l with
      | nil => exact h1
      | cons d l ih =>
        rw [List.cons_append, rstrip, ih]
        cases hx : l ++ w' with
        | nil => simp at hx; exact absurd hx.2 h2
        | cons e r => rw [List.cons_append, hx]
    rw [strip, List.append_assoc, hls, hrs2 _ _ _ (hrs v) (by simp)]
    exact (startsWith_iff ..).2 ⟨rstrip v, rfl⟩

/-! ## Examples -/

def elem0 (tag : Str) (text : Option Str) : Elem := .mk tag [] text []

def service0 (types : List Str) (more : List Elem) : Elem :=
  .mk Etxrd.serviceTag [] none (types.map (fun t => elem0 Etxrd.typeTag (some t)) ++ more)

def document0 (services : List Elem) : Elem := .mk Etxrd.rootTag [] none [.mk Etxrd.xrdElemTag [] none services]

def html0 (head : List Elem) : Elem := .mk t!"html" [] none [.mk t!"head" [] none head]

def link0 (rel href : Str) : Elem := .mk t!"link" [(t!"rel", rel), (t!"href", href)] none []

/-- documents are told apart by their first byte -/
def disco0 : World where
  uni := uni0
  digits := fun _ => none
  xml := fun b =>
    if b = [1] then some (document0 [service0 [t!"http://other/"] [elem0 Etxrd.uriTag (some t!"http://x/")],
      service0 [OPENID_2_0_TYPE, OPENID_1_1_TYPE] [elem0 Etxrd.uriTag (some t!"http://op/"), elem0 localIDTag (some t!"http://me/")],
      service0 [OPENID_IDP_2_0_TYPE] [elem0 Etxrd.uriTag (some t!"http://op/any")]])
    else if b = [4] then some (document0 [service0 [t!"http://other/"] [elem0 Etxrd.uriTag (some t!"http://x/")]])
    else none
  html := fun b =>
    if b = [2] then some (html0 [link0 t!"stylesheet" t!"http://css/", link0 t!"x openid2.provider\nopenid.server" t!"http://op/",
      link0 t!"openid.delegate" t!"http://me/", link0 t!"openid.server" t!"http://later/"]) else none
  htmlText := fun _ => some (html0 [.mk t!"meta" [(t!"http-equiv", t!"X-XRDS-Location"), (t!"content", t!"http://xrds/")] none []])
  htmlBytes := fun _ => none
  decode := fun _ _ => .error .lookupError
  shuffle := fun _ l => l.reverse
  shuffleURIs := fun _ l => l.reverse

def found1 : Endpoint := ⟨none, t!"http://op/any", [OPENID_IDP_2_0_TYPE], none, none, true, none⟩
def found2 : Endpoint :=
  ⟨some t!"http://b.com/final#x", t!"http://op/", [OPENID_2_0_TYPE, OPENID_1_1_TYPE], some t!"http://me/", none, true, none⟩

/-- a page that is redirected and names its XRDS document in a header -/
def net0 (u : Str) (_ : Option Str) : Except PyErr Page :=
  if u = t!"http://a.com/" then .ok ⟨t!"http://b.com/final#x", 200, [(t!"x-xrds-location", t!"http://xrds/")], [3]⟩
  else if u = t!"http://xrds/" then .ok ⟨t!"http://xrds/", 206, [], [1]⟩
  else .error .fetchingError

example : (answer net0 (discoverURI disco0 t!"A.com")).1.map (fun g => (g.url, g.accept)) =
      [(t!"http://a.com/", some t!"text/html; q=0.3, application/xhtml+xml; q=0.5, application/xrds+xml"),
       (t!"http://xrds/", none)] ∧
    (answer net0 (discoverURI disco0 t!"A.com")).2 = .ok (t!"http://b.com/final", [found1, found2]) := by
  decide +kernel

/-- a page whose XRDS document, named in a meta element, is of no use -/
def net1 (u : Str) (a : Option Str) : Except PyErr Page :=
  if u = t!"http://a.com/" then .ok ⟨t!"http://a.com/", 200, [], if a = none then [2] else [3]⟩
  else if u = t!"http://xrds/" then .ok ⟨t!"http://xrds/", 200, [], [4]⟩
  else .error .fetchingError

example : (answer net1 (discoverURI disco0 t!"http://a.com/#me")).1.map (·.url) =
      [t!"http://a.com/", t!"http://xrds/", t!"http://a.com/"] ∧
    (answer net1 (discoverURI disco0 t!"http://a.com/#me")).2 = .ok (t!"http://a.com/",
      [⟨some t!"http://a.com/", t!"http://op/", [OPENID_2_0_TYPE], none, none, false, none⟩,
       ⟨some t!"http://a.com/", t!"http://op/", [OPENID_1_1_TYPE], some t!"http://me/", none, false, none⟩]) := by
  decide +kernel

-- another scheme
example : (Url.urlparse disco0.uni t!"ftp://a.com/").toOption.map (·.scheme) = some t!"ftp" ∧
    (answer net0 (discoverURI disco0 t!"ftp://a.com/")).2 = .error .discoveryFailure := by decide +kernel

-- where the document is: the page itself, the header, the page
example : whereIsYadis disco0 ⟨t!"http://a/", 200, [(t!"content-type", t!"Application/XRDS+xml;charset=x")], [1]⟩ =
      .ok (some t!"http://a/") ∧
    whereIsYadis disco0 ⟨t!"http://a/", 200, [(t!"x-xrds-location", t!"http://b/")], [1]⟩ = .ok (some t!"http://b/") ∧
    whereIsYadis disco0 ⟨t!"http://a/", 200, [(t!"x-xrds-location", t!"")], [1]⟩ = .ok (some t!"http://xrds/") ∧
    encodingOf t!"text/html; charset= Latin-1" = t!"Latin-1" := by decide +kernel

/-! ## What the code does besides -/

/-- An endpoint keeps the address of the page as it is, with its fragment, though the identifier returned beside it is
    normalised. -/
theorem c55_not_normalised : ∃ gets claimed services e, Gets (discoverURI disco0 t!"A.com") gets (.ok (claimed, services)) ∧
    e ∈ services ∧ e.claimedId = some t!"http://b.com/final#x" ∧ claimed = t!"http://b.com/final" := by
  have h : (answer net0 (discoverURI disco0 t!"A.com")).2 = .ok (t!"http://b.com/final", [found1, found2]) := by decide +kernel
  obtain ⟨gets, hg⟩ := gets_of_answer h
  exact ⟨gets, _, _, found2, hg, by simp, rfl, rfl⟩

/-- An XRDS document without a useful service whose media type has a parameter is not recognised as one: it is read as HTML
    instead of the page being fetched without the header that asks for XRDS. -/
theorem c56_media_type_parameter (url : Str) (body : Bytes) :
    (Result.mk url (some url) (some t!"application/xrds+xml") body).isXRDS = true ∧
    (Result.mk url (some url) (some t!"application/xrds+xml; charset=utf-8") body).isXRDS = false := by
  have h : ∀ ct, (Result.mk url (some url) ct body).usedYadisLocation = false := by
    intro ct; simp [Result.usedYadisLocation]
  exact ⟨by simp [Result.isXRDS, yadisContentType], by rw [Result.isXRDS, h]; simp; decide⟩

/-- A `meta` element with an empty content makes the page count as an XRDS document, fetched again without the header. -/
theorem c56_empty_location (url : Str) (h : url ≠ []) (body : Bytes) (ct : Option Str) :
    (Result.mk url (some []) ct body).isXRDS = true := by
  simp [Result.isXRDS, Result.usedYadisLocation, h]

end Props
