import Verif.Props.Filters
import Verif.Props.DiscoverXri
import Verif.Props.TrustRoot
/-! # C71: a provider verifies a return URL over the web -/

namespace Props
open Py Xml Discover Filters Spec

theorem gets_fetched {W : World} {url : Str} {gets : List Get} {y : Result} (h0 : Gets (yadisDiscover W url) gets (.ok y)) :
    ∃ page, Fetched W gets url page y.body ∧ y.normalizedUri = page.finalUrl := by
  rcases gets_yadisDiscover h0 with ⟨o, e, -, h, -⟩ | ⟨p, loc, hp, hw, ⟨hl, rfl, h⟩ | ⟨l, o, hl, rfl, h⟩⟩ <;> clear h0
  · simp at h
  · simp only [Except.ok.injEq] at h
    subst h
    refine ⟨p, ⟨_, _, rfl, rfl, rfl, hp, .inl ⟨rfl, rfl, ?_⟩⟩, rfl⟩
    cases loc with
    | none => exact .inl hw
    | some l =>
      by_cases h0 : l = []
      · subst h0; exact .inr (.inl hw)
      · by_cases h1 : l = p.finalUrl
        · subst h1; exact .inr (.inr hw)
        · exact absurd ⟨rfl, h0, h1⟩ (hl l)
  · rcases h with ⟨e, -, h⟩ | ⟨q, -, -, h⟩ | ⟨q, rfl, hq, h⟩
    · simp at h
    · simp at h
    · simp only [Except.ok.injEq] at h
      subst h
      exact ⟨p, ⟨_, _, rfl, rfl, rfl, hp, .inr ⟨_, q, rfl, rfl, by rw [hw, hl.1], hl.2.2, hq, rfl⟩⟩, rfl⟩

/-- the page and the document are determined by the requests -/
theorem fetched_unique {W : World} {gets : List Get} {url url' : Str} {page page' : Page} {doc doc' : Bytes}
    (h : Fetched W gets url page doc) (h' : Fetched W gets url' page' doc') : page = page' ∧ doc = doc' := by
  obtain ⟨g, rest, rfl, -, -, hg, h⟩ := h
  obtain ⟨g', rest', he, -, -, hg', h'⟩ := h'
  obtain ⟨rfl, rfl⟩ := List.cons.inj he
  have hp : page = page' := by
    have := hg.1.symm.trans hg'.1
    simpa using this
  subst hp
  refine ⟨rfl, ?_⟩
  rcases h with ⟨rfl, rfl, -⟩ | ⟨g2, p2, rfl, -, -, -, h2, rfl⟩
  · rcases h' with ⟨-, rfl, -⟩ | ⟨g3, p3, h, -⟩
    · rfl
    · simp at h
  · rcases h' with ⟨h, -⟩ | ⟨g3, p3, h, -, -, -, h3, rfl⟩
    · simp at h
    · simp only [List.cons.injEq, and_true] at h
      subst h
      have := h2.1.symm.trans h3.1
      simp only [Except.ok.injEq] at this
      rw [this]

theorem stages_returnURLs : stages (.list [returnURLs]) = [.first [fun b => .ok (TrustRoot.extractReturnURL ⟨b.types, b.uri⟩)]] := by
  simp [returnURLs, stages, stagesIn, functionOf]

theorem firstOf_one {α : Type} {f : Transform α} {b : Basic} {r : Option α} : FirstOf [f] b r ↔ f b = .ok r := by
  constructor
  · rintro (⟨rfl, h⟩ | ⟨pre, g, post, e, rfl, h, -, h2⟩)
    · exact h f (by simp)
    · cases pre with
      | nil => rw [(List.cons.inj h).1]; exact h2
      | cons a pre => simp at h
  · intro h
    cases r with
    | none => exact .inl ⟨rfl, by simpa using h⟩
    | some e => exact .inr ⟨[], f, [], e, rfl, rfl, by simp, h⟩

/-- the URLs found are those the document publishes -/
theorem mem_returnURLs {W : World} (hs : ∀ i l, (W.shuffle i l).Perm l) (hu : ∀ i l, (W.shuffleURIs i l).Perm l) {url : Str}
    {body : Bytes} {urls : List Str} (h : applyFilter W returnURLs url body = .ok urls) (a : Str) :
    a ∈ urls ↔ Publishes W body a := by
  obtain ⟨-, root, services, h1, h2, out, h3, -, groups, rfl, h5⟩ := c70_services W hs _ url body urls h
  have hgroup : ∀ s g, (∃ i, runStages (fun c => c url s) (fun j fs => transformEndpoints W.digits (W.shuffleURIs j) fs url s) i
      (stages (.list [returnURLs])) = .ok g) → ∀ a : Str, (a ∈ g ↔
        t!"http://specs.openid.net/auth/2.0/return_to" ∈ typesOf s ∧ ∃ u ∈ uriElems s, u.text = some a) := by
    rintro s g ⟨i, hi⟩ a
    rw [stages_returnURLs, runStages, runStages] at hi
    obtain ⟨x, hx, hi2⟩ := bind_eq_ok.1 hi
    simp only [ok_bind, pure_eq_ok, List.append_nil, Except.ok.injEq] at hi2
    subst hi2
    obtain ⟨us, rs, ⟨elems, e1, -, rfl⟩, j2, rfl⟩ := c70_functions _ _ (hu i) _ _ _ _ hx
    have j2 := j2.imp (fun u r hr => firstOf_one.1 hr)
    constructor
    · intro ha
      obtain ⟨r, hr, hra⟩ := List.mem_filterMap.1 ha
      simp only [id_eq] at hra
      subst hra
      obtain ⟨u, hu, hur⟩ := j2.mem_right hr
      simp only [Except.ok.injEq, TrustRoot.extractReturnURL] at hur
      split at hur
      · next ht =>
        refine ⟨ht, ?_⟩
        split at hu
        · simp at hu; rw [hu] at hur; simp at hur
        · obtain ⟨el, hel, rfl⟩ := List.mem_map.1 hu
          exact ⟨el, e1.mem_iff.1 hel, hur⟩
      · simp at hur
    · rintro ⟨ht, el, hel, hta⟩
      have hel := e1.mem_iff.2 hel
      have hmem : some a ∈ (if elems = [] then [none] else elems.map (·.text)) := by
        rw [if_neg (by rintro rfl; simp at hel)]
        exact List.mem_map.2 ⟨el, hel, hta⟩
      obtain ⟨r, hr, hur⟩ := j2.mem_left hmem
      simp only [Except.ok.injEq, TrustRoot.extractReturnURL] at hur
      rw [if_pos (by exact ht)] at hur
      subst hur
      exact List.mem_filterMap.2 ⟨_, hr, rfl⟩
  constructor
  · intro ha
    obtain ⟨g, hg, hag⟩ := List.mem_flatten.1 ha
    obtain ⟨s, hso, hi⟩ := h5.mem_right hg
    obtain ⟨k1, k2⟩ := (hgroup s g hi a).1 hag
    exact ⟨root, services, h1, h2, s, h3.mem_iff.1 hso, k1, k2⟩
  · rintro ⟨root', services', k1, ⟨-, xrd, k2, rfl⟩, s, k3, k4, k5⟩
    rw [h1] at k1
    simp only [Option.some.injEq] at k1
    subst k1
    obtain ⟨-, xrd', m1, rfl⟩ := h2
    rw [m1] at k2
    simp only [Option.some.injEq] at k2
    subst k2
    obtain ⟨g, hg, hi⟩ := h5.mem_left (h3.mem_iff.2 k3)
    exact List.mem_flatten.2 ⟨g, hg, (hgroup s g hi a).2 ⟨k4, k5⟩⟩

theorem noDocument_ok {α : Type} {r : Except PyErr α} {a : α} : noDocument r = .ok a ↔ r = .ok a := by
  rw [noDocument.eq_def]
  split <;> simp

theorem gets_getAllowed {W : World} {url : Str} {gets : List Get} {r : Except PyErr (List Str)}
    (h : Gets (Filters.getAllowedReturnURLs W url) gets r) :
    (∃ e, Gets (yadisDiscover W url) gets (.error e) ∧ r = .error e) ∨
    ∃ y, Gets (yadisDiscover W url) gets (.ok y) ∧
      ((∃ e, noDocument (applyFilter W returnURLs y.normalizedUri y.body) = .error e ∧ r = .error e) ∨
       ∃ urls, applyFilter W returnURLs y.normalizedUri y.body = .ok urls ∧
        ((∃ e, (Urinorm.urinorm W.uni y.normalizedUri = .error e ∨ Urinorm.urinorm W.uni url = .error e) ∧ r = .error e) ∨
         ∃ a b, Urinorm.urinorm W.uni y.normalizedUri = .ok a ∧ Urinorm.urinorm W.uni url = .ok b ∧
           ((a ≠ b ∧ r = .error .realmRedirected) ∨ (a = b ∧ r = .ok urls)))) := by
  rw [Filters.getAllowedReturnURLs, gets_bind] at h
  rcases h with ⟨e, h, rfl⟩ | ⟨g1, g2, ⟨after, urls⟩, rfl, h1, h⟩
  · rw [Filters.getServiceEndpoints, gets_bind] at h
    rcases h with ⟨e', h, h'⟩ | ⟨g1, g2, y, rfl, h1, h⟩
    · simp only [Except.error.injEq] at h'
      subst h'
      exact .inl ⟨e, h, rfl⟩
    · rw [gets_ofPy_bind] at h
      rcases h with ⟨e', rfl, h, h'⟩ | ⟨es, -, h⟩
      · simp only [Except.error.injEq] at h'
        subst h'
        rw [List.append_nil]
        exact .inr ⟨y, h1, .inl ⟨e, h, rfl⟩⟩
      · rw [gets_pure] at h; simp at h
  · rw [Filters.getServiceEndpoints, gets_bind] at h1
    rcases h1 with ⟨e', -, h1⟩ | ⟨g3, g4, y, rfl, h2, h1⟩
    · simp at h1
    · rw [gets_ofPy_bind] at h1
      rcases h1 with ⟨e', -, -, h1⟩ | ⟨es, h3, h1⟩
      · simp at h1
      · rw [gets_pure] at h1
        obtain ⟨rfl, h1⟩ := h1
        simp only [Except.ok.injEq, Prod.mk.injEq] at h1
        obtain ⟨rfl, rfl⟩ := h1
        rw [noDocument_ok] at h3
        rw [List.append_nil]
        simp only at h
        rw [gets_ofPy_bind] at h
        rcases h with ⟨e, rfl, h, rfl⟩ | ⟨a, ha, h⟩
        · rw [List.append_nil]
          exact .inr ⟨y, h2, .inr ⟨urls, h3, .inl ⟨e, .inl h, rfl⟩⟩⟩
        · rw [gets_ofPy_bind] at h
          rcases h with ⟨e, rfl, h, rfl⟩ | ⟨b, hb, h⟩
          · rw [List.append_nil]
            exact .inr ⟨y, h2, .inr ⟨urls, h3, .inl ⟨e, .inr h, rfl⟩⟩⟩
          · split at h
            · next hab =>
              rw [gets_done] at h
              obtain ⟨rfl, rfl⟩ := h
              rw [List.append_nil]
              exact .inr ⟨y, h2, .inr ⟨urls, h3, .inr ⟨a, b, ha, hb, .inl ⟨hab, rfl⟩⟩⟩⟩
            · next hab =>
              rw [gets_pure] at h
              obtain ⟨rfl, rfl⟩ := h
              rw [List.append_nil]
              exact .inr ⟨y, h2, .inr ⟨urls, h3, .inr ⟨a, b, ha, hb, .inr ⟨Classical.not_not.1 hab, rfl⟩⟩⟩⟩

/-- no document was fetched if discovery failed -/
theorem not_fetched {W : World} {url url' : Str} {gets : List Get} {e : PyErr} (h0 : Gets (yadisDiscover W url) gets (.error e))
    {page : Page} {doc : Bytes} : ¬ Fetched W gets url' page doc := by
  rintro ⟨g, rest, hg, -, -, hgot, hf⟩
  rcases gets_yadisDiscover h0 with ⟨o, e', rfl, -, ho⟩ | ⟨p, loc, hp, hw, ⟨-, -, h⟩ | ⟨l, o, hl, rfl, h⟩⟩ <;> clear h0
  · obtain ⟨rfl, rfl⟩ := List.cons.inj hg
    rcases ho with rfl | ⟨p, rfl, ⟨hp, -⟩ | ⟨-, hw⟩⟩
    · exact nomatch hgot.1
    · obtain ⟨k1, k2⟩ := hgot
      simp only [Except.ok.injEq] at k1
      subst k1
      exact hp ((Page.ok_iff p).2 k2)
    · have k1 := hgot.1
      simp only [Except.ok.injEq] at k1
      subst k1
      rcases hf with ⟨-, -, h | h | h⟩ | ⟨g2, p2, h, -⟩
      · rw [hw] at h; simp at h
      · rw [hw] at h; simp at h
      · rw [hw] at h; simp at h
      · simp at h
  · simp at h
  · obtain ⟨rfl, rfl⟩ := List.cons.inj hg
    rcases hf with ⟨hf, -⟩ | ⟨g2, p2, hf, -, -, -, hg2, -⟩
    · simp at hf
    · simp only [List.cons.injEq, and_true] at hf
      subst hf
      obtain ⟨k1, k2⟩ := hg2
      simp only at k1
      subst k1
      rcases h with ⟨e', h, -⟩ | ⟨q, h, hq, -⟩ | ⟨q, -, -, h⟩
      · simp at h
      · simp only [Except.ok.injEq] at h
        subst h
        exact hq ((Page.ok_iff p2).2 k2)
      · simp at h

/-- reading the URLs of a document fails because it is none, or because of an empty type -/
theorem returnURLs_error {W : World} (hs : ∀ i l, (W.shuffle i l).Perm l) (hu : ∀ i l, (W.shuffleURIs i l).Perm l) {url : Str}
    {body : Bytes} {e : PyErr} (h : noDocument (applyFilter W returnURLs url body) = .error e) :
    (e = .discoveryFailure ∧ ∀ root, W.xml body = some root → ∀ services, ¬ ServicesOf root services) ∨
    (e = .attributeError ∧ ∃ root services, W.xml body = some root ∧ ServicesOf root services ∧ ∃ s ∈ services,
      ∃ t ∈ s.children, t.tag = t!"{xri://$xrd*($v*2.0)}Type" ∧ t.text = none) := by
  cases ha : applyFilter W returnURLs url body with
  | ok l => rw [ha] at h; simp [noDocument] at h
  | error e' =>
    rw [ha] at h
    rcases c70_errors W hs _ _ _ _ ha with ⟨-, hx⟩ | ⟨rfl, hx⟩ | ⟨root, services, h1, h2, s, h3, i, h4⟩
    · cases hx
    · simp only [noDocument, Except.error.injEq] at h
      exact .inl ⟨h.symm, hx⟩
    · rw [stages_returnURLs, runStages, runStages] at h4
      rcases bind_eq_error.1 h4 with h5 | ⟨x, -, h5⟩
      · rcases c70_raised _ _ (hu i) _ _ _ _ h5 with ⟨rfl, t, ht⟩ | ⟨us, -, u, -, f, hf, h6⟩
        · simp only [noDocument, Except.error.injEq] at h
          exact .inr ⟨h.symm, root, services, h1, h2, s, h3, t, ht⟩
        · simp only [List.mem_singleton] at hf
          rw [hf] at h6
          simp at h6
      · simp at h5

/-- what `verifyReturnTo` does, in all cases -/
theorem gets_verifyReturnTo {W : World} {realm returnTo : Str} {gets : List Get} {r : Except PyErr Bool}
    (h : Gets (Filters.verifyReturnTo W realm returnTo) gets r) :
    (gets = [] ∧ r = .ok false ∧ ∀ L, locate W.uni realm = some L → ¬ IsRealm L) ∨
    (∃ e, gets = [] ∧ r = .error e ∧ (∃ n, Urinorm.urinorm W.uni realm = .ok n) ∧ locate W.uni realm = none ∧
      (e = .valueError ∨ e = .attributeError)) ∨
    ∃ L, locate W.uni realm = some L ∧ IsRealm L ∧
      ((gets = [] ∧ L.host = ['*'] ∧ r = .error .assertionError) ∨
       ∃ o, L.host ≠ ['*'] ∧ Gets (Filters.getAllowedReturnURLs W (discoveryURL realm L)) gets o ∧
         r = TrustRoot.decideReturnTo W.uni returnTo o) := by
  unfold Filters.verifyReturnTo at h
  rcases TrustRoot.parse_cases W.uni realm with ⟨h0, h1⟩ | ⟨e, h0, h1, h2, h3⟩ | ⟨L, q, w, h', h1, h2, h3, h4, h5⟩
  · rw [h0] at h
    obtain ⟨rfl, rfl⟩ := gets_done.1 h
    refine .inl ⟨rfl, rfl, fun L hL hr => ?_⟩
    rcases h1 with ⟨-, h1⟩ | ⟨L', h1, h2⟩ | ⟨-, h1⟩
    · rw [hL] at h1; cases h1
    · rw [hL] at h1; cases h1; exact h2 hr
    · rw [hL] at h1; cases h1
  · rw [h0] at h
    obtain ⟨rfl, rfl⟩ := gets_done.1 h
    exact .inr (.inl ⟨e, rfl, rfl, h1, h2, h3⟩)
  · rw [h5] at h
    simp only at h
    refine .inr (.inr ⟨L, h1, h2, ?_⟩)
    rcases build_eq (realm := realm) h4 with ⟨e0, e1⟩ | ⟨e0, e1⟩
    · rw [e1] at h
      obtain ⟨rfl, rfl⟩ := gets_done.1 h
      exact .inl ⟨rfl, e0, rfl⟩
    · rw [e1] at h
      simp only at h
      rw [gets_handle] at h
      obtain ⟨g1, g2, o, rfl, k1, k2⟩ := h
      obtain ⟨rfl, rfl⟩ := gets_done.1 k2
      rw [List.append_nil]
      exact .inr ⟨o, e0, k1, rfl⟩

/-- If `verifyReturnTo` answers, the answer is True exactly if the string is a realm, the page at the realm's discovery URL was
    fetched without a redirect to another address, and the document found there publishes a URL without star that covers
    the return URL. -/
theorem c71_decides (W : World) (hs : ∀ i l, (W.shuffle i l).Perm l) (hu : ∀ i l, (W.shuffleURIs i l).Perm l)
    (realm returnTo : Str) (gets : List Get) (b : Bool) (h : Gets (Filters.verifyReturnTo W realm returnTo) gets (.ok b)) :
    b = true ↔ ∃ L page document norm, locate W.uni realm = some L ∧ IsRealm L ∧
      Fetched W gets (discoveryURL realm L) page document ∧
      Urinorm.urinorm W.uni page.finalUrl = .ok norm ∧ Urinorm.urinorm W.uni (discoveryURL realm L) = .ok norm ∧
      ∃ a, Publishes W document a ∧ Listed W.uni [a] returnTo := by
  rcases gets_verifyReturnTo h with ⟨-, h1, h2⟩ | ⟨e, -, h1, -⟩ | ⟨L, hL, hr, ⟨-, -, h1⟩ | ⟨o, -, h1, h2⟩⟩
  · simp only [Except.ok.injEq] at h1
    subst h1
    simp only [Bool.false_eq_true, false_iff]
    rintro ⟨L, -, -, -, k1, k2, -⟩
    exact h2 L k1 k2
  · simp at h1
  · simp at h1
  · rcases gets_getAllowed h1 with ⟨e, hy, rfl⟩ | ⟨y, hy, ⟨e, hd, rfl⟩ | ⟨urls, hd, ⟨e, hn, rfl⟩ | ⟨a, c, ha, hc, ⟨hne, rfl⟩ | ⟨rfl, rfl⟩⟩⟩⟩
    · -- an exception of discovery is not about redirects
      rw [TrustRoot.decideReturnTo] at h2
      split at h2
      · next he =>
        subst he
        simp only [Except.ok.injEq] at h2
        subst h2
        simp only [Bool.false_eq_true, false_iff]
        rintro ⟨L', page, doc, norm, k1, k2, k3, -⟩
        exact not_fetched hy k3
      · simp at h2
    · rcases returnURLs_error hs hu hd with ⟨rfl, -⟩ | ⟨rfl, -⟩ <;> simp [TrustRoot.decideReturnTo] at h2
    · have hv : e = .valueError := by rcases hn with hn | hn <;> exact c26_errors _ _ _ hn
      subst hv
      simp [TrustRoot.decideReturnTo] at h2
    · simp only [TrustRoot.decideReturnTo, if_true, Except.ok.injEq] at h2
      subst h2
      simp only [Bool.false_eq_true, false_iff]
      rintro ⟨L', page, doc, norm, k1, k2, k3, k4, k5, -⟩
      rw [hL] at k1
      cases k1
      obtain ⟨page', f1, f2⟩ := gets_fetched hy
      obtain ⟨rfl, -⟩ := fetched_unique f1 k3
      rw [f2, k4] at ha
      rw [k5] at hc
      simp only [Except.ok.injEq] at ha hc
      exact hne (ha.symm.trans hc)
    · simp only [TrustRoot.decideReturnTo] at h2
      obtain ⟨page', f1, f2⟩ := gets_fetched hy
      have hm := mem_returnURLs hs hu hd
      constructor
      · rintro rfl
        obtain ⟨x, hx, h6⟩ := c29_matches W.uni _ _ h2.symm
        exact ⟨L, page', y.body, a, hL, hr, f1, by rw [← f2]; exact ha, hc, x, (hm x).1 hx, x, by simp, h6⟩
      · rintro ⟨L', page, doc, norm, k1, k2, k3, k4, k5, x, k6, k7⟩
        obtain ⟨rfl, rfl⟩ := fetched_unique f1 k3
        cases b with
        | true => rfl
        | false =>
          refine absurd ?_ (c29_refuses W.uni _ _ h2.symm)
          obtain ⟨x', hx', h6⟩ := k7
          simp only [List.mem_singleton] at hx'
          subst hx'
          exact ⟨x', (hm x').2 k6, h6⟩

/-- At most two requests are made: the first is for the realm's discovery URL; none is made if the string is not a realm. -/
theorem c71_requests (W : World) (realm returnTo : Str) (gets : List Get) (r : Except PyErr Bool)
    (h : Gets (Filters.verifyReturnTo W realm returnTo) gets r) :
    gets = [] ∨ ∃ L, locate W.uni realm = some L ∧ IsRealm L ∧ ∃ o, (gets = [o] ∨ ∃ page g2, Got o page ∧ gets = [o, g2] ∧
        g2.accept = none ∧ whereIsYadis W page = .ok (some g2.url)) ∧
      o.url = discoveryURL realm L ∧ o.accept = some t!"text/html; q=0.3, application/xhtml+xml; q=0.5, application/xrds+xml" := by
  rcases gets_verifyReturnTo h with ⟨h1, -⟩ | ⟨e, h1, -⟩ | ⟨L, hL, hr, ⟨h1, -⟩ | ⟨o, -, h1, h2⟩⟩
  · exact .inl h1
  · exact .inl h1
  · exact .inl h1
  · refine .inr ⟨L, hL, hr, ?_⟩
    have hy : ∃ y, Gets (yadisDiscover W (discoveryURL realm L)) gets y := by
      rcases gets_getAllowed h1 with ⟨e, hy, -⟩ | ⟨y, hy, -⟩
      · exact ⟨_, hy⟩
      · exact ⟨_, hy⟩
    obtain ⟨y, hy⟩ := hy
    rcases gets_yadisDiscover hy with ⟨o, e', rfl, -, -⟩ | ⟨p, loc, hp, hw, ⟨-, rfl, -⟩ | ⟨l, o, hl, rfl, -⟩⟩
    · exact ⟨_, .inl rfl, rfl, rfl⟩
    · exact ⟨_, .inl rfl, rfl, rfl⟩
    · exact ⟨_, .inr ⟨p, _, hp, rfl, rfl, by rw [hw, hl.1]⟩, rfl, rfl⟩

theorem returnToMatches_error {U : Url.Uni} {returnTo : Str} {l : List Str} {e : PyErr}
    (h : TrustRoot.returnToMatches U returnTo l = .error e) :
    (e = .valueError ∨ e = .attributeError ∨ e = .typeError) ∧
    ∃ u, (u = returnTo ∨ u ∈ l) ∧ (∃ n, Urinorm.urinorm U u = .ok n) ∧ locate U u = none := by
  induction l with
  | nil => simp [TrustRoot.returnToMatches] at h
  | cons a rest ih =>
    rw [TrustRoot.returnToMatches] at h
    rcases bind_eq_error.1 h with h | ⟨b, -, h⟩
    · unfold TrustRoot.matchesOne at h
      rcases TrustRoot.parse_cases U a with ⟨h0, h1⟩ | ⟨e', h0, h1, h2, h3⟩ | ⟨L, q, w, h', h1, h2, h3, h4, h5⟩
      · rw [h0] at h; simp at h
      · rw [h0] at h
        simp only [Except.error.injEq] at h
        subst h
        exact ⟨h3.imp id .inl, a, by simp, h1, h2⟩
      · rw [h5] at h
        simp only at h
        split at h
        · simp at h
        · rcases TrustRoot.validate_cases (U := U) (realm := a) h3 h4 returnTo with ⟨b, k, -⟩ | ⟨e', k, k1, k2, k3⟩
          · rw [k] at h; simp at h
          · rw [k] at h
            simp only [Except.error.injEq] at h
            subst h
            exact ⟨k3.imp id .inr, returnTo, .inl rfl, k1, k2⟩
    · cases b with
      | true => simp at h
      | false =>
        obtain ⟨h1, u, h2, h3⟩ := ih h
        exact ⟨h1, u, h2.imp id (by simp; exact .inr), h3⟩

/-- What else can come of it: `DiscoveryFailure`; what a fetch raised; what decoding a page raised; `AttributeError` because
    of a service with an empty type; `AssertionError` for the realm of one star; `ValueError` because the address of the
    page cannot be normalised; and `ValueError`, `AttributeError` or `TypeError` because of a realm, a published URL or a
    return URL whose normal form has no host or no proper port. -/
theorem c71_raises (W : World) (hs : ∀ i l, (W.shuffle i l).Perm l) (hu : ∀ i l, (W.shuffleURIs i l).Perm l)
    (realm returnTo : Str) (gets : List Get) (e : PyErr) (h : Gets (Filters.verifyReturnTo W realm returnTo) gets (.error e)) :
    e = .discoveryFailure ∨ (∃ g ∈ gets, g.result = .error e) ∨
    (∃ g ∈ gets, ∃ page, Got g page ∧
      W.decodeBody (encodingOf ((page.headers.get? t!"content-type").getD [])) page.body = .error e) ∨
    (e = .attributeError ∧ ∃ url page document root services, Fetched W gets url page document ∧ W.xml document = some root ∧
      ServicesOf root services ∧ ∃ s ∈ services, ∃ t ∈ s.children, t.tag = t!"{xri://$xrd*($v*2.0)}Type" ∧ t.text = none) ∨
    (e = .assertionError ∧ ∃ L, locate W.uni realm = some L ∧ L.host = ['*']) ∨
    (e = .valueError ∧ ∃ L page document, locate W.uni realm = some L ∧ Fetched W gets (discoveryURL realm L) page document ∧
      (Urinorm.urinorm W.uni page.finalUrl = .error .valueError ∨
        Urinorm.urinorm W.uni (discoveryURL realm L) = .error .valueError)) ∨
    ((e = .valueError ∨ e = .attributeError ∨ e = .typeError) ∧
      ∃ u, (u = realm ∨ u = returnTo ∨ ∃ url page document, Fetched W gets url page document ∧ Publishes W document u) ∧
        (∃ n, Urinorm.urinorm W.uni u = .ok n) ∧ locate W.uni u = none) := by
  rcases gets_verifyReturnTo h with ⟨-, h1, -⟩ | ⟨e', -, h1, h2, h3, h4⟩ | ⟨L, hL, hr, ⟨-, h2, h1⟩ | ⟨o, hne, h1, h2⟩⟩
  · simp at h1
  · simp only [Except.error.injEq] at h1
    subst h1
    exact .inr (.inr (.inr (.inr (.inr (.inr ⟨h4.imp id .inl, realm, .inl rfl, h2, h3⟩)))))
  · simp only [Except.error.injEq] at h1
    exact .inr (.inr (.inr (.inr (.inl ⟨h1, L, hL, h2⟩))))
  · rcases gets_getAllowed h1 with ⟨e', hy, rfl⟩ | ⟨y, hy, ⟨e', hd, rfl⟩ | ⟨urls, hd, ⟨e', hn, rfl⟩ | ⟨a, c, ha, hc, ⟨hne, rfl⟩ | ⟨rfl, rfl⟩⟩⟩⟩
    · rw [TrustRoot.decideReturnTo] at h2
      split at h2
      · simp at h2
      · simp only [Except.error.injEq] at h2
        subst h2
        rcases gets_yadisDiscover hy with ⟨o, e', rfl, h3, h4⟩ | ⟨p, loc, hp, hw, ⟨-, -, h3⟩ | ⟨l, o, -, rfl, h3⟩⟩
        · simp only [Except.error.injEq] at h3
          subst h3
          rcases h4 with rfl | ⟨p, rfl, ⟨-, rfl⟩ | ⟨hp, hw⟩⟩
          · exact .inr (.inl ⟨_, List.mem_singleton.2 rfl, rfl⟩)
          · exact .inl rfl
          · obtain ⟨-, k2⟩ := whereIsYadis_error hw
            exact .inr (.inr (.inl ⟨_, List.mem_singleton.2 rfl, p, ⟨rfl, (Page.ok_iff p).1 hp⟩, k2⟩))
        · simp at h3
        · rcases h3 with ⟨e', rfl, h3⟩ | ⟨q, rfl, -, h3⟩ | ⟨q, -, -, h3⟩
          · simp only [Except.error.injEq] at h3
            subst h3
            exact .inr (.inl ⟨_, List.mem_cons_of_mem _ (List.mem_singleton.2 rfl), rfl⟩)
          · simp only [Except.error.injEq] at h3
            exact .inl h3
          · simp at h3
    · obtain ⟨page, f1, f2⟩ := gets_fetched hy
      rcases returnURLs_error hs hu hd with ⟨rfl, -⟩ | ⟨rfl, root, services, k1, k2, k3⟩
      · simp [TrustRoot.decideReturnTo] at h2; exact .inl h2
      · simp [TrustRoot.decideReturnTo] at h2
        exact .inr (.inr (.inr (.inl ⟨h2, _, page, _, root, services, f1, k1, k2, k3⟩)))
    · obtain ⟨page, f1, f2⟩ := gets_fetched hy
      have hv : e' = .valueError := by rcases hn with hn | hn <;> exact c26_errors _ _ _ hn
      subst hv
      simp [TrustRoot.decideReturnTo] at h2
      rw [f2] at hn
      exact .inr (.inr (.inr (.inr (.inr (.inl ⟨h2, L, page, _, hL, f1, hn⟩)))))
    · simp [TrustRoot.decideReturnTo] at h2
    · obtain ⟨page, f1, f2⟩ := gets_fetched hy
      simp only [TrustRoot.decideReturnTo] at h2
      obtain ⟨k1, u, k2, k3⟩ := returnToMatches_error h2.symm
      refine .inr (.inr (.inr (.inr (.inr (.inr ⟨k1, u, ?_, k3⟩)))))
      rcases k2 with k2 | k2
      · exact .inr (.inl k2)
      · exact .inr (.inr ⟨_, page, _, f1, (mem_returnURLs hs hu hd u).1 k2⟩)

/-! ## Examples -/

def realmDoc0 : Elem := document0 [service0 [t!"http://other"] [elem0 Etxrd.uriTag (some t!"http://evil.com/")],
  service0 [t!"http://x", t!"http://specs.openid.net/auth/2.0/return_to"] [elem0 Etxrd.uriTag (some t!"http://rp.example.com/return"),
    elem0 Etxrd.uriTag (some t!"http://*.bad.com/")]]

def realmWorld0 : World := { disco0 with
  xml := fun b => if b = [1] then some realmDoc0
    else if b = [8] then some (document0 [service0 [] [elem0 Etxrd.typeTag none]]) else none }

/-- a site whose page names the document, one that is the document, one that redirects, one with an empty type -/
def realmNet0 (u : Str) (_ : Option Str) : Except PyErr Page :=
  if u = t!"http://www.example.com/" then .ok ⟨t!"http://www.example.com", 200, [(t!"x-xrds-location", t!"http://xrds/")], [3]⟩
  else if u = t!"http://xrds/" then .ok ⟨t!"http://elsewhere/", 206, [], [1]⟩
  else if u = t!"http://plain.com/" then .ok ⟨t!"http://plain.com/", 200, [(t!"content-type", t!"application/xrds+xml")], [1]⟩
  else if u = t!"http://moved.com/" then .ok ⟨t!"http://plain.com/", 200, [(t!"content-type", t!"application/xrds+xml")], [1]⟩
  else if u = t!"http://empty.com/" then .ok ⟨t!"http://empty.com/", 200, [(t!"content-type", t!"application/xrds+xml")], [8]⟩
  else if u = t!"http://none.com/" then .ok ⟨t!"http://none.com/", 200, [(t!"content-type", t!"application/xrds+xml")], [9]⟩
  else .error .fetchingError

example : (answer realmNet0 (Filters.verifyReturnTo realmWorld0 t!"http://*.example.com/" t!"http://rp.example.com/return?x=y")).2 = .ok true ∧
    (answer realmNet0 (Filters.verifyReturnTo realmWorld0 t!"http://*.example.com/" t!"http://rp.example.com/return?x=y")).1.map (·.url) =
      [t!"http://www.example.com/", t!"http://xrds/"] ∧
    (answer realmNet0 (Filters.verifyReturnTo realmWorld0 t!"http://*.example.com/" t!"http://evil.com/")).2 = .ok false ∧
    (answer realmNet0 (Filters.verifyReturnTo realmWorld0 t!"http://plain.com/" t!"http://rp.example.com/return")).2 = .ok true ∧
    (answer realmNet0 (Filters.verifyReturnTo realmWorld0 t!"http://plain.com/" t!"http://a.bad.com/")).2 = .ok false ∧
    (answer realmNet0 (Filters.verifyReturnTo realmWorld0 t!"http://moved.com/" t!"http://rp.example.com/return")).2 = .ok false ∧
    (answer realmNet0 (Filters.verifyReturnTo realmWorld0 t!"http://a*.com/" t!"http://rp.example.com/return")).2 = .ok false ∧
    (answer realmNet0 (Filters.verifyReturnTo realmWorld0 t!"http://a*.com/" t!"http://rp.example.com/return")).1.length = 0 ∧
    (answer realmNet0 (Filters.verifyReturnTo realmWorld0 t!"http://none.com/" t!"http://rp.example.com/return")).2 =
      .error .discoveryFailure := by decide +kernel

/-- Not only `DiscoveryFailure` and what a fetch raises, which the documentation names, can come out: a service with an empty
    type is enough. -/
theorem c71_empty_type :
    (answer realmNet0 (Filters.verifyReturnTo realmWorld0 t!"http://empty.com/" t!"http://rp.example.com/return")).2 =
      .error .attributeError := by decide +kernel

end Props
