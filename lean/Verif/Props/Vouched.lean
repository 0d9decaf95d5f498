import Verif.Spec.Vouched
import Verif.Props.ConsumerAccepts
import Verif.Props.DiscoverDoc
import Verif.Props.Xri
/-! # C73: who logs in is vouched for by their own page

The endpoint a successful login is about was found by discovery, during that call or an earlier one of the same session,
on pages that were fetched: the page whose address is the claimed identifier names the provider, by itself or by
pointing to the XRDS document that does (or the resolver does, for an XRI). -/

namespace Props
open Py Xml Spec Discover

theorem each_mem {α β : Type} {R : α → β → Prop} {as : List α} {bs : List β} (h : Each R as bs) {b : β} (hb : b ∈ bs) :
    ∃ a ∈ as, R a b := by
  induction h with
  | nil => simp at hb
  | cons h1 _ ih =>
    rcases List.mem_cons.1 hb with rfl | hb
    · exact ⟨_, by simp, h1⟩
    · obtain ⟨a, h3, h4⟩ := ih hb; exact ⟨a, by simp [h3], h4⟩

theorem listsService_of_fromXRDS {D : World} (hs : ∀ i l, (D.shuffle i l).Perm l) (hu : ∀ i l, (D.shuffleURIs i l).Perm l)
    {y : Str} {body : Bytes} {es : List Endpoint} (h : fromXRDS D y body = .ok es) {e : Endpoint} (he : e ∈ es) :
    ListsService D y body e := by
  obtain ⟨root, xrd, h1, h2, h3, groups, h4, -, h5, rfl⟩ := c57_fromXRDS D hs hu y body es h
  obtain ⟨g, hg, he⟩ := List.mem_flatMap.1 he
  obtain ⟨h6, -, h7⟩ := h5 g hg
  obtain ⟨u, hu1, hu2⟩ := each_mem h7 he
  have hm := List.mem_filter.1 (h4.mem_iff.1 (List.mem_map_of_mem hg))
  exact ⟨root, xrd, g.1, u, h1, h2, h3, hm.1, by simpa using hm.2, h6.mem_iff.1 (List.mem_filter.1 hu1).1, hu2⟩

theorem mem_fromHTML {D : World} {y : Str} {body : Bytes} {e : Endpoint} (he : e ∈ fromHTML D y body) :
    ∃ root, D.html body = some root ∧
      (IsHtmlEndpoint y root t!"http://specs.openid.net/auth/2.0/signon" t!"openid2.provider" t!"openid2.local_id" e ∨
       IsHtmlEndpoint y root t!"http://openid.net/signon/1.1" t!"openid.server" t!"openid.delegate" e) := by
  cases hr : D.html body with
  | none => rw [(c58_fromHTML D y body).1 hr] at he; simp at he
  | some root =>
    obtain ⟨two, one, h1, h2, h3⟩ := (c58_fromHTML D y body).2 root hr
    rw [h1, List.mem_append] at he
    refine ⟨root, rfl, ?_⟩
    rcases he with he | he
    · rcases h2 with ⟨e', rfl, h2⟩ | ⟨rfl, -⟩
      · simp only [List.mem_singleton] at he; subst he; exact .inl h2
      · simp at he
    · rcases h3 with ⟨e', rfl, h3⟩ | ⟨rfl, -⟩
      · simp only [List.mem_singleton] at he; subst he; exact .inr h3
      · simp at he

/-- the pages of a run of the Yadis protocol -/
theorem yadis_pages {D : World} {uri : Str} {gets : List Get} {y : Result} (h : Gets (yadisDiscover D uri) gets (.ok y)) :
    ∃ g ∈ gets, ∃ page, Got g page ∧ page.finalUrl = y.normalizedUri ∧
      (y.body = page.body ∨ ∃ loc, PointsTo D page loc ∧ y.isXRDS = true ∧
        ∃ g' ∈ gets, g'.url = loc ∧ ∃ doc, Got g' doc ∧ y.body = doc.body) := by
  rcases gets_yadisDiscover h with ⟨o, e, -, k, -⟩ | ⟨p, loc, hp, hw, ⟨-, rfl, k⟩ | ⟨l, o, hl, rfl, k⟩⟩
  · simp at k
  · simp only [Except.ok.injEq] at k
    subst k
    exact ⟨_, by simp, p, hp, rfl, .inl rfl⟩
  · rcases k with ⟨e, -, k⟩ | ⟨q, -, -, k⟩ | ⟨q, rfl, hq, k⟩
    · simp at k
    · simp at k
    · simp only [Except.ok.injEq] at k
      subst k
      obtain ⟨rfl, -, hne⟩ := hl
      refine ⟨_, by simp, p, hp, rfl, .inr ⟨l, ?_, ?_, _, List.mem_cons_of_mem _ (List.mem_singleton.2 rfl), rfl, q, hq, rfl⟩⟩
      · exact (c56_location D p l).1 hw
      · simp [Result.isXRDS, Result.usedYadisLocation, Ne.symm hne]

/-- what is found for a URL is named by its page -/
theorem uri_names {D : World} (hs : ∀ i l, (D.shuffle i l).Perm l) (hu : ∀ i l, (D.shuffleURIs i l).Perm l) {id : Str}
    {gets : List Get} {name : Str} {services : List Endpoint} (h : Gets (discoverURI D id) gets (.ok (name, services)))
    {e : Endpoint} (he : e ∈ services) : ∃ claimed, PageNames D gets claimed e ∧ (e.claimedId = some claimed ∨ e.claimedId = none) := by
  have hend : ∀ {y : Str} {body : Bytes}, ListsService D y body e → e.claimedId = some y ∨ e.claimedId = none := by
    rintro y body ⟨_, _, service, _, _, _, _, _, _, _, -, -, -, -, -, h⟩
    split at h
    · exact .inr h.1
    · exact .inl h.1
  rcases gets_discoverURI h with ⟨e', -, -, k⟩ | ⟨url, uri, -, -, ⟨e', -, k⟩ | ⟨found, services', hy, ⟨e', -, k⟩ | ⟨cid, -, k⟩⟩⟩
  · simp at k
  · simp at k
  · simp at k
  simp only [Except.ok.injEq, Prod.mk.injEq] at k
  obtain ⟨-, rfl⟩ := k
  clear h
  rcases gets_discoverYadis hy with ⟨e', -, h⟩ | ⟨g1, g2, y, rfl, h1, h⟩
  · simp at h
  clear hy
  obtain ⟨g, hg, page, hgot, hfin, hbody⟩ := yadis_pages h1
  rcases h with ⟨e', -, -, -, -, h⟩ | ⟨es, rfl, hx, -, h⟩ | ⟨-, ⟨-, h⟩ | ⟨hn, rfl, h⟩⟩
  · simp at h
  · simp only [Except.ok.injEq, Prod.mk.injEq] at h
    obtain ⟨-, rfl⟩ := h
    have hl := listsService_of_fromXRDS hs hu hx (mem_getOPOrUserServices he)
    refine ⟨y.normalizedUri, ⟨g, by simp [hg], page, hgot, hfin, .inr ?_⟩, hend hl⟩
    rcases hbody with hb | ⟨loc, hp, -, g', hg', hloc, doc, hdoc, hb⟩
    · exact .inl (hb ▸ hl)
    · exact .inr ⟨loc, hp, g', by simp [hg'], hloc, doc, hdoc, hb ▸ hl⟩
  · obtain ⟨o, rfl, ⟨e', -, h⟩ | ⟨p, -, -, h⟩ | ⟨p, rfl, hp, h⟩⟩ := gets_discoverNoYadis h
    · simp at h
    · simp at h
    · simp only [Except.ok.injEq, Prod.mk.injEq] at h
      obtain ⟨-, rfl⟩ := h
      obtain ⟨root, hr, hroot⟩ := mem_fromHTML he
      refine ⟨p.finalUrl, ⟨_, List.mem_append_right _ (List.mem_singleton.2 rfl), p, hp, rfl, .inl ⟨root, hr, hroot⟩⟩, .inl ?_⟩
      rcases hroot with h | h <;> exact h.2.2.2.2.1
  · simp only [Except.ok.injEq, Prod.mk.injEq] at h
    obtain ⟨-, rfl⟩ := h
    obtain ⟨root, hr, hroot⟩ := mem_fromHTML (mem_getOPOrUserServices he)
    have hb : y.body = page.body := by
      rcases hbody with hb | ⟨loc, -, hx, -⟩
      · exact hb
      · rw [hn] at hx; simp at hx
    refine ⟨y.normalizedUri, ⟨g, by simp [hg], page, hgot, hfin, .inl ⟨root, hb ▸ hr, hroot⟩⟩, .inl ?_⟩
    rcases hroot with h | h <;> exact h.2.2.2.2.1

/-- **C73**: whatever discovery finds for an identifier (URL or XRI) is vouched for by what was fetched: an endpoint is
    for the address its own page has, and that page names the provider; or the resolver gives identifier and provider. -/
theorem c73_discovery (D : World) (web : List Get) (id name : Str) (services : List Endpoint)
    (h : LookedUp D web id (.ok (name, services))) (e : Endpoint) (he : e ∈ services) (claimed : Str)
    (hc : e.claimedId = some claimed) : OwnPage D web claimed e := by
  obtain ⟨sh, ad, gets, hs, hu, hweb, h⟩ := h
  refine ⟨hc, ?_⟩
  rw [discover] at h
  split at h
  · right
    obtain ⟨rfl, rfl | ⟨cid, pre, g, post, page, root, hg, hgot, -, hx, hv, hall⟩⟩ := c61_identified _ hs hu id gets name services h
    · simp at he
    obtain ⟨k, hk, -⟩ := c61_requests _ id gets _ h
    have hsaid : ∀ g ∈ gets, ∀ p, Got g p → ResolverSaid web (bare id) p := by
      intro g hg p hp
      refine ⟨g, hweb g hg, ?_, hp⟩
      have : asked g ∈ gets.map asked := List.mem_map_of_mem hg
      rw [hk] at this
      obtain ⟨t, ht, h⟩ := List.mem_map.1 this
      exact ⟨t, List.mem_of_mem_take ht, (congrArg Prod.fst h).symm⟩
    obtain ⟨h1, h2, h3, g', hg', p, root', xrd, service, uri, e', k1, k2, k3, k4, k5, k6, k7, k8, k9, k10⟩ := hall e he
    have : cid = claimed := by rw [h2] at hc; simpa using hc
    subst this
    exact ⟨bare id, ⟨page, root, hsaid g (by simp [hg]) page hgot, hx, hv⟩, h1, h3, p, xrd, root', service, uri, e',
      hsaid g' hg' p k1, k2, k3, k4, k5, k6, k7, k8, k9, k10⟩
  · left
    obtain ⟨c, hp, h1 | h1⟩ := uri_names hs hu h he
    · have : c = claimed := by rw [h1] at hc; simpa using hc
      subst this
      obtain ⟨g, hg, page, hgot, hfin, h⟩ := hp
      refine ⟨g, hweb g hg, page, hgot, hfin, ?_⟩
      rcases h with h | h | ⟨loc, hl, g', hg', h⟩
      · exact .inl h
      · exact .inr (.inl h)
      · exact .inr (.inr ⟨loc, hl, g', hweb g' hg', h⟩)
    · rw [h1] at hc; simp at hc

/-! ## The session -/

/-- the endpoint came out of discovery, or the application gave it -/
def Known73 (evs : List Consumer.Ev) (given : List Endpoint) (e : Endpoint) : Prop :=
  e ∈ given ∨ ∃ id url found, Consumer.Ev.discover id (.ok (url, found)) ∈ evs ∧ e ∈ found

/-- every endpoint in the session did -/
structure Inv73 (evs : List Consumer.Ev) (given : List Endpoint) (s : Consumer.UserSession) : Prop where
  token : ∀ e, s.token = some e → Known73 evs given e
  manager : ∀ m, s.manager = some m → ∀ e ∈ m.services, Known73 evs given e

theorem Known73.mono {evs evs' : List Consumer.Ev} {given given' : List Endpoint} {e : Endpoint} (h : Known73 evs given e)
    (h1 : ∀ x ∈ evs, x ∈ evs') (h2 : ∀ x ∈ given, x ∈ given') : Known73 evs' given' e := by
  rcases h with h | ⟨id, url, found, h, h'⟩
  · exact .inl (h2 e h)
  · exact .inr ⟨id, url, found, h1 _ h, h'⟩

theorem Inv73.mono {evs evs' : List Consumer.Ev} {given given' : List Endpoint} {s : Consumer.UserSession}
    (h : Inv73 evs given s) (h1 : ∀ x ∈ evs, x ∈ evs') (h2 : ∀ x ∈ given, x ∈ given') : Inv73 evs' given' s :=
  ⟨fun e he => (h.token e he).mono h1 h2, fun m hm e he => (h.manager m hm e he).mono h1 h2⟩

theorem Inv73.more {evs : List Consumer.Ev} {given : List Endpoint} {s : Consumer.UserSession} (h : Inv73 evs given s)
    (evs' : List Consumer.Ev) : Inv73 (evs ++ evs') given s :=
  h.mono (fun _ hx => List.mem_append_left _ hx) (fun _ hx => hx)

theorem dropEmpty_services {m m' : Option (Manager.Manager Endpoint)} {url : Str} (h : Manager.dropEmpty m url = m') {x} (hx : m' = some x) :
    m = some x := by
  subst hx
  unfold Manager.dropEmpty at h
  (repeat' split at h) <;> try exact h
  unfold Manager.destroyManager at h
  split at h <;> simp_all

theorem takeNext_services {m0 : Option (Manager.Manager Endpoint)} {m : Manager.Manager Endpoint} {P : Endpoint → Prop}
    (h0 : ∀ m, m0 = some m → ∀ e ∈ m.services, P e) (h : ∀ e ∈ m.services, P e) :
    (∀ e, (Manager.takeNext m0 (some m)).1 = some e → P e) ∧
    ∀ m', (Manager.takeNext m0 (some m)).2 = some m' → ∀ e ∈ m'.services, P e := by
  unfold Manager.takeNext
  split
  · next m1 hm =>
    simp only [Option.some.injEq] at hm
    subst hm
    split
    · next s rest hs =>
      refine ⟨?_, ?_⟩
      · rintro e he; simp only [Option.some.injEq] at he; subst he; exact h _ (by simp [hs])
      · rintro m' he; simp only [Option.some.injEq] at he; subst he; exact fun e he => h e (by simp only at he; simp [hs, he])
    · exact ⟨by simp, h0⟩
  · simp at *

theorem next_known {evs evs' : List Consumer.Ev} {given : List Endpoint} {s s' : Consumer.UserSession} {url : Str}
    {r : Except Consumer.Err (Option Endpoint)} (hi : Inv73 evs given s)
    (h : Consumer.Runs (Consumer.getNextService s url) evs' (.ok (s', r))) :
    Inv73 (evs ++ evs') given s' ∧ ∀ e, r = .ok (some e) → Known73 (evs ++ evs') given e := by
  have hi' : Inv73 (evs ++ evs') given s := hi.mono (by simp +contextual) (by simp)
  unfold Consumer.getNextService at h
  split at h
  · next e m hb =>
    obtain ⟨rfl, h⟩ := h
    simp only [Except.ok.injEq, Prod.mk.injEq] at h
    obtain ⟨rfl, rfl⟩ := h
    unfold Manager.beforeDiscovery at hb
    split at hb
    · next m1 hg =>
      have hm1 : s.manager = some m1 := by
        unfold Manager.getManager at hg
        split at hg
        · next m2 hs => split at hg <;> simp_all
        · simp at hg
      split at hb
      · simp only [Option.some.injEq] at hb
        have := takeNext_services hi'.manager (hi'.manager m1 hm1)
        rw [hb] at this
        refine ⟨⟨hi'.token, this.2⟩, ?_⟩
        intro e' he
        simp only [Except.ok.injEq] at he
        exact this.1 e' he
      · simp at hb
    · simp at hb
  · rw [Consumer.runs_handle] at h
    obtain ⟨e1, e2, o, rfl, h1, h2⟩ := h
    obtain ⟨o', rfl, ho⟩ := Consumer.runs_discover.1 h1
    have hdrop : Inv73 (evs ++ ([Consumer.Ev.discover url o'] ++ e2)) given { s with manager := Manager.dropEmpty s.manager url } :=
      ⟨hi'.token, fun m hm => hi'.manager m (dropEmpty_services rfl hm)⟩
    split at h2
    · obtain ⟨rfl, h2⟩ := h2
      simp only [Except.ok.injEq, Prod.mk.injEq] at h2
      obtain ⟨rfl, rfl⟩ := h2
      exact ⟨hdrop, by simp⟩
    · next y found =>
      have : o' = .ok (y, found) := by
        cases o' with
        | error e => simp [Consumer.lift] at ho
        | ok p => simp [Consumer.lift] at ho; rw [ho]
      subst this
      have hf : ∀ e ∈ found, Known73 (evs ++ ([Consumer.Ev.discover url (.ok (y, found))] ++ e2)) given e :=
        fun e he => .inr ⟨url, y, found, by simp, he⟩
      split at h2
      · next e m ha =>
        obtain ⟨rfl, h2⟩ := h2
        simp only [Except.ok.injEq, Prod.mk.injEq] at h2
        obtain ⟨rfl, rfl⟩ := h2
        unfold Manager.afterDiscovery at ha
        obtain ⟨⟨m1, s1⟩, hc, ha⟩ := bind_eq_ok.1 ha
        unfold Manager.createManager at hc
        split at hc
        · simp at hc
        · split at hc
          · simp only [Except.ok.injEq, Prod.mk.injEq] at hc
            obtain ⟨rfl, rfl⟩ := hc
            simp [Manager.takeNext] at ha
            obtain ⟨rfl, rfl⟩ := ha
            exact ⟨hdrop, by simp⟩
          · simp only [Except.ok.injEq, Prod.mk.injEq] at hc
            obtain ⟨rfl, rfl⟩ := hc
            simp only [pure_eq_ok, Except.ok.injEq] at ha
            have := takeNext_services (m0 := some ⟨url, y, found, none⟩) (m := ⟨url, y, found, none⟩)
              (by intro m hm; simp only [Option.some.injEq] at hm; subst hm; exact hf) hf
            rw [ha] at this
            exact ⟨⟨hi'.token, this.2⟩, fun e' he => this.1 e' (by simpa using he)⟩
      · obtain ⟨rfl, h2⟩ := h2
        simp only [Except.ok.injEq, Prod.mk.injEq] at h2
        obtain ⟨rfl, rfl⟩ := h2
        exact ⟨hdrop, by simp⟩

theorem genericBegin_endpoint {W : Consumer.World} {C : Consumer.Conf} {E : Consumer.Env} {e : Endpoint} {evs : List Consumer.Ev}
    {r : Consumer.AuthRequest} (h : Consumer.Runs (Consumer.genericBegin W C E e) evs (.ok r)) : r.endpoint = e := by
  rw [Consumer.genericBegin, Consumer.runs_bind_ok] at h
  obtain ⟨e1, e2, a, rfl, -, h⟩ := h
  rw [Consumer.runs_py_bind_ok] at h
  obtain ⟨r', h1, h⟩ := h
  simp at h
  rw [← h.2]
  rw [Consumer.AuthRequest.new] at h1
  obtain ⟨m, -, h1⟩ := bind_eq_ok.1 h1
  simp only [pure_eq_ok, Except.ok.injEq] at h1
  rw [← h1]
  rfl

theorem given_known {W : Consumer.World} {C : Consumer.Conf} {E : Consumer.Env} {evs evs' : List Consumer.Ev} {given : List Endpoint}
    {s s' : Consumer.UserSession} {e : Endpoint} {anonymous : Bool} {r} (hi : Inv73 evs given s) (he : Known73 evs given e)
    (h : Consumer.Runs (Consumer.beginWithoutDiscovery W C E s e anonymous) evs' (.ok (s', r))) : Inv73 evs given s' := by
  rw [Consumer.beginWithoutDiscovery, Consumer.runs_handle] at h
  obtain ⟨e1, e2, o, rfl, h1, h2⟩ := h
  split at h2
  · obtain ⟨rfl, h2⟩ := h2
    simp only [Except.ok.injEq, Prod.mk.injEq] at h2
    obtain ⟨rfl, rfl⟩ := h2
    exact hi
  · obtain ⟨rfl, h2⟩ := h2
    simp only [Except.ok.injEq, Prod.mk.injEq] at h2
    obtain ⟨rfl, rfl⟩ := h2
    refine ⟨?_, hi.manager⟩
    intro e' he'
    simp only [Option.some.injEq] at he'
    rw [genericBegin_endpoint h1] at he'
    exact he' ▸ he

theorem cleanup_inv {evs : List Consumer.Ev} {given : List Endpoint} {s : Consumer.UserSession} (hi : Inv73 evs given s)
    {r : Consumer.Response} : Inv73 evs given (Consumer.cleanup s r) := by
  have key : ∀ u, Inv73 evs given { s with manager := (Manager.cleanup s.manager u true).2 } := by
    intro u
    refine ⟨hi.token, ?_⟩
    intro m hm
    refine hi.manager m ?_
    simp only at hm
    unfold Manager.cleanup Manager.destroyManager at hm
    split at hm
    · simp only at hm
      split at hm
      · simp at hm
      · exact hm
    · exact hm
  unfold Consumer.cleanup
  split
  · split
    · exact key _
    · exact hi
  · split
    · exact key _
    · exact hi
  · exact hi

theorem session_inv {W : Consumer.World} {C : Consumer.Conf} {evs : List Consumer.Ev} {given : List Endpoint}
    {s : Consumer.UserSession} (h : Session W C evs given s) : Inv73 evs given s := by
  induction h with
  | new => exact ⟨by simp, by simp⟩
  | begin _ hr ih =>
    rw [Consumer.begin, Consumer.runs_bind_ok] at hr
    obtain ⟨e1, e2, ⟨s1, o⟩, rfl, h1, h2⟩ := hr
    obtain ⟨hi, hk⟩ := next_known ih h1
    rw [← List.append_assoc]
    unfold Consumer.beginWith at h2
    split at h2
    · next heq => obtain ⟨rfl, h2⟩ := h2; simp_all
    · next heq => obtain ⟨rfl, h2⟩ := h2; simp_all
    · next s2 e heq =>
      simp only [Prod.mk.injEq] at heq
      obtain ⟨rfl, rfl⟩ := heq
      exact (given_known hi (hk e rfl) h2).more _
  | beginWithoutDiscovery _ hr ih =>
    exact (given_known (ih.mono (fun _ hx => hx) (fun _ hx => List.mem_cons_of_mem _ hx)) (.inl (by simp)) hr).more _
  | complete _ hr ih =>
    rw [Consumer.complete] at hr
    split at hr
    · obtain ⟨rfl, hr⟩ := hr
      simp only [Except.ok.injEq, Prod.mk.injEq] at hr
      obtain ⟨rfl, -⟩ := hr
      exact ih.more _
    · rw [Consumer.runs_handle] at hr
      obtain ⟨e1, e2, o, rfl, -, h2⟩ := hr
      split at h2
      · obtain ⟨rfl, h2⟩ := h2
        simp only [Except.ok.injEq, Prod.mk.injEq] at h2
        obtain ⟨rfl, -⟩ := h2
        exact ih.more _
      · obtain ⟨rfl, h2⟩ := h2
        simp only [Except.ok.injEq, Prod.mk.injEq] at h2
        obtain ⟨rfl, -⟩ := h2
        exact Inv73.more (cleanup_inv (s := { token := none, manager := _ }) ⟨by simp, ih.manager⟩) _

/-- **C73**: after any calls in the user's session, if a login succeeds, then the response is about an identifier
    (unless it asserts none) whose own page, fetched during this call or an earlier one, names the provider at
    `op_endpoint` and the identity asserted there (or the resolver does, or the application had given the endpoint). -/
theorem c73_login {W : Consumer.World} {C : Consumer.Conf} {E : Consumer.Env} {D : World} {web : List Get}
    {evs evs' : List Consumer.Ev} {supplied : List Endpoint} {s s' : Consumer.UserSession} {q : Dict Str Str} {current : Str}
    {e : Endpoint} {m : Message.Msg} {signed : List Str} (hq : Dict.WF q) (hs : Session W C evs supplied s)
    (h : Consumer.Runs (Consumer.complete W C E s q current) evs' (.ok (s', .ok (.success e m signed))))
    (hd : ∀ id o, .discover id o ∈ evs ++ evs' → LookedUp D web id o) :
    (¬ IsV1 q ∧ arg q t!"claimed_id" = none ∧ arg q t!"identity" = none ∧ e.claimedId = none) ∨
    ∃ claimed base fragment identity,
      (if IsV1 q then claimedIn s.token q = some claimed ∧ e.claimedId = some base
       else arg q t!"claimed_id" = some claimed ∧ arg q t!"op_endpoint" = some e.serverUrl ∧ e.claimedId = some claimed) ∧
      arg q t!"identity" = some identity ∧ localIdentifier { e with claimedId := some base } = given (some identity) ∧
      Url.urldefrag W.uni claimed = .ok (base, fragment) ∧
      ({ e with claimedId := some base } ∈ supplied ∨ OwnPage D web base { e with claimedId := some base }) := by
  have hv := (c37_success hq h).discovery
  have hi := session_inv hs
  have key : ∀ claimed d base, Discovered s.token evs' claimed d → d.claimedId = some base →
      d ∈ supplied ∨ OwnPage D web base d := by
    rintro claimed d base (h1 | ⟨url, found, h1, h2⟩) hc
    · rcases hi.token d h1 with h1 | ⟨id, url, found, h1, h2⟩
      · exact .inl h1
      · exact .inr (c73_discovery D web id url found (hd _ _ (by simp [h1])) d h2 base hc)
    · exact .inr (c73_discovery D web claimed url found (hd _ _ (by simp [h1])) d h2 base hc)
  rw [Confirmed] at hv
  by_cases h1 : IsV1 q
  · rw [if_pos h1] at hv
    obtain ⟨claimed, identity, k1, k2, k3, k4⟩ := hv
    obtain ⟨base, fragment, k5, k6⟩ := k4.claimed
    have he : { e with claimedId := some base } = e := by rw [← k6]
    refine .inr ⟨claimed, base, fragment, identity, by rw [if_pos h1]; exact ⟨k1, k6⟩, k2, ?_, k5, ?_⟩
    · rw [he]; exact k4.identity
    · rw [he]; exact key claimed e base k3 k6
  · rw [if_neg h1] at hv
    rcases hv with ⟨claimed, identity, d, k1, k2, k3, k4, k5, rfl⟩ | ⟨server, k1, k2, -, rfl⟩
    · obtain ⟨base, fragment, k6, k7⟩ := k5.claimed
      have he : { ({ d with claimedId := some claimed } : Endpoint) with claimedId := some base } = d := by rw [← k7]
      refine .inr ⟨claimed, base, fragment, identity, by rw [if_neg h1]; exact ⟨k1, k3, rfl⟩, k2, ?_, k6, ?_⟩
      · rw [he]; exact k5.identity
      · rw [he]; exact key claimed d base k4 k7
    · exact .inl ⟨h1, k1, k2, rfl⟩

/-! ## An example: `begin`, with the page pointing to an XRDS document, and then `complete` -/

def disco73 : World :=
  { disco0 with
    xml := fun b =>
      if b = [9] then some (document0 [service0 [OPENID_2_0_TYPE]
        [elem0 Etxrd.uriTag (some t!"http://op.example/"), elem0 localIDTag (some t!"http://op.example/u")]]) else none }

def net73 (u : Str) (_ : Option Str) : Except PyErr Page :=
  if u = t!"http://u.example/" then .ok ⟨t!"http://u.example/", 200, [(t!"x-xrds-location", t!"http://h.example/u")], [3]⟩
  else .ok ⟨t!"http://h.example/u", 200, [], [9]⟩

def web73 : List Get := (answer net73 (discover disco73 t!"u.example")).1

def begun73 : List Consumer.Ev :=
  [.discover t!"u.example" (.ok (t!"http://u.example/", [endpoint0])),
   .store (.getAssociation t!"http://op.example/" none) (.ok (.assoc (some cassoc0)))]

/-- `begin` came to a request, and left this session -/
def began73 : Except Consumer.Err (Consumer.UserSession × Except Consumer.Err Consumer.AuthRequest) → Bool
  | .ok (s, .ok _) =>
    decide (s = ⟨some endpoint0, some ⟨t!"u.example", t!"http://u.example/", [], some endpoint0⟩⟩)
  | _ => false

theorem lookedUp_answer {D : World} (hs : ∀ i l, (D.shuffle i l).Perm l) (hu : ∀ i l, (D.shuffleURIs i l).Perm l)
    (net : Str → Option Str → Except PyErr Page) {id : Str} {o : Except PyErr (Str × List Endpoint)}
    (h : (answer net (discover D id)).2 = o) : LookedUp D (answer net (discover D id)).1 id o := by
  refine ⟨D.shuffle, D.shuffleURIs, _, hs, hu, fun g hg => hg, ?_⟩
  have := gets_answer net (discover D id)
  rw [h] at this
  exact this

theorem lookedUp73 : LookedUp disco73 web73 t!"u.example" (.ok (t!"http://u.example/", [endpoint0])) :=
  lookedUp_answer (fun _ l => List.reverse_perm l) (fun _ l => List.reverse_perm l) net73 (by decide +kernel)

example : ∃ evs evs' s s' e m signed, Session cworld0 cconf0 evs [] s ∧
    Consumer.Runs (Consumer.complete cworld0 cconf0 cenv0 s (cquery0 t!"AQIf") t!"http://rp.example/back") evs'
      (.ok (s', .ok (.success e m signed))) ∧
    (∀ id o, .discover id o ∈ evs ++ evs' → LookedUp disco73 web73 id o) ∧ e.claimedId = some t!"http://u.example/#f" := by
  have hb : (Consumer.play (Consumer.begin cworld0 cconf0 cenv0 ⟨none, none⟩ t!"u.example" false) begun73).map began73 =
      some true := by decide +kernel
  obtain ⟨r, hr, hs⟩ := check_play hb
  obtain ⟨r', rfl⟩ : ∃ r', r = .ok (⟨some endpoint0, some ⟨t!"u.example", t!"http://u.example/", [], some endpoint0⟩⟩, r') := by
    unfold began73 at hs
    split at hs
    · simp only [decide_eq_true_eq] at hs; exact ⟨_, by rw [hs]⟩
    · simp at hs
  have hc : (Consumer.play (Consumer.complete cworld0 cconf0 cenv0
      ⟨some endpoint0, some ⟨t!"u.example", t!"http://u.example/", [], some endpoint0⟩⟩ (cquery0 t!"AQIf") t!"http://rp.example/back")
      cevs0).map accepted0 = some true := by decide +kernel
  obtain ⟨r2, hr2, hs2⟩ := check_play hc
  unfold accepted0 at hs2
  split at hs2
  · next s e m sg =>
    simp only [decide_eq_true_eq] at hs2
    refine ⟨[] ++ begun73, cevs0, _, s, e, m, sg, .begin .new hr, hr2, ?_, by rw [hs2.1]⟩
    intro id o h
    simp [begun73, cevs0] at h
    obtain ⟨rfl, rfl⟩ := h
    exact lookedUp73
  · simp at hs2

end Props
