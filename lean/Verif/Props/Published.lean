import Verif.Spec.Published
import Verif.Spec.Consumer
import Verif.Props.Discover
import Verif.Model.Provider
/-! # C92: the example provider can be discovered -/

namespace Props
open Py Xml Discover Spec

theorem prioSort_one {X : ExtraDigits} {shuffle : List Elem → List Elem} (h : ∀ l, (shuffle l).Perm l) (e : Elem) :
    Etxrd.prioSort X shuffle [e] = [e] := by
  rw [Etxrd.prioSort, List.perm_singleton.1 (h [e])]
  rfl

theorem userDocument_endpoints {W : World} (hs : FairShuffles W) {base user uri : Str} {body : Bytes}
    (hx : W.xml body = some (Published.userDocument base user)) :
    fromXRDS W uri body = .ok [⟨some uri, base ++ t!"openidserver", [OPENID_2_0_TYPE, OPENID_1_0_TYPE],
      some (base ++ t!"id/" ++ user), none, true, none⟩] := by
  have h1 := fun e => prioSort_one (X := W.digits) (hs.1 0) e
  have h2 := fun e => prioSort_one (X := W.digits) (hs.2 0) e
  unfold fromXRDS
  rw [hx]
  have hp : Etxrd.parseXRDS (some (Published.userDocument base user)) = .ok (Published.userDocument base user) := rfl
  rw [hp]
  simp only [ok_bind]
  have hi : ∃ svc, Etxrd.iterServices W.digits (W.shuffle 0) (Published.userDocument base user) = .ok [svc] ∧
      svc = .mk Etxrd.serviceTag [(t!"priority", t!"0")] (some t!"\n      ") [Published.leaf Etxrd.typeTag OPENID_2_0_TYPE,
        Published.leaf Etxrd.typeTag OPENID_1_0_TYPE, Published.leaf Etxrd.uriTag (Published.endpointUrl base),
        Published.leaf localIDTag (Published.userUrl base user)] := by
    refine ⟨_, ?_, rfl⟩
    have hg : Etxrd.getYadisXRD (Published.userDocument base user) = .ok (.mk Etxrd.xrdElemTag [] (some t!"\n\n    ")
      [.mk Etxrd.serviceTag [(t!"priority", t!"0")] (some t!"\n      ") [Published.leaf Etxrd.typeTag OPENID_2_0_TYPE,
        Published.leaf Etxrd.typeTag OPENID_1_0_TYPE, Published.leaf Etxrd.uriTag (Published.endpointUrl base),
        Published.leaf localIDTag (Published.userUrl base user)]]) := rfl
    rw [Etxrd.iterServices, hg]
    simp only [ok_bind]
    exact congrArg Except.ok (h1 _)
  obtain ⟨svc, hi, hsvc⟩ := hi
  rw [hi]
  simp only [ok_bind, endpointsOf]
  have hu : Etxrd.sortedURIs W.digits (W.shuffleURIs 0) svc = [some (base ++ t!"openidserver")] := by
    rw [Etxrd.sortedURIs]
    have : svc.findall Etxrd.uriTag = [Published.leaf Etxrd.uriTag (Published.endpointUrl base)] := by rw [hsvc]; rfl
    rw [this, h2]
    rfl
  have ht : Etxrd.getTypeURIs svc = .ok [OPENID_2_0_TYPE, OPENID_1_0_TYPE] := by rw [hsvc]; rfl
  have hl : findOPLocalIdentifier svc [OPENID_2_0_TYPE, OPENID_1_0_TYPE] = .ok (some (base ++ t!"id/" ++ user)) := by
    rw [hsvc]; rfl
  rw [getServiceEndpoints, Etxrd.expandService, hu]
  simp only [List.isEmpty_cons, Bool.false_eq_true, if_false, List.mapM_cons, List.mapM_nil, ht, ok_bind, pure_eq_ok]
  rw [fromBasicServiceEndpoint, if_neg (by decide), parseService, if_neg (by decide), hl]
  rfl

theorem serverDocument_endpoints {W : World} (hs : FairShuffles W) {base uri : Str} {body : Bytes}
    (hx : W.xml body = some (Published.serverDocument base)) :
    fromXRDS W uri body = .ok [⟨none, base ++ t!"openidserver", [OPENID_IDP_2_0_TYPE], none, none, true, none⟩] := by
  have h1 := fun e => prioSort_one (X := W.digits) (hs.1 0) e
  have h2 := fun e => prioSort_one (X := W.digits) (hs.2 0) e
  unfold fromXRDS
  rw [hx]
  have hp : Etxrd.parseXRDS (some (Published.serverDocument base)) = .ok (Published.serverDocument base) := rfl
  rw [hp]
  simp only [ok_bind]
  have hi : ∃ svc, Etxrd.iterServices W.digits (W.shuffle 0) (Published.serverDocument base) = .ok [svc] ∧
      svc = .mk Etxrd.serviceTag [(t!"priority", t!"0")] (some t!"\n      ") [Published.leaf Etxrd.typeTag OPENID_IDP_2_0_TYPE,
        Published.leaf Etxrd.uriTag (Published.endpointUrl base)] := by
    refine ⟨_, ?_, rfl⟩
    have hg : Etxrd.getYadisXRD (Published.serverDocument base) = .ok (.mk Etxrd.xrdElemTag [] (some t!"\n\n    ")
      [.mk Etxrd.serviceTag [(t!"priority", t!"0")] (some t!"\n      ") [Published.leaf Etxrd.typeTag OPENID_IDP_2_0_TYPE,
        Published.leaf Etxrd.uriTag (Published.endpointUrl base)]]) := rfl
    rw [Etxrd.iterServices, hg]
    simp only [ok_bind]
    exact congrArg Except.ok (h1 _)
  obtain ⟨svc, hi, hsvc⟩ := hi
  rw [hi]
  simp only [ok_bind, endpointsOf]
  have hu : Etxrd.sortedURIs W.digits (W.shuffleURIs 0) svc = [some (base ++ t!"openidserver")] := by
    rw [Etxrd.sortedURIs]
    have : svc.findall Etxrd.uriTag = [Published.leaf Etxrd.uriTag (Published.endpointUrl base)] := by rw [hsvc]; rfl
    rw [this, h2]
    rfl
  have ht : Etxrd.getTypeURIs svc = .ok [OPENID_IDP_2_0_TYPE] := by rw [hsvc]; rfl
  rw [getServiceEndpoints, Etxrd.expandService, hu]
  simp only [List.isEmpty_cons, Bool.false_eq_true, if_false, List.mapM_cons, List.mapM_nil, ht, ok_bind, pure_eq_ok]
  rw [fromBasicServiceEndpoint, if_neg (by decide), parseService, if_pos (by decide)]
  rfl

/-- discovery on a page that names the location of its document -/
theorem discover_located {W : World} {id loc : Str} {root : Elem} {e : Endpoint}
    (hid : identifierURL W.uni id = .ok id) (hn : normalizeURL W.uni id = .ok id) (hloc : loc ≠ [] ∧ loc ≠ id)
    (hroot : findHTMLMeta W.uni (some root) = some loc) {net : Str → Except PyErr Page} (hp : ShowsPage W id root (net id))
    {doc : Page} (hd : net loc = .ok doc) (hst : doc.status = 200) (hx : fromXRDS W id doc.body = .ok [e])
    {gets : List Get} {r : Except PyErr (Str × List Endpoint)} (h : Gets (discoverURI W id) gets r)
    (hnet : ∀ g ∈ gets, g.result = net g.url) :
    gets.map (fun g => (g.url, g.accept)) = [(id, some yadisAccept), (loc, none)] ∧ r = .ok (id, [e]) := by
  obtain ⟨p, text, hp, hf, hps, hct, hhd, hdec, htext⟩ := hp.shown
  have hwhere : whereIsYadis W p = .ok (some loc) := by
    rw [whereIsYadis, hct]
    rw [if_neg ?_]
    · rw [show p.headers.get? yadisHeader = none from hhd]
      simp only [metaLocation, Option.getD_some]
      rw [show encodingOf t!"text/html" = t!"UTF-8" from by decide, World.decodeBody, if_pos rfl, hdec]
      simp only [htext, hroot]
    · simp only [isYadisType, show (splitOn ';' t!"text/html").headD [] = t!"text/html" from by decide]
      exact Bool.false_ne_true
  have hsvc : getOPOrUserServices [e] = [e] := rfl
  rcases gets_discoverURI h with ⟨x, -, h1 | ⟨url, h1, h2⟩, -⟩ | ⟨url, uri, h1, h2, h3⟩
  · rw [hid] at h1; cases h1
  · rw [hid] at h1; cases h1; rw [hn] at h2; cases h2
  · rw [hid] at h1
    cases h1
    rw [hn] at h2
    cases h2
    have key : ∀ r', Gets (discoverYadis W id) gets r' →
        gets.map (fun g => (g.url, g.accept)) = [(id, some yadisAccept), (loc, none)] ∧ r' = .ok (id, [e]) := by
      intro r' h'
      rw [discoverYadis, gets_bind] at h'
      have hy : ∀ {g res}, Gets (yadisDiscover W id) g res → (∀ x ∈ g, x.result = net x.url) →
          g.map (fun g => (g.url, g.accept)) = [(id, some yadisAccept), (loc, none)] ∧
          res = .ok ⟨id, some loc, doc.headers.get? t!"content-type", doc.body⟩ := by
        intro g res hg hgn
        rcases gets_yadisDiscover hg with ⟨o, x, rfl, rfl, hx⟩ | ⟨p', loc', hgot, hw', hx⟩
        · have ho : o = net id := hgn ⟨id, some yadisAccept, o⟩ (by simp)
          rw [hp] at ho
          subst ho
          rcases hx with hx | ⟨p', hx, ⟨hbad, -⟩ | ⟨-, hbad⟩⟩
          · cases hx
          · cases hx; simp [Page.ok, hps] at hbad
          · cases hx; rw [hwhere] at hbad; cases hbad
        · have hpp : p' = p := by
            have : (.ok p' : Except PyErr Page) = net id := by
              rcases hx with ⟨-, rfl, -⟩ | ⟨l, o, -, rfl, -⟩
              · exact hgn ⟨id, some yadisAccept, .ok p'⟩ (by simp)
              · exact hgn ⟨id, some yadisAccept, .ok p'⟩ (by simp)
            rw [hp] at this
            cases this; rfl
          subst hpp
          rw [hwhere] at hw'
          cases hw'
          rcases hx with ⟨hno, -, -⟩ | ⟨l, o, ⟨hl, -, -⟩, rfl, hx⟩
          · exact (hno loc ⟨rfl, hloc.1, by rw [hf]; exact hloc.2⟩).elim
          · cases hl
            have ho : o = net loc := hgn ⟨loc, none, o⟩ (by simp)
            rw [hd] at ho
            subst ho
            rcases hx with ⟨x, hx, -⟩ | ⟨q, hx, hbad, -⟩ | ⟨q, hx, -, hx'⟩
            · cases hx
            · cases hx; simp [Page.ok, hst] at hbad
            · cases hx; rw [hx', hf]; exact ⟨rfl, rfl⟩
      rcases h' with ⟨x, hg, -⟩ | ⟨g1, g2, a, rfl, hg, h2⟩
      · cases (hy hg hnet).2
      · obtain ⟨hg1, this⟩ := hy hg fun x hx => hnet x (by simp [hx])
        cases this
        rw [hx] at h2
        rcases gets_ofPy_bind.1 h2 with ⟨x, -, hbad, -⟩ | ⟨a, ha, h2⟩
        · cases hbad
        · cases ha
          rw [if_pos (show (![e].isEmpty) = true from rfl), hsvc] at h2
          obtain ⟨rfl, hr⟩ := gets_pure.1 h2
          exact ⟨by rw [List.append_nil]; exact hg1, hr⟩
    rcases h3 with ⟨x, h3, -⟩ | ⟨found, services, h3, h4⟩
    · cases (key _ h3).2
    · obtain ⟨hg, this⟩ := key _ h3
      cases this
      rcases h4 with ⟨x, h4, -⟩ | ⟨cid, h4, rfl⟩
      · rw [hn] at h4; cases h4
      · rw [hn] at h4; cases h4; exact ⟨hg, rfl⟩

/-- C92: whoever looks up the address of a user of the example provider finds the provider's endpoint, for this address, and
    nothing else. -/
theorem c92_user {W : World} (hs : FairShuffles W) {base user id : Str}
    (hu : id = base ++ t!"id/" ++ user) (hid : identifierURL W.uni id = .ok id) (hn : normalizeURL W.uni id = .ok id)
    {net : Str → Except PyErr Page} (hp : ShowsPage W id (Published.idPage base user) (net id))
    (hd : ShowsDocument W (Published.userDocument base user) (net (base ++ t!"yadis/" ++ user)))
    {gets : List Get} {r : Except PyErr (Str × List Endpoint)} (h : Gets (discoverURI W id) gets r)
    (hnet : ∀ g ∈ gets, g.result = net g.url) :
    gets.map (fun g => (g.url, g.accept)) = [(id, some t!"text/html; q=0.3, application/xhtml+xml; q=0.5, application/xrds+xml"),
      (base ++ t!"yadis/" ++ user, none)] ∧
    r = .ok (id, [⟨some id, base ++ t!"openidserver", [OPENID_2_0_TYPE, OPENID_1_0_TYPE], some id, none, true, none⟩]) := by
  obtain ⟨doc, hd, hst, hx⟩ := hd.shown
  refine discover_located hid hn ⟨by simp, ?_⟩ ?_ hp hd hst (by rw [userDocument_endpoints hs hx, hu]) h hnet
  · rw [hu, List.append_assoc, List.append_assoc]
    intro h
    have := List.append_cancel_left h
    simp at this
  · simp only [findHTMLMeta]
    have : inHead t!"meta" (Published.idPage base user) = [Published.locationTag (base ++ t!"yadis/" ++ user)] := rfl
    rw [this, List.find?_cons_of_pos]
    · rfl
    · show decide (Option.map (Url.lower W.uni) (some t!"x-xrds-location") = some yadisHeader) = true
      rw [Option.map_some, show Url.lower W.uni t!"x-xrds-location" = yadisHeader from rfl]
      exact decide_eq_true rfl

/-- C92: whoever looks up the address of the example provider itself finds its endpoint, at which an identifier can be chosen. -/
theorem c92_server {W : World} (hs : FairShuffles W) {base : Str}
    (hid : identifierURL W.uni base = .ok base) (hn : normalizeURL W.uni base = .ok base)
    {net : Str → Except PyErr Page} (hp : ShowsPage W base (Published.mainPage base) (net base))
    (hd : ShowsDocument W (Published.serverDocument base) (net (base ++ t!"serveryadis")))
    {gets : List Get} {r : Except PyErr (Str × List Endpoint)} (h : Gets (discoverURI W base) gets r)
    (hnet : ∀ g ∈ gets, g.result = net g.url) :
    gets.map (fun g => (g.url, g.accept)) = [(base, some t!"text/html; q=0.3, application/xhtml+xml; q=0.5, application/xrds+xml"),
      (base ++ t!"serveryadis", none)] ∧
    r = .ok (base, [⟨none, base ++ t!"openidserver", [OPENID_IDP_2_0_TYPE], none, none, true, none⟩]) := by
  obtain ⟨doc, hd, hst, hx⟩ := hd.shown
  refine discover_located hid hn ⟨by simp, by simp⟩ ?_ hp hd hst (serverDocument_endpoints hs hx) h hnet
  simp only [findHTMLMeta]
  have : inHead t!"meta" (Published.mainPage base) = [Published.locationTag (base ++ t!"serveryadis")] := rfl
  rw [this, List.find?_cons_of_pos]
  · rfl
  · show decide (Option.map (Url.lower W.uni) (some t!"x-xrds-location") = some yadisHeader) = true
    rw [Option.map_some, show Url.lower W.uni t!"x-xrds-location" = yadisHeader from rfl]
    exact decide_eq_true rfl

theorem answer_results (net : Str → Except PyErr Page) {α : Type} (p : Prog α) :
    ∀ g ∈ (answer (fun u _ => net u) p).1, g.result = net g.url := by
  induction p with
  | done r => intro g hg; cases hg
  | get u a k ih =>
    intro g hg
    rcases List.mem_cons.1 hg with rfl | hg
    · rfl
    · exact ih _ g hg

/-- C92: against such a site discovery does end so, for the user and for the provider. -/
theorem c92_found {W : World} (hs : FairShuffles W) {base user id : Str} (hu : id = base ++ t!"id/" ++ user)
    (hid : identifierURL W.uni id = .ok id) (hn : normalizeURL W.uni id = .ok id)
    (hib : identifierURL W.uni base = .ok base) (hnb : normalizeURL W.uni base = .ok base)
    {net : Str → Except PyErr Page} (hp : ShowsPage W id (Published.idPage base user) (net id))
    (hd : ShowsDocument W (Published.userDocument base user) (net (base ++ t!"yadis/" ++ user)))
    (hpb : ShowsPage W base (Published.mainPage base) (net base))
    (hdb : ShowsDocument W (Published.serverDocument base) (net (base ++ t!"serveryadis"))) :
    (answer (fun u _ => net u) (discoverURI W id)).2 =
      .ok (id, [⟨some id, base ++ t!"openidserver", [OPENID_2_0_TYPE, OPENID_1_0_TYPE], some id, none, true, none⟩]) ∧
    (answer (fun u _ => net u) (discoverURI W base)).2 =
      .ok (base, [⟨none, base ++ t!"openidserver", [OPENID_IDP_2_0_TYPE], none, none, true, none⟩]) :=
  ⟨(c92_user hs hu hid hn hp hd (gets_answer _ _) (answer_results net _)).2,
    (c92_server hs hib hnb hpb hdb (gets_answer _ _) (answer_results net _)).2⟩

/-- C92: what is found so agrees with what the provider asserts of this user, in both versions of OpenID. -/
theorem c92_agrees {W : Consumer.World} {id server fragment : Str} (hf : Url.urldefrag W.uni id = .ok (id, fragment)) (hne : id ≠ []) :
    Agrees W [t!"http://specs.openid.net/auth/2.0/signon"]
      ⟨some id, server, [OPENID_2_0_TYPE, OPENID_1_0_TYPE], some id, none, true, none⟩ id id ∧
    Agrees W [t!"http://openid.net/signon/1.1", t!"http://openid.net/signon/1.0"]
      ⟨some id, server, [OPENID_2_0_TYPE, OPENID_1_0_TYPE], some id, none, true, none⟩ id id := by
  have hl : localIdentifier ⟨some id, server, [OPENID_2_0_TYPE, OPENID_1_0_TYPE], some id, none, true, none⟩ =
      given (some id) := by
    cases id with
    | nil => exact (hne rfl).elim
    | cons c cs => rfl
  exact ⟨⟨⟨OPENID_2_0_TYPE, List.mem_cons_self, List.mem_cons_self⟩, ⟨id, fragment, hf, rfl⟩, hl⟩,
    ⟨⟨OPENID_1_0_TYPE, List.mem_cons_of_mem _ List.mem_cons_self, List.mem_cons_of_mem _ List.mem_cons_self⟩,
      ⟨id, fragment, hf, rfl⟩, hl⟩⟩

/-- C92: an assertion of this endpoint that the address is the user's passes the consumer's check against what was found, in both
    versions of OpenID; an assertion of another endpoint does not. -/
theorem c92_accepted {W : Consumer.World} {id server fragment : Str} (hf : Url.urldefrag W.uni id = .ok (id, fragment))
    {e : Endpoint} (he : e = ⟨some id, server, [OPENID_2_0_TYPE, OPENID_1_0_TYPE], some id, none, true, none⟩) :
    (∀ op, Consumer.verifyDiscoveredServices W [⟨[OPENID_2_0_TYPE], some id, some id, some op⟩] [e] =
      if op = server then .ok e else .error .discoveryFailure) ∧
    Consumer.verifyDiscoveredServices W [⟨[OPENID_1_1_TYPE], some id, some id, none⟩, ⟨[OPENID_1_0_TYPE], some id, some id, none⟩] [e] =
      .ok e := by
  have hl : localIdOf (some id) (some id) none = e.getLocalID := by rw [he]; rfl
  have hc : Consumer.checkClaimed W e (some id) = .ok () := by
    have hd : e.claimedId = some id := by rw [he]
    simp only [Consumer.checkClaimed, hf, ok_bind, hd, if_true]
    rfl
  have hv : e.serverUrl = server := by rw [he]
  have h2 : Consumer.checkTypes e [OPENID_2_0_TYPE] = .ok () := by rw [he]; rfl
  have h11 : Consumer.checkTypes e [OPENID_1_1_TYPE] = .error .typeURIMismatch := by rw [he]; rfl
  have h10 : Consumer.checkTypes e [OPENID_1_0_TYPE] = .ok () := by rw [he]; rfl
  have single : ∀ t u, Consumer.checkTypes e t = .ok () → Consumer.verifyDiscoverySingle W e ⟨t, some id, some id, u⟩ =
      match u with
      | none => .ok ()
      | some u => if u = server then .ok () else .error .protocolError := by
    intro t u ht
    rw [Consumer.verifyDiscoverySingle, ht, hc]
    simp only [ok_bind]
    rw [if_neg (not_not_intro hl), hv]
    rfl
  constructor
  · intro op
    rw [Consumer.verifyDiscoveredServices, Consumer.matchesAny, single _ _ h2]
    by_cases h : op = server
    · simp only [h, if_true]
      rfl
    · simp only [h, if_false]
      rfl
  · have bad : Consumer.verifyDiscoverySingle W e ⟨[OPENID_1_1_TYPE], some id, some id, none⟩ = .error .typeURIMismatch := by
      rw [Consumer.verifyDiscoverySingle, h11]
      rfl
    rw [Consumer.verifyDiscoveredServices, Consumer.matchesAny, bad]
    simp only [Consumer.matchesAny, single _ _ h10]
    rfl

/-! ### A concrete site -/

def base92 : Str := t!"http://op.example/"
def id92 : Str := t!"http://op.example/id/bob"

/-- pages and documents are told apart by their only byte -/
def disco92 : World where
  uni := uni0
  digits := fun _ => none
  xml := fun b => if b = [65] then some (Published.userDocument base92 t!"bob")
    else if b = [66] then some (Published.serverDocument base92) else none
  html := fun _ => none
  htmlText := fun s => if s = t!"C" then some (Published.idPage base92 t!"bob")
    else if s = t!"D" then some (Published.mainPage base92) else none
  htmlBytes := fun _ => none
  decode := fun _ _ => .error .lookupError
  shuffle := fun _ l => l.reverse
  shuffleURIs := fun _ l => l.reverse

def net92 (u : Str) : Except PyErr Page :=
  if u = id92 then .ok ⟨u, 200, [(t!"content-type", t!"text/html")], [67]⟩
  else if u = base92 then .ok ⟨u, 200, [(t!"content-type", t!"text/html")], [68]⟩
  else if u = t!"http://op.example/yadis/bob" then .ok ⟨u, 200, [(t!"content-type", t!"application/xrds+xml")], [65]⟩
  else if u = t!"http://op.example/serveryadis" then .ok ⟨u, 200, [(t!"content-type", t!"application/xrds+xml")], [66]⟩
  else .error .fetchingError

/-- the site meets the hypotheses of `c92_user`, `c92_server` and `c92_found` -/
example : FairShuffles disco92 ∧ id92 = base92 ++ t!"id/" ++ t!"bob" ∧
    (identifierURL disco92.uni id92 = .ok id92 ∧ normalizeURL disco92.uni id92 = .ok id92) ∧
    (identifierURL disco92.uni base92 = .ok base92 ∧ normalizeURL disco92.uni base92 = .ok base92) ∧
    ShowsPage disco92 id92 (Published.idPage base92 t!"bob") (net92 id92) ∧
    ShowsDocument disco92 (Published.userDocument base92 t!"bob") (net92 (base92 ++ t!"yadis/" ++ t!"bob")) ∧
    ShowsPage disco92 base92 (Published.mainPage base92) (net92 base92) ∧
    ShowsDocument disco92 (Published.serverDocument base92) (net92 (base92 ++ t!"serveryadis")) :=
  ⟨⟨fun _ l => List.reverse_perm l, fun _ l => List.reverse_perm l⟩, rfl, by decide +kernel, by decide +kernel,
    ⟨_, t!"C", rfl, rfl, rfl, rfl, rfl, rfl, rfl⟩, ⟨_, rfl, rfl, rfl⟩, ⟨_, t!"D", rfl, rfl, rfl, rfl, rfl, rfl, rfl⟩, ⟨_, rfl, rfl, rfl⟩⟩

example : (answer (fun u _ => net92 u) (discoverURI disco92 id92)).1.map (·.url) = [id92, t!"http://op.example/yadis/bob"] ∧
    (answer (fun u _ => net92 u) (discoverURI disco92 id92)).2 = .ok (id92, [⟨some id92, t!"http://op.example/openidserver",
      [OPENID_2_0_TYPE, OPENID_1_0_TYPE], some id92, none, true, none⟩]) := by decide +kernel

example : (answer (fun u _ => net92 u) (discoverURI disco92 base92)).1.map (·.url) = [base92, t!"http://op.example/serveryadis"] ∧
    (answer (fun u _ => net92 u) (discoverURI disco92 base92)).2 = .ok (base92, [⟨none, t!"http://op.example/openidserver",
      [OPENID_IDP_2_0_TYPE], none, none, true, none⟩]) := by decide +kernel

/-- the address is the one that the provider answers for (`C74`) -/
example : Published.userUrl = Provider.idUrl := rfl

/-- the hypotheses of `c92_agrees` and of `c92_accepted` -/
example : Url.urldefrag uni0 id92 = .ok (id92, []) ∧ id92 ≠ [] := by decide +kernel

end Props
