import Verif.Spec.Beginning
import Verif.Props.ConsumerAssociate
import Verif.Props.Visitor
/-! # C91: what the beginning of a login does outside, whatever comes of it -/

namespace Props
open Py Message Association Cryptutil Store Discover Consumer Spec

theorem beforeDiscovery_remaining {s : UserSession} {url : Str} :
    (Manager.beforeDiscovery s.manager url = none ∧ remaining s url = []) ∨
    ∃ m e rest, s.manager = some m ∧ remaining s url = e :: rest ∧
      Manager.beforeDiscovery s.manager url = some (some e, some { m with services := rest, current := some e }) := by
  unfold Manager.beforeDiscovery Manager.getManager remaining
  cases s.manager with
  | none => exact .inl ⟨rfl, rfl⟩
  | some m =>
    by_cases hu : url = m.startingUrl ∨ url = m.yadisUrl
    · cases hs : m.services with
      | nil => left; simp [Manager.Manager.forURL, hu, Manager.Manager.truthy, hs]
      | cons e rest => right; exact ⟨m, e, rest, by simp [Manager.Manager.forURL, hu, Manager.Manager.truthy, hs, Manager.takeNext]⟩
    · left; simp [Manager.Manager.forURL, hu]

theorem afterDiscovery_offers {s : UserSession} {url y : Str} {services : List Endpoint} (hr : remaining s url = []) :
    (services = [] ∧ ∃ m, Manager.afterDiscovery s.manager url y services = .ok (none, m)) ∨
    ∃ e rest, services = e :: rest ∧
      Manager.afterDiscovery s.manager url y services = .ok (some e, some ⟨url, y, rest, some e⟩) := by
  have hd : Manager.truthyOpt (Manager.getManager (Manager.dropEmpty s.manager url) url false) = false := by
    unfold remaining at hr
    unfold Manager.dropEmpty
    cases hm : s.manager with
    | none => rfl
    | some m =>
      rw [hm] at hr
      by_cases hu : url = m.startingUrl ∨ url = m.yadisUrl
      · simp only [if_pos hu] at hr
        simp [Manager.getManager, Manager.Manager.forURL, hu, Manager.Manager.truthy, hr, Manager.destroyManager, Manager.truthyOpt]
      · simp [Manager.getManager, Manager.Manager.forURL, hu, Manager.truthyOpt]
  unfold Manager.afterDiscovery Manager.createManager
  rw [hd]
  cases services with
  | nil => exact .inl ⟨rfl, _, rfl⟩
  | cons e rest => exact .inr ⟨e, rest, rfl, rfl⟩

/-- what comes of `getNextService` -/
theorem getNextService_calls {s : UserSession} {url : Str} {evs : List Ev}
    {r : Except Err (UserSession × Except Err (Option Endpoint))} (h : Runs (getNextService s url) evs r) :
    AtMostOne (fun ev => remaining s url = [] ∧ ∃ o, ev = .discover url o) evs ∧
    ∃ s' o, r = .ok (s', o) ∧ s'.token = s.token ∧
      ((∃ x, o = .error x) ∨ (o = .ok none ∧ Offered s url evs []) ∨
        ∃ e rest, o = .ok (some e) ∧ Offered s url evs (e :: rest) ∧ remaining s' url = rest) := by
  rw [getNextService] at h
  rcases beforeDiscovery_remaining (s := s) (url := url) with ⟨h1, h2⟩ | ⟨m, e, rest, hm, h2, h1⟩
  · rw [h1] at h
    simp only [runs_handle] at h
    obtain ⟨e1, e2, o, rfl, h3, h4⟩ := h
    obtain ⟨o', rfl, rfl⟩ := runs_discover.1 h3
    cases o' with
    | error x =>
      obtain ⟨rfl, rfl⟩ := h4
      exact ⟨.inr ⟨_, rfl, h2, _, rfl⟩, _, _, rfl, rfl, .inl ⟨_, rfl⟩⟩
    | ok p =>
      obtain ⟨y, services⟩ := p
      rcases afterDiscovery_offers (y := y) (services := services) h2 with ⟨rfl, m, h5⟩ | ⟨e, rest, rfl, h5⟩
      · simp only [lift, h5] at h4
        obtain ⟨rfl, rfl⟩ := h4
        exact ⟨.inr ⟨_, rfl, h2, _, rfl⟩, _, _, rfl, rfl, .inr (.inl ⟨rfl, .inr ⟨h2, y, rfl⟩⟩)⟩
      · simp only [lift, h5] at h4
        obtain ⟨rfl, rfl⟩ := h4
        exact ⟨.inr ⟨_, rfl, h2, _, rfl⟩, _, _, rfl, rfl, .inr (.inr ⟨e, rest, rfl, .inr ⟨h2, y, rfl⟩, by simp [remaining]⟩)⟩
  · rw [h1] at h
    obtain ⟨rfl, rfl⟩ := h
    refine ⟨.inl rfl, _, _, rfl, rfl, .inr (.inr ⟨e, rest, rfl, .inl ⟨rfl, h2, by simp⟩, ?_⟩)⟩
    unfold remaining at h2 ⊢
    rw [hm] at h2
    simp only at h2 ⊢
    split at h2
    · next hu => rw [if_pos hu]
    · cases h2

/-- the calls of `genericBegin` -/
theorem genericBegin_calls {W : World} {C : Conf} {E : Consumer.Env} {e : Endpoint} {evs : List Ev} {r : Except Err AuthRequest}
    (h : Runs (genericBegin W C E e) evs r) : ∃ looked asked kept, evs = looked ++ asked ++ kept ∧
      AtMostOne (fun ev => C.hasStore = true ∧ ∃ o, ev = .store (.getAssociation e.serverUrl none) o) looked ∧
      (asked.length ≤ 2 ∧ ∀ ev ∈ asked, ∃ body o, ev = .post e.serverUrl body o) ∧
      (asked = [] ∨ ∃ a, looked = [.store (.getAssociation e.serverUrl none) (.ok (.assoc a))] ∧
        ∀ x, a = some x → ¬ 0 < x.getExpiresIn (E.seconds W)) ∧
      AtMostOne (fun ev => ∃ a o, ev = .store (.storeAssociation e.serverUrl a) o ∧
        ∃ body reply p, .post e.serverUrl body reply ∈ asked ∧ p ∈ C.negotiator ∧ Granted W E p.2 body reply a) kept := by
  have key : ∀ {evs r}, Runs (associationFor W C E e) evs r → ∃ looked asked kept, evs = looked ++ asked ++ kept ∧
      AtMostOne (fun ev => C.hasStore = true ∧ ∃ o, ev = .store (.getAssociation e.serverUrl none) o) looked ∧
      (asked.length ≤ 2 ∧ ∀ ev ∈ asked, ∃ body o, ev = .post e.serverUrl body o) ∧
      (asked = [] ∨ ∃ a, looked = [.store (.getAssociation e.serverUrl none) (.ok (.assoc a))] ∧
        ∀ x, a = some x → ¬ 0 < x.getExpiresIn (E.seconds W)) ∧
      AtMostOne (fun ev => ∃ a o, ev = .store (.storeAssociation e.serverUrl a) o ∧
        ∃ body reply p, .post e.serverUrl body reply ∈ asked ∧ p ∈ C.negotiator ∧ Granted W E p.2 body reply a) kept := by
    intro evs r h
    unfold associationFor at h
    split at h
    case isFalse =>
      obtain ⟨rfl, -⟩ := h
      exact ⟨[], [], [], rfl, .inl rfl, by simp, .inl rfl, .inl rfl⟩
    case isTrue hC =>
      rw [getAssociation, runs_bind] at h
      rcases h with ⟨e1, e2, a, rfl, h1, h2⟩ | ⟨x, rfl, h1⟩
      case inr =>
        obtain ⟨o, rfl⟩ := runs_fetchAssoc h1
        exact ⟨_, [], [], by simp, .inr ⟨_, rfl, hC, o, rfl⟩, by simp, .inl rfl, .inl rfl⟩
      case inl =>
        have hl := runs_fetchAssoc_ok.1 h1
        subst hl
        split at h2
        · obtain ⟨rfl, -⟩ := h2
          exact ⟨_, [], [], by simp; rfl, .inr ⟨_, rfl, hC, _, rfl⟩, by simp, .inl rfl, .inl rfl⟩
        · next hu =>
          have hneed : ∀ x, a = some x → ¬ 0 < x.getExpiresIn (E.seconds W) := by
            rintro x rfl hx
            exact hu (by simp [usable, hx])
          rw [negotiateAndStore, runs_bind] at h2
          rcases h2 with ⟨e3, e4, b, rfl, h3, h4⟩ | ⟨x, rfl, h3⟩
          · obtain ⟨g1, g2, g3⟩ := runs_negotiate h3
            have g2' : ∀ ev ∈ e3, ∃ body o, ev = .post e.serverUrl body o := fun ev hev => by
              obtain ⟨body, o, p, -, h, -⟩ := g2 ev hev; exact ⟨body, o, h⟩
            cases b with
            | none =>
              obtain ⟨rfl, -⟩ := h4
              exact ⟨_, e3, [], by simp, .inr ⟨_, rfl, hC, _, rfl⟩, ⟨g1, g2'⟩, .inr ⟨a, rfl, hneed⟩, .inl rfl⟩
            | some b =>
              obtain ⟨body, reply, p, hp, hm, -, hg⟩ := g3 b rfl
              have h4' : ∃ o, e4 = [.store (.storeAssociation e.serverUrl b) o] := by
                simp only [runs_bind] at h4
                rcases h4 with ⟨e5, e6, u, rfl, h5, h6⟩ | ⟨x, -, h5⟩
                · obtain ⟨rfl, -⟩ := h6
                  rw [List.append_nil]
                  exact runs_putAssoc h5
                · exact runs_putAssoc h5
              obtain ⟨o, rfl⟩ := h4'
              exact ⟨_, e3, _, by simp, .inr ⟨_, rfl, hC, _, rfl⟩, ⟨g1, g2'⟩, .inr ⟨a, rfl, hneed⟩,
                .inr ⟨_, rfl, b, o, rfl, body, reply, p, hm, hp, hg⟩⟩
          · obtain ⟨g1, g2, -⟩ := runs_negotiate h3
            have g2' : ∀ ev ∈ e2, ∃ body o, ev = .post e.serverUrl body o := fun ev hev => by
              obtain ⟨body, o, p, -, h, -⟩ := g2 ev hev; exact ⟨body, o, h⟩
            exact ⟨_, e2, [], by simp, .inr ⟨_, rfl, hC, _, rfl⟩, ⟨g1, g2'⟩, .inr ⟨a, rfl, hneed⟩, .inl rfl⟩
  rw [genericBegin, runs_bind] at h
  rcases h with ⟨e1, e2, a, rfl, h1, h2⟩ | ⟨x, rfl, h1⟩
  · have : e2 = [] := by
      rcases (runs_py_bind _ _ _ _).1 h2 with ⟨_, _, h3⟩ | ⟨_, _, _, h3⟩
      · exact h3.1
      · exact h3
    subst this
    rw [List.append_nil]
    exact key h1
  · exact key h1

theorem genericBegin_endpoint {W : World} {C : Conf} {E : Consumer.Env} {e : Endpoint} {evs : List Ev} {q : AuthRequest}
    (h : Runs (genericBegin W C E e) evs (.ok q)) : q.endpoint = e := by
  rw [genericBegin, runs_bind] at h
  rcases h with ⟨e1, e2, a, rfl, h1, h2⟩ | ⟨x, hx, -⟩
  · rcases (runs_py_bind _ _ _ _).1 h2 with ⟨r, h3, h4⟩ | ⟨_, _, h3, _⟩
    · obtain ⟨-, h4⟩ := h4
      cases h4
      unfold AuthRequest.new at h3
      cases hm : Msg.new (some e.preferredNamespace) with
      | error x => rw [hm] at h3; cases h3
      | ok m => rw [hm] at h3; cases h3; rfl
    · cases h3
  · cases hx

/-- C91: the calls of a beginning, in their order, whatever comes of it. -/
theorem c91_calls {W : World} {C : Conf} {E : Consumer.Env} {s : UserSession} {url : Str} {anonymous : Bool} {evs : List Ev}
    {r : Except Err (UserSession × Except Err AuthRequest)} (h : Runs (begin W C E s url anonymous) evs r) :
    ∃ server found looked asked kept, evs = found ++ looked ++ asked ++ kept ∧
      Begun W C E s url server found looked asked kept := by
  rw [begin, runs_bind] at h
  rcases h with ⟨e1, e2, a, rfl, h1, h2⟩ | ⟨x, rfl, h1⟩
  case inr =>
    obtain ⟨-, _, _, hr, -⟩ := getNextService_calls h1
    cases hr
  obtain ⟨hf, s', o, ha, -, ho⟩ := getNextService_calls h1
  cases ha
  have none2 : e2 = [] → ∃ server found looked asked kept, e1 ++ e2 = found ++ looked ++ asked ++ kept ∧
      Begun W C E s url server found looked asked kept := by
    rintro rfl
    exact ⟨[], e1, [], [], [], by simp, hf, .inl rfl, .inl rfl, by simp, .inl rfl, .inl rfl⟩
  rcases ho with ⟨x, rfl⟩ | ⟨rfl, -⟩ | ⟨e, rest, rfl, hoff, -⟩
  · exact none2 h2.1
  · exact none2 h2.1
  · simp only [beginWith, beginWithoutDiscovery, runs_handle] at h2
    obtain ⟨e3, e4, o, rfl, h3, h4⟩ := h2
    have : e4 = [] := by split at h4 <;> exact h4.1
    subst this
    obtain ⟨looked, asked, kept, rfl, g1, g2, g3, g4⟩ := genericBegin_calls h3
    exact ⟨e.serverUrl, e1, looked, asked, kept, by simp, hf, .inr ⟨e, rest, hoff, rfl⟩, g1, g2, g3, g4⟩

/-- C91: beginning spends no nonce and removes no association. -/
theorem c91_keeps {W : World} {C : Conf} {E : Consumer.Env} {s : UserSession} {url : Str} {anonymous : Bool} {evs : List Ev}
    {r : Except Err (UserSession × Except Err AuthRequest)} (h : Runs (begin W C E s url anonymous) evs r) :
    ∀ op o, .store op o ∈ evs → (∃ server, op = .getAssociation server none) ∨ ∃ server a, op = .storeAssociation server a := by
  obtain ⟨server, found, looked, asked, kept, rfl, hb⟩ := c91_calls h
  intro op o hm
  simp only [List.mem_append] at hm
  rcases hm with ((hm | hm) | hm) | hm
  · rcases hb.discovery with rfl | ⟨ev, rfl, -, o', rfl⟩ <;> simp at hm
  · rcases hb.lookup with rfl | ⟨ev, rfl, -, o', rfl⟩
    · simp at hm
    · simp at hm; exact .inl ⟨server, hm.1⟩
  · obtain ⟨body, o', h⟩ := hb.requests.2 _ hm; cases h
  · rcases hb.storing with rfl | ⟨ev, rfl, a, o', rfl, -⟩
    · simp at hm
    · simp at hm; exact .inr ⟨server, a, hm.1⟩

/-- C91: a beginning ends with a session: nothing else leaves it.  If it returns a request, this is for the first of the services
    that were offered, the endpoint is pending, and the others are there for the next time. -/
theorem c91_session {W : World} {C : Conf} {E : Consumer.Env} {s : UserSession} {url : Str} {anonymous : Bool} {evs : List Ev}
    {r : Except Err (UserSession × Except Err AuthRequest)} (h : Runs (begin W C E s url anonymous) evs r) :
    ∃ s' o, r = .ok (s', o) ∧ (s'.token = s.token ∨ ∃ found e rest, found <+: evs ∧ Offered s url found (e :: rest) ∧
        s'.token = some e) ∧
      ∀ req, o = .ok req → ∃ found rest, found <+: evs ∧ Offered s url found (req.endpoint :: rest) ∧
        s'.token = some req.endpoint ∧ remaining s' url = rest := by
  rw [begin, runs_bind] at h
  rcases h with ⟨e1, e2, a, rfl, h1, h2⟩ | ⟨x, rfl, h1⟩
  case inr =>
    obtain ⟨-, _, _, hr, -⟩ := getNextService_calls h1
    cases hr
  obtain ⟨-, s', o, ha, ht, ho⟩ := getNextService_calls h1
  cases ha
  rcases ho with ⟨x, rfl⟩ | ⟨rfl, -⟩ | ⟨e, rest, rfl, hoff, hrest⟩
  · obtain ⟨rfl, rfl⟩ := h2
    exact ⟨_, _, rfl, .inl ht, nofun⟩
  · obtain ⟨rfl, rfl⟩ := h2
    exact ⟨_, _, rfl, .inl ht, nofun⟩
  · simp only [beginWith, beginWithoutDiscovery, runs_handle] at h2
    obtain ⟨e3, e4, o, rfl, h3, h4⟩ := h2
    cases o with
    | error x =>
      obtain ⟨rfl, rfl⟩ := h4
      exact ⟨_, _, rfl, .inl ht, nofun⟩
    | ok q =>
      have hq : q.endpoint = e := genericBegin_endpoint h3
      obtain ⟨rfl, rfl⟩ := h4
      refine ⟨_, _, rfl, .inr ⟨e1, e, rest, List.prefix_append _ _, hoff, by rw [hq]⟩, fun req hreq => ?_⟩
      have he : req.endpoint = e := by
        rw [← hq]
        unfold anonymousOr AuthRequest.setAnonymous at hreq
        split at hreq
        · next r' hr' =>
          cases hreq
          split at hr' <;> cases hr'
          rfl
        · split at hreq <;> cases hreq
      exact ⟨e1, rest, List.prefix_append _ _, by rw [he]; exact hoff, by rw [he, hq], hrest⟩

/-- C91: in the example relying party, whoever asks for a login (or is made to) spends no nonce and removes no association. -/
theorem c91_visit {W : World} {C : Conf} {E : Consumer.Env} {S : Visitor.Setup} {ss : Visitor.Sessions} {fresh : Str}
    {cookie : Option Str} {q : Dict Str Str} {evs : List Ev} {r : Except Err (Visitor.Sessions × Visitor.Reply)}
    (h : Runs (Visitor.visit W C E S ss fresh ⟨cookie, .verify q⟩) evs r) :
    ∀ op o, .store op o ∈ evs → (∃ server, op = .getAssociation server none) ∨ ∃ server a, op = .storeAssociation server a := by
  obtain ⟨o, h, -⟩ := visit_runs.1 h
  simp only [Visitor.answer, Visitor.doVerify] at h
  split at h
  · obtain ⟨rfl, -⟩ := h; simp
  · obtain ⟨rfl, -⟩ := h; simp
  · rw [runs_bind] at h
    rcases h with ⟨e1, e2, a, rfl, h1, h2⟩ | ⟨x, rfl, h1⟩
    · obtain ⟨rfl, -⟩ := h2
      rw [List.append_nil]
      exact c91_keeps h1
    · exact c91_keeps h1

/-! ## Beginnings -/

def otherEndpoint0 : Endpoint := { endpoint0 with serverUrl := t!"http://op2.example/" }

/-- what a beginning returned: the server of the request, and the servers that are left -/
def begunWith0 : Option (Except Err (UserSession × Except Err AuthRequest)) → Option (Str × List Str)
  | some (.ok (s, .ok r)) => some (r.endpoint.serverUrl, (remaining s t!"http://u.example/").map (·.serverUrl))
  | _ => none

def begunSession0 : Option (Except Err (UserSession × Except Err AuthRequest)) → UserSession
  | some (.ok (s, _)) => s
  | _ => ⟨none, none⟩

def begunEvs0 : List Ev :=
  [.discover t!"http://u.example/" (.ok (t!"http://u.example/", [endpoint0, otherEndpoint0])),
   .store (.getAssociation t!"http://op.example/" none) (.ok (.assoc (some cassoc0)))]

-- discovery finds two services, and the first is used; the second is left
example : begunWith0 (play (begin cworld0 cconf0 cenv0 ⟨none, none⟩ t!"http://u.example/" false) begunEvs0) =
    some (t!"http://op.example/", [t!"http://op2.example/"]) := by decide +kernel

-- the second is used next, without discovery
example : begunWith0 (play (begin cworld0 cconf0 cenv0
      (begunSession0 (play (begin cworld0 cconf0 cenv0 ⟨none, none⟩ t!"http://u.example/" false) begunEvs0))
      t!"http://u.example/" false) [.store (.getAssociation t!"http://op2.example/" none) (.ok (.assoc (some cassoc0)))]) =
    some (t!"http://op2.example/", []) := by decide +kernel

-- the provider cannot be reached: the request is made without an association, and nothing is stored
example : ∃ body, begunWith0 (play (begin cworld0 cconf0 cenv0 ⟨none, none⟩ t!"http://u.example/" false)
      [.discover t!"http://u.example/" (.ok (t!"http://u.example/", [endpoint0])),
       .store (.getAssociation t!"http://op.example/" none) (.ok (.assoc none)),
       .post t!"http://op.example/" body (.error .fetchingError)]) = some (t!"http://op.example/", []) := by
  refine ⟨(match createAssociateRequest cworld0 cenv0.priv1 endpoint0 (cconf0.negotiator.headD ([], [])).1
    (cconf0.negotiator.headD ([], [])).2 with | .ok (_, m) => m.toURLEncoded | .error _ => []), ?_⟩
  decide +kernel

end Props
