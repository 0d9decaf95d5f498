import Verif.Spec.Visitor
import Verif.Props.Completion
import Verif.Props.Replay
/-! # C90: a relying party with visitors -/

namespace Props
open Py Message Store Discover Consumer Spec Visitor

theorem complete_returns {W : World} {C : Conf} {E : Consumer.Env} {s : UserSession} {q : Dict Str Str} {current : Str}
    {evs : List Ev} {x : Err} (h : Consumer.Runs (complete W C E s q current) evs (.error x)) : False := by
  rw [complete] at h
  split at h
  · simp at h
  · rw [runs_handle] at h
    obtain ⟨_, _, o, _, _, h2⟩ := h
    cases o <;> simp at h2

/-- what `beginWithoutDiscovery` leaves pending is the endpoint of the request it returns -/
theorem beginWithout_cases {W : World} {C : Conf} {E : Consumer.Env} {s : UserSession} {e : Endpoint} {evs : List Ev}
    {o : Except Err (UserSession × Except Err AuthRequest)}
    (h : Consumer.Runs (beginWithoutDiscovery W C E s e false) evs o) :
    (∃ x, o = .ok (s, .error x)) ∨ ∃ r, o = .ok ({ s with token := some r.endpoint }, .ok r) := by
  rw [beginWithoutDiscovery, runs_handle] at h
  obtain ⟨_, _, o', _, _, h2⟩ := h
  cases o' with
  | error x => exact .inl ⟨x, h2.2.symm⟩
  | ok r => exact .inr ⟨{ r with anonymous := false }, h2.2.symm⟩

theorem begin_cases {W : World} {C : Conf} {E : Consumer.Env} {s : UserSession} {url : Str} {evs : List Ev}
    {o : Except Err (UserSession × Except Err AuthRequest)} (h : Consumer.Runs (begin W C E s url false) evs o) :
    ∃ s', s'.token = s.token ∧ ((∃ x, o = .ok (s', .error x)) ∨ ∃ r, o = .ok ({ s' with token := some r.endpoint }, .ok r)) := by
  rw [begin, runs_bind] at h
  have hn : ∀ {evs o}, Consumer.Runs (getNextService s url) evs o → ∃ s' r, o = .ok (s', r) ∧ s'.token = s.token := by
    intro evs o h
    rw [getNextService] at h
    split at h
    · exact ⟨_, _, h.2.symm, rfl⟩
    · rw [runs_handle] at h
      obtain ⟨_, _, o', _, _, h2⟩ := h
      cases o' with
      | error x => exact ⟨_, _, h2.2.symm, rfl⟩
      | ok r =>
        simp only at h2
        split at h2 <;> exact ⟨_, _, h2.2.symm, rfl⟩
  rcases h with ⟨e1, e2, a, rfl, h1, h2⟩ | ⟨x, rfl, h1⟩
  · obtain ⟨s', r, ha, ht⟩ := hn h1
    cases ha
    refine ⟨s', ht, ?_⟩
    rcases r with x | (_ | e)
    · exact .inl ⟨_, h2.2.symm⟩
    · exact .inl ⟨_, h2.2.symm⟩
    · exact beginWithout_cases h2
  · obtain ⟨s', r, ha, -⟩ := hn h1
    cases ha

/-- what the program does with a visit, and what becomes of the session -/
theorem answer_cases {W : World} {C : Conf} {E : Consumer.Env} {S : Setup} {s : UserSession} {path : Path} {evs : List Ev}
    {o : Except Err (UserSession × Page)} (h : Consumer.Runs (answer W C E S s path) evs o) :
    (∃ q, path = .verify q ∧ o = .ok (s, .page t!"Enter an OpenID Identifier to verify." none none none)) ∨
    (∃ q url s' r, path = .verify q ∧ q.get? t!"openid_identifier" = some url ∧ url ≠ [] ∧ o = .ok (s', verifyPage S q url r) ∧
      (s'.token = s.token ∨ ∃ req, r = .ok req ∧ s'.token = some req.endpoint)) ∨
    (∃ q p, path = .process q none p ∧ o = .ok (s, .trouble)) ∨
    (∃ q host p s' r, path = .process q (some host) p ∧ o = .ok (s', processPage W S r) ∧
      Consumer.Runs (complete W C E s q (t!"http://" ++ host ++ p)) evs (.ok (s', r))) := by
  cases path with
  | verify q =>
    rw [answer, doVerify] at h
    split at h
    · exact .inl ⟨q, rfl, h.2.symm⟩
    · exact .inl ⟨q, rfl, h.2.symm⟩
    · next url hne hurl =>
      refine .inr (.inl ?_)
      rw [runs_bind] at h
      rcases h with ⟨e1, e2, a, rfl, h1, h2⟩ | ⟨x, rfl, h1⟩
      · obtain ⟨s', ht, ⟨x, ha⟩ | ⟨r, ha⟩⟩ := begin_cases h1
        · cases ha
          exact ⟨q, url, s', _, rfl, hurl, hne, h2.2.symm, .inl ht⟩
        · cases ha
          exact ⟨q, url, _, _, rfl, hurl, hne, h2.2.symm, .inr ⟨r, rfl, rfl⟩⟩
      · obtain ⟨s', ht, ⟨x, ha⟩ | ⟨r, ha⟩⟩ := begin_cases h1 <;> cases ha
  | process q host p =>
    cases host with
    | none => exact .inr (.inr (.inl ⟨q, p, rfl, h.2.symm⟩))
    | some host =>
      simp only [answer, doProcess] at h
      refine .inr (.inr (.inr ?_))
      rw [runs_bind] at h
      rcases h with ⟨e1, e2, ⟨s', r⟩, rfl, h1, rfl, h2⟩ | ⟨x, rfl, h1⟩
      · exact ⟨q, host, p, s', r, rfl, h2.symm, by simpa using h1⟩
      · exact (complete_returns h1).elim

theorem visit_runs {W : World} {C : Conf} {E : Consumer.Env} {S : Setup} {ss : Sessions} {fresh : Str} {v : Visit}
    {evs : List Ev} {r : Except Err (Sessions × Visitor.Reply)} :
    Consumer.Runs (visit W C E S ss fresh v) evs r ↔
      ∃ o, Consumer.Runs (answer W C E S (sessionOf ss (sidOf fresh v)) v.path) evs o ∧
      r = o.map fun p => (ss.set (sidOf fresh v) p.1, withCookie (sidOf fresh v) p.2) := by
  rw [visit, runs_bind]
  constructor
  · rintro (⟨e1, e2, ⟨s, p⟩, rfl, h1, rfl, h2⟩ | ⟨x, rfl, h1⟩)
    · exact ⟨.ok (s, p), by simpa using h1, h2.symm⟩
    · exact ⟨.error x, h1, rfl⟩
  · rintro ⟨o, h1, rfl⟩
    cases o with
    | error x => exact .inr ⟨x, rfl, h1⟩
    | ok p => exact .inl ⟨evs, [], p, by simp, h1, rfl, rfl⟩

theorem withCookie_page (sid : Str) (p : Page) : (withCookie sid p).page = p := by cases p <;> rfl

/-- C90: a visit always ends in a page; whatever is raised below it becomes one. -/
theorem c90_page {W : World} {C : Conf} {E : Consumer.Env} {S : Setup} {ss : Sessions} {fresh : Str} {v : Visit}
    {evs : List Ev} {r : Except Err (Sessions × Visitor.Reply)} (h : Consumer.Runs (visit W C E S ss fresh v) evs r) :
    ∃ ss' reply, r = .ok (ss', reply) := by
  obtain ⟨o, hr, rfl⟩ := visit_runs.1 h
  rcases answer_cases hr with ⟨_, _, rfl⟩ | ⟨_, _, _, _, _, _, _, rfl, _⟩ | ⟨_, _, _, rfl⟩ | ⟨_, _, _, _, _, _, rfl, _⟩ <;>
    exact ⟨_, _, rfl⟩

/-- C90: a visit changes no session but that of its cookie (or the new one), and what is shown depends on no other. -/
theorem c90_own {W : World} {C : Conf} {E : Consumer.Env} {S : Setup} {ss ss' : Sessions} {fresh : Str} {v : Visit}
    {evs : List Ev} {reply : Visitor.Reply} (h : Consumer.Runs (visit W C E S ss fresh v) evs (.ok (ss', reply))) :
    (∀ k, k ≠ v.cookie.getD fresh → ss'.get? k = ss.get? k) ∧
    ∀ other : Sessions, other.get? (v.cookie.getD fresh) = ss.get? (v.cookie.getD fresh) →
      ∃ other', Consumer.Runs (visit W C E S other fresh v) evs (.ok (other', reply)) ∧
        other'.get? (v.cookie.getD fresh) = ss'.get? (v.cookie.getD fresh) := by
  obtain ⟨o, h, ho⟩ := visit_runs.1 h
  cases o with
  | error x => cases ho
  | ok p =>
    simp only [Except.map, Except.ok.injEq, Prod.mk.injEq] at ho
    obtain ⟨rfl, rfl⟩ := ho
    refine ⟨fun k hk => ?_, fun other hother => ?_⟩
    · rw [Dict.get?_set, if_neg (fun h => hk h.symm)]
    · refine ⟨other.set (sidOf fresh v) p.1, visit_runs.2 ⟨.ok p, ?_, rfl⟩, ?_⟩
      · rwa [show sessionOf other (sidOf fresh v) = sessionOf ss (sidOf fresh v) from by
          rw [sessionOf, sessionOf, show other.get? (sidOf fresh v) = ss.get? (sidOf fresh v) from hother]]
      · show (other.set (v.cookie.getD fresh) p.1).get? _ = (ss.set (v.cookie.getD fresh) p.1).get? _
        rw [Dict.get?_set, Dict.get?_set, if_pos rfl, if_pos rfl]

theorem verifyPage_silent {S : Setup} {q : Dict Str Str} {url : Str} {r : Except Err AuthRequest} :
    ¬ SaysVerified (verifyPage S q url r) := by
  rintro ⟨msg, c, a, b, h, hp⟩
  unfold verifyPage at h
  split at h
  · cases h; simp at hp
  · cases h
  · rw [sendOn] at h
    revert h
    cases extendIf q t!"use_sreg" registration _ with
    | error x => intro h; cases h
    | ok r1 =>
      simp only [ok_bind]
      cases extendIf q t!"use_pape" policies r1 with
      | error x => intro h; cases h
      | ok r2 =>
        simp only [ok_bind]
        split
        · cases r2.redirectURL _ _ _ <;> (intro h; cases h)
        · cases r2.htmlMarkup _ _ _ _ _ <;> (intro h; cases h)

theorem processPage_says {W : World} {S : Setup} {r : Except Err Consumer.Response} (hs : SaysVerified (processPage W S r)) :
    ∃ e m signed, r = .ok (.success e m signed) := by
  obtain ⟨msg, c, sr, pa, hp, hs⟩ := hs
  cases r with
  | error x => cases hp
  | ok info =>
    simp only [processPage, infoPage] at hp
    cases hd : info.getDisplayIdentifier W.uni with
    | error x => rw [hd] at hp; cases hp
    | ok id =>
      rw [hd] at hp
      simp only [ok_bind] at hp
      cases info with
      | failure e rep =>
        simp only at hp
        split at hp <;> (simp only [orTrouble, pure_eq_ok] at hp; cases hp; simp at hs)
      | cancel e => simp only [orTrouble, pure_eq_ok] at hp; cases hp; simp at hs
      | setupNeeded e u =>
        simp only at hp
        split at hp <;> (simp only [orTrouble, pure_eq_ok] at hp; cases hp; simp at hs)
      | success e m signed => exact ⟨e, m, signed, rfl⟩

/-- C90: a visitor is told that an identifier was verified only if the response in this very visit passed every check of C37
    against the visitor's own session, and the identifier named is the one that was asserted. -/
theorem c90_verified {W : World} {C : Conf} {E : Consumer.Env} {S : Setup} {ss ss' : Sessions} {fresh : Str} {v : Visit}
    {evs : List Ev} {reply : Visitor.Reply} (hq : ∀ q host path, v.path = .process q host path → Dict.WF q)
    (h : Consumer.Runs (visit W C E S ss fresh v) evs (.ok (ss', reply))) (hs : SaysVerified reply.page) :
    ∃ q host path e m signed id, v.path = .process q (some host) path ∧
      Verified W C E ((ss.get? (v.cookie.getD fresh)).bind (·.token)) q (t!"http://" ++ host ++ path) evs e m signed ∧
      e.getDisplayIdentifier W.uni = .ok (some id) ∧
      ∃ contents sreg pape, reply.page = .page (t!"You have successfully verified " ++ escape false id ++
        t!" as your identity." ++ canonicalPart e.canonicalID) contents sreg pape := by
  obtain ⟨o, h, ho⟩ := visit_runs.1 h
  have hsess : ((ss.get? (v.cookie.getD fresh)).bind (·.token)) = (sessionOf ss (sidOf fresh v)).token := by
    rw [sessionOf, sidOf]
    cases ss.get? (v.cookie.getD fresh) <;> rfl
  rw [hsess]
  rcases answer_cases h with ⟨_, _, rfl⟩ | ⟨_, _, _, _, _, _, _, rfl, _⟩ | ⟨_, _, _, rfl⟩ | ⟨q, host, path, s', r, hv, rfl, hr⟩
  all_goals
    simp only [Except.map, Except.ok.injEq, Prod.mk.injEq] at ho
    obtain ⟨-, rfl⟩ := ho
    rw [withCookie_page] at hs
  · obtain ⟨_, _, _, _, hp, hs⟩ := hs
    cases hp
    simp at hs
  · exact absurd hs verifyPage_silent
  · obtain ⟨_, _, _, _, hp, _⟩ := hs
    cases hp
  · rw [withCookie_page]
    obtain ⟨msg, c, sr, pa, hp, hs⟩ := hs
    cases r with
    | error x => cases hp
    | ok info =>
      simp only [processPage, infoPage] at hp
      cases hd : info.getDisplayIdentifier W.uni with
      | error x => rw [hd] at hp; cases hp
      | ok id =>
        rw [hd] at hp
        simp only [ok_bind] at hp
        cases info with
        | failure e rep =>
          simp only at hp
          split at hp <;> (simp only [orTrouble, pure_eq_ok] at hp; cases hp; simp at hs)
        | cancel e => simp only [orTrouble, pure_eq_ok] at hp; cases hp; simp at hs
        | setupNeeded e u =>
          simp only at hp
          split at hp <;> (simp only [orTrouble, pure_eq_ok] at hp; cases hp; simp at hs)
        | success e m signed =>
          cases id with
          | none => cases hp
          | some id =>
            refine ⟨q, host, path, e, m, signed, id, hv, c37_success (hq q _ _ hv) hr, hd, ?_⟩
            simp only [processPage, infoPage, hd, ok_bind, verifiedPage] at hp ⊢
            cases hsr : Sreg.fromSuccessResponse m signed true with
            | error x => rw [hsr] at hp; cases hp
            | ok y =>
              rw [hsr] at hp
              simp only [ok_bind] at hp ⊢
              cases hpa : Pape.Response.fromSuccessResponse W.digits y.1 signed with
              | error x => rw [hpa] at hp; cases hp
              | ok z => exact ⟨_, _, _, rfl⟩

/-- C90: what is pending in a session was put there by a visit of that session that asked for an identifier to be verified. -/
theorem c90_pending {W : World} {C : Conf} {past : List Visited} {ss : Sessions} (h : Reached W C past ss) :
    ∀ sid s e, ss.get? sid = some s → s.token = some e →
      ∃ v ∈ past, v.sid = sid ∧ ∃ q url, v.visit.path = .verify q ∧ q.get? t!"openid_identifier" = some url ∧ url ≠ [] := by
  induction h with
  | start => intro sid s e h; simp at h
  | @visit past ss ss' v _ hrun ih =>
    intro sid s e hs he
    obtain ⟨o, h, ho⟩ := visit_runs.1 hrun
    by_cases hsid : v.sid = sid
    case neg =>
      rw [(c90_own hrun).1 sid (fun h => hsid h.symm)] at hs
      obtain ⟨w, hw, hrest⟩ := ih sid s e hs he
      exact ⟨w, List.mem_append_left _ hw, hrest⟩
    have hold : (sessionOf ss sid).token = some e →
        ∃ w ∈ past, w.sid = sid ∧ ∃ q url, w.visit.path = .verify q ∧ q.get? t!"openid_identifier" = some url ∧ url ≠ [] := by
      intro ht
      rw [sessionOf] at ht
      cases hg : ss.get? sid with
      | none => rw [hg] at ht; cases ht
      | some u => rw [hg] at ht; exact ih sid u e hg ht
    have hlift : (∃ w ∈ past, w.sid = sid ∧ ∃ q url, w.visit.path = .verify q ∧ q.get? t!"openid_identifier" = some url ∧ url ≠ []) →
        ∃ w ∈ past ++ [v], w.sid = sid ∧ ∃ q url, w.visit.path = .verify q ∧ q.get? t!"openid_identifier" = some url ∧ url ≠ [] :=
      fun ⟨w, hw, hrest⟩ => ⟨w, List.mem_append_left _ hw, hrest⟩
    have hkey : sidOf v.fresh v.visit = sid := hsid
    rw [hkey] at h ho
    rcases answer_cases h with ⟨_, _, rfl⟩ | ⟨q, url, s', r, hp, hu, hne, rfl, ht⟩ | ⟨_, _, _, rfl⟩ | ⟨q, host, path, s', r, hv, rfl, hr⟩
    all_goals
      simp only [Except.map, Except.ok.injEq, Prod.mk.injEq] at ho
      obtain ⟨rfl, -⟩ := ho
      rw [Dict.get?_set, if_pos rfl, Option.some.injEq] at hs
      subst hs
    · exact hlift (hold he)
    · exact ⟨v, by simp, hsid, q, url, hp, hu, hne⟩
    · exact hlift (hold he)
    · refine hlift (hold ?_)
      rw [complete] at hr
      split at hr
      · simp at hr; rw [hr.2.1]; exact he
      · rw [runs_handle] at hr
        obtain ⟨_, _, o, _, _, h2⟩ := hr
        cases o with
        | error x => simp at h2; rw [h2.2.1]; exact he
        | ok res =>
          simp at h2
          have : (cleanup { sessionOf ss sid with token := none } res).token = none := by
            unfold cleanup
            split
            · split <;> rfl
            · split <;> rfl
            · rfl
          rw [h2.2.1, he] at this
          cases this

/-- C90: a visit that names no identifier makes no calls and leaves the session as it is. -/
theorem c90_idle {W : World} {C : Conf} {E : Consumer.Env} {S : Setup} {ss ss' : Sessions} {fresh : Str} {v : Visit}
    {evs : List Ev} {reply : Visitor.Reply} {q : Dict Str Str} (hv : v.path = .verify q)
    (hid : (q.get? t!"openid_identifier").getD [] = [])
    (h : Consumer.Runs (visit W C E S ss fresh v) evs (.ok (ss', reply))) :
    evs = [] ∧ ss'.get? (v.cookie.getD fresh) = some ((ss.get? (v.cookie.getD fresh)).getD ⟨none, none⟩) := by
  obtain ⟨o, h, ho⟩ := visit_runs.1 h
  simp only [hv, answer, doVerify] at h
  split at h
  · obtain ⟨rfl, rfl⟩ := h
    simp only [Except.map, Except.ok.injEq, Prod.mk.injEq] at ho
    exact ⟨rfl, by rw [ho.1, sidOf, Dict.get?_set, if_pos rfl]; rfl⟩
  · obtain ⟨rfl, rfl⟩ := h
    simp only [Except.map, Except.ok.injEq, Prod.mk.injEq] at ho
    exact ⟨rfl, by rw [ho.1, sidOf, Dict.get?_set, if_pos rfl]; rfl⟩
  · next url hne hurl =>
    rw [hurl] at hid
    exact (hne hid).elim

/-- C90, the other way round: a visitor who brings a response that the library accepts against their session is told so, if it is
    about an identifier and the data of the two extensions can be read. -/
theorem c90_told {W : World} {C : Conf} {E : Consumer.Env} {S : Setup} {ss : Sessions} {fresh : Str} {v : Visit}
    {evs : List Ev} {q : Dict Str Str} {host path : Str} {s' : UserSession} {e : Endpoint} {m : Msg} {signed : List Str} {id : Str}
    (hv : v.path = .process q (some host) path)
    (h : Consumer.Runs (complete W C E ((ss.get? (v.cookie.getD fresh)).getD ⟨none, none⟩) q (t!"http://" ++ host ++ path)) evs
      (.ok (s', .ok (.success e m signed))))
    (hid : (Response.success e m signed).getDisplayIdentifier W.uni = .ok (some id)) {m' : Msg} {sr : Option Sreg.Response}
    (hsr : Sreg.fromSuccessResponse m signed true = .ok (m', sr)) {pa : Option Pape.Response}
    (hpa : Pape.Response.fromSuccessResponse W.digits m' signed = .ok pa) :
    Consumer.Runs (visit W C E S ss fresh v) evs (.ok (ss.set (v.cookie.getD fresh) s', ⟨some (v.cookie.getD fresh),
      .page (t!"You have successfully verified " ++ escape false id ++ t!" as your identity." ++ canonicalPart e.canonicalID)
        (some id) sr pa⟩)) := by
  refine visit_runs.2 ⟨.ok (s', processPage W S (.ok (.success e m signed))), ?_, ?_⟩
  · simp only [hv, answer, doProcess, runs_bind]
    exact .inl ⟨evs, [], _, (List.append_nil _).symm, h, rfl, rfl⟩
  · simp only [Except.map, processPage, infoPage, hid, ok_bind, verifiedPage, hsr, hpa, orTrouble, pure_eq_ok]
    rfl

/-! ## One response, one visit -/

theorem reached_completions {W : World} {C : Conf} {past : List Visited} {ss : Sessions} (h : Reached W C past ss)
    (hq : ∀ v ∈ past, ∀ q host path, v.visit.path = .process q host path → Dict.WF q) :
    ∃ runs : List Completion, (∀ x ∈ runs, x.Ran W C) ∧
      (∀ y, (runs.flatMap fun r => storeCalls r.events).count y ≤ (past.flatMap fun v => storeCalls v.calls).count y) ∧
      ∀ q, past.countP (·.toldOf q) ≤ runs.countP fun x => decide (x.query = q) && x.succeeded.isSome := by
  induction h with
  | start => exact ⟨[], by simp⟩
  | @visit past ss ss' v _ hrun ih =>
    obtain ⟨runs, h1, h2, h3⟩ := ih fun w hw => hq w (by simp [hw])
    obtain ⟨o, h, ho⟩ := visit_runs.1 hrun
    by_cases hs : SaysVerified v.reply.page
    case neg =>
      refine ⟨runs, h1, fun y => ?_, fun q => ?_⟩
      · rw [List.flatMap_append, List.count_append]
        exact Nat.le_add_right_of_le (h2 y)
      · rw [List.countP_append, List.countP_singleton, if_neg ?_]
        · exact h3 q
        · intro ht
          unfold Visited.toldOf at ht
          split at ht
          · next hm =>
            rw [Bool.and_eq_true, List.isPrefixOf_iff_prefix] at ht
            exact hs ⟨_, _, _, _, hm, ht.2⟩
          · cases ht
    case pos =>
      obtain ⟨q, host, path, e, m, signed, id, hv, -⟩ := c90_verified (hq v (by simp)) hrun hs
      rcases answer_cases h with ⟨q', hv', _⟩ | ⟨q', _, _, _, hv', _⟩ | ⟨q', _, hv', _⟩ | ⟨q', host', path', s', r, hv', rfl, hr⟩
      · rw [hv] at hv'; cases hv'
      · rw [hv] at hv'; cases hv'
      · rw [hv] at hv'; cases hv'
      · simp only [Except.map, Except.ok.injEq, Prod.mk.injEq] at ho
        have hsucc : ∃ e m signed, r = .ok (.success e m signed) := by
          rw [ho.2, withCookie_page] at hs
          exact processPage_says hs
        obtain ⟨e, m, signed, rfl⟩ := hsucc
        refine ⟨runs ++ [⟨v.env, sessionOf ss (sidOf v.fresh v.visit), q', t!"http://" ++ host' ++ path', v.calls,
          .ok (s', .ok (.success e m signed))⟩], fun x hx => ?_, fun y => ?_, fun q => ?_⟩
        · rcases List.mem_append.1 hx with hx | hx
          · exact h1 x hx
          · rw [List.mem_singleton.1 hx]
            exact ⟨hq v (by simp) _ _ _ hv', hr⟩
        · rw [List.flatMap_append, List.flatMap_append, List.count_append, List.count_append]
          exact Nat.add_le_add (h2 y) (by simp)
        · rw [List.countP_append, List.countP_append, List.countP_singleton, List.countP_singleton]
          refine Nat.add_le_add (h3 q) ?_
          split
          · next ht =>
            unfold Visited.toldOf at ht
            split at ht
            · next hp _ =>
              rw [hv'] at hp
              cases hp
              rw [Bool.and_eq_true] at ht
              simp only [Completion.succeeded]
              rw [ht.1]
              simp
            · cases ht
          · exact Nat.zero_le _

/-- C90: no response is reported as verified twice, whoever brings it, with a store that takes no nonce twice (C38 has one theorem
    for each kind of store that it does not). -/
theorem c90_once {W : World} {C : Conf} (hC : C.hasStore = true) {past : List Visited} {ss : Sessions} (h : Reached W C past ss)
    (hq : ∀ v ∈ past, ∀ q host path, v.visit.path = .process q host path → Dict.WF q) {calls : List (Op × Outcome)}
    (hs : OnceEach calls) (ha : ∀ y, (past.flatMap fun v => storeCalls v.calls).count y ≤ calls.count y) (q : Dict Str Str) :
    past.countP (·.toldOf q) ≤ 1 := by
  obtain ⟨runs, h1, h2, h3⟩ := reached_completions h hq
  exact Nat.le_trans (h3 q) (c38_replay hC h1 hs (fun y => Nat.le_trans (h2 y) (ha y)) q)

/-! ## Markup -/

theorem escape_inert (quote : Bool) (s : Str) : Inert quote (escape quote s) := by
  have key : ∀ c x, x ∈ escapeChar quote c → x ≠ '<' ∧ x ≠ '>' ∧ (quote = true → x ≠ '"') := by
    intro c x hx
    unfold escapeChar at hx
    split at hx
    · revert x; decide +revert
    · split at hx
      · revert x; decide +revert
      · split at hx
        · revert x; decide +revert
        · split at hx
          · next h1 h2 h3 h4 =>
            have hall : ∀ y ∈ t!"&quot;", y ≠ '<' ∧ y ≠ '>' ∧ y ≠ '"' := by decide
            exact ⟨(hall x hx).1, (hall x hx).2.1, fun _ => (hall x hx).2.2⟩
          · next h1 h2 h3 h4 =>
            simp only [List.mem_singleton] at hx
            subst hx
            exact ⟨h2, h3, fun hq h => h4 ⟨h, hq⟩⟩
  refine ⟨fun h => ?_, fun h => ?_, fun hq h => ?_⟩ <;>
    (obtain ⟨c, -, hc⟩ := List.mem_flatMap.1 h)
  · exact (key c _ hc).1 rfl
  · exact (key c _ hc).2.1 rfl
  · exact (key c _ hc).2.2 hq rfl

theorem inert_append {q : Bool} {a b : Str} (ha : Inert q a) (hb : Inert q b) : Inert q (a ++ b) :=
  ⟨by simp [ha.1, hb.1], by simp [ha.2.1, hb.2.1], fun h => by simp [ha.2.2 h, hb.2.2 h]⟩

theorem canonicalPart_inert (c : Option Str) : Inert false (canonicalPart c) := by
  unfold canonicalPart
  split
  · exact ⟨by simp, by simp, nofun⟩
  · exact ⟨by simp, by simp, nofun⟩
  · exact inert_append ⟨by decide, by decide, nofun⟩ (escape_inert false _)

theorem verifyPage_inert {S : Setup} {q : Dict Str Str} {url : Str} {r : Except Err AuthRequest} {msg : Str}
    {c : Option Str} {sr : Option Sreg.Response} {pa : Option Pape.Response} (h : verifyPage S q url r = .page msg c sr pa) :
    Inert false msg := by
  unfold verifyPage at h
  split at h
  · cases h
    exact inert_append ⟨by decide, by decide, nofun⟩ (escape_inert false _)
  · cases h
  · rw [sendOn] at h
    revert h
    cases extendIf q t!"use_sreg" registration _ with
    | error x => intro h; cases h
    | ok r1 =>
      simp only [ok_bind]
      cases extendIf q t!"use_pape" policies r1 with
      | error x => intro h; cases h
      | ok r2 =>
        simp only [ok_bind]
        split
        · cases r2.redirectURL _ _ _ <;> (intro h; cases h)
        · cases r2.htmlMarkup _ _ _ _ _ <;> (intro h; cases h)

/-- C90: the message of a page has no markup from outside in it, unless it is about a failure: then the text of the failure
    stands there as it is, be it the library's or the one in the query. -/
theorem c90_markup {W : World} {C : Conf} {E : Consumer.Env} {S : Setup} {ss ss' : Sessions} {fresh : Str} {v : Visit}
    {evs : List Ev} {reply : Visitor.Reply} (hq : ∀ q host path, v.path = .process q host path → Dict.WF q)
    (h : Consumer.Runs (visit W C E S ss fresh v) evs (.ok (ss', reply)))
    {msg : Str} {c : Option Str} {sr : Option Sreg.Response} {pa : Option Pape.Response}
    (hp : reply.page = .page msg c sr pa) :
    Inert false msg ∨ (∃ url, msg = t!"<a href=\"" ++ url ++ t!"\">Setup needed</a>" ∧ Inert true url) ∨
    ∃ id text, msg = t!"Verification of " ++ id ++ t!" failed: " ++ text ∧ Inert false id ∧
      ((∃ info, text = S.failureText info) ∨ ∃ q host path, v.path = .process q host path ∧
        arg q t!"mode" = some t!"error" ∧ text = (arg q t!"error").getD t!"None") := by
  obtain ⟨o, h, ho⟩ := visit_runs.1 h
  rcases answer_cases h with ⟨_, _, rfl⟩ | ⟨_, _, _, _, _, _, _, rfl, _⟩ | ⟨_, _, _, rfl⟩ | ⟨q, host, path, s', r, hv, rfl, hr⟩
  all_goals
    simp only [Except.map, Except.ok.injEq, Prod.mk.injEq] at ho
    obtain ⟨-, rfl⟩ := ho
    rw [withCookie_page] at hp
  · cases hp
    exact .inl ⟨by decide, by decide, nofun⟩
  · exact .inl (verifyPage_inert hp)
  · cases hp
  · cases r with
    | error x => cases hp
    | ok info =>
      simp only [processPage, infoPage] at hp
      cases hd : info.getDisplayIdentifier W.uni with
      | error x => rw [hd] at hp; cases hp
      | ok id =>
        rw [hd] at hp
        simp only [ok_bind] at hp
        cases info with
        | failure e rep =>
          simp only at hp
          split at hp <;> (simp only [orTrouble, pure_eq_ok] at hp; cases hp)
          · refine .inr (.inr ⟨escape false (Option.getD c []), _, rfl, escape_inert false _, ?_⟩)
            cases rep with
            | none => exact .inl ⟨_, rfl⟩
            | some x =>
              refine .inr ⟨q, _, path, hv, ?_⟩
              cases hm : fromPostArgs W.reg q with
              | error y =>
                have := (c37_unparsable hm hr).2.1
                cases this
              | ok m =>
                by_cases hmode : arg q t!"mode" = some t!"id_res"
                · rcases c37_reported (hq q _ _ hv) hm hmode hr with ⟨_, _, _, h1, _⟩ | ⟨h1 | ⟨_, h1⟩, _⟩ | ⟨_, h1, _⟩ <;> cases h1
                · have h1 := (c37_other_modes (hq q _ _ hv) hm hmode hr).2.1
                  rw [told] at h1
                  split at h1
                  · cases h1
                  · split at h1
                    · next hmode' =>
                      cases h1
                      exact ⟨hmode', rfl⟩
                    · split at h1 <;> cases h1
          · exact .inl ⟨by decide, by decide, nofun⟩
        | cancel e =>
          simp only [orTrouble, pure_eq_ok] at hp
          cases hp
          exact .inl ⟨by decide, by decide, nofun⟩
        | setupNeeded e u =>
          simp only at hp
          split at hp <;> (simp only [orTrouble, pure_eq_ok] at hp; cases hp)
          · exact .inr (.inl ⟨escape true (u.getD []), by simp [quoteattr], escape_inert true _⟩)
          · exact .inl ⟨by decide, by decide, nofun⟩
        | success e m signed =>
          cases id with
          | none => cases hp
          | some id =>
            simp only [verifiedPage] at hp
            cases hsr : Sreg.fromSuccessResponse m signed true with
            | error x => rw [hsr] at hp; cases hp
            | ok y =>
              rw [hsr] at hp
              simp only [ok_bind] at hp
              cases hpa : Pape.Response.fromSuccessResponse W.digits y.1 signed with
              | error x => rw [hpa] at hp; cases hp
              | ok z =>
                rw [hpa] at hp
                simp only [ok_bind, orTrouble, pure_eq_ok] at hp
                cases hp
                exact .inl (inert_append (inert_append (inert_append ⟨by decide, by decide, nofun⟩ (escape_inert false _))
                  ⟨by decide, by decide, nofun⟩) (canonicalPart_inert _))

/-- C90: every page sets the cookie of the session, except the form that sends the visitor on in OpenID 2. -/
theorem c90_cookie {W : World} {C : Conf} {E : Consumer.Env} {S : Setup} {ss ss' : Sessions} {fresh : Str} {v : Visit}
    {evs : List Ev} {reply : Visitor.Reply} (h : Consumer.Runs (visit W C E S ss fresh v) evs (.ok (ss', reply))) :
    reply.cookie = if reply.page matches .form _ then none else some (v.cookie.getD fresh) := by
  obtain ⟨o, h, ho⟩ := visit_runs.1 h
  cases o with
  | error x => cases ho
  | ok p =>
    simp only [Except.map, Except.ok.injEq, Prod.mk.injEq] at ho
    obtain ⟨-, rfl⟩ := ho
    obtain ⟨s, p⟩ := p
    cases p <;> rfl

/-! ## Visits -/

def vsetup0 : Setup := ⟨t!"http://rp.example/", fun _ => t!"?", fun _ => t!"?", fun _ => true⟩

/-- a request that is pending in the session `k` -/
def vsessions0 : Sessions := [(t!"k", ⟨some endpoint0, none⟩), (t!"l", ⟨none, none⟩)]

def vshown : Option (Except Err (Sessions × Visitor.Reply)) → Option Visitor.Reply
  | some (.ok (_, r)) => some r
  | _ => none

def vsays : Page → Str × Option Str
  | .page m c _ _ => (m, c)
  | _ => ([], none)

-- a genuine response: the visitor is told so
example : (vshown (play (visit cworld0 cconf0 cenv0 vsetup0 vsessions0 t!"n"
      ⟨some t!"k", .process (cquery0 t!"AQIf") (some t!"rp.example") t!"/back"⟩) cevs0)).map (vsays ·.page) =
    some (t!"You have successfully verified http://u.example/ as your identity.", some t!"http://u.example/") := by decide +kernel

-- the hypotheses of `c90_told`
example : ∃ s' e m signed id m' sr pa, Consumer.Runs (complete cworld0 cconf0 cenv0
      ((vsessions0.get? t!"k").getD ⟨none, none⟩) (cquery0 t!"AQIf") (t!"http://" ++ t!"rp.example" ++ t!"/back")) cevs0
      (.ok (s', .ok (.success e m signed))) ∧ (Response.success e m signed).getDisplayIdentifier cworld0.uni = .ok (some id) ∧
    Sreg.fromSuccessResponse m signed true = .ok (m', sr) ∧
    Pape.Response.fromSuccessResponse cworld0.digits m' signed = .ok pa := by
  have hsome : (match play (complete cworld0 cconf0 cenv0 ((vsessions0.get? t!"k").getD ⟨none, none⟩) (cquery0 t!"AQIf")
      (t!"http://" ++ t!"rp.example" ++ t!"/back")) cevs0 with
    | some (.ok (_, .ok (.success e m signed))) =>
      (match (Response.success e m signed).getDisplayIdentifier cworld0.uni with | .ok (some _) => true | _ => false) &&
      (match Sreg.fromSuccessResponse m signed true with
        | .ok (m', _) => (match Pape.Response.fromSuccessResponse cworld0.digits m' signed with | .ok _ => true | _ => false)
        | _ => false)
    | _ => false) = true := by decide +kernel
  revert hsome
  split
  · next e m signed hp =>
    intro hsome
    rw [Bool.and_eq_true] at hsome
    obtain ⟨h1, h2⟩ := hsome
    split at h1
    · next id hid =>
      split at h2
      · next m' sr hsr =>
        split at h2
        · next pa hpa => exact ⟨_, e, m, signed, id, m', sr, pa, play_runs hp, hid, hsr, hpa⟩
        · cases h2
      · cases h2
    · cases h1
  · nofun

-- the identifier to be verified is asked for
example : vshown (play (visit cworld0 cconf0 cenv0 vsetup0 [] t!"n" ⟨none, .verify []⟩) []) =
    some ⟨some t!"n", .page t!"Enter an OpenID Identifier to verify." none none none⟩ := by decide +kernel

-- the same response to the visitor with another session, with no request pending: discovery is made first
example : vshown (play (visit cworld0 cconf0 cenv0 vsetup0 vsessions0 t!"n"
      ⟨some t!"l", .process (cquery0 t!"AQIf") (some t!"rp.example") t!"/back"⟩) cevs0) = none := by decide +kernel

-- the address of the setup is quoted (OpenID 1)
example : (vshown (play (visit cworld0 cconf0 cenv0 vsetup0 vsessions0 t!"n"
      ⟨some t!"k", .process [(t!"openid.mode", t!"id_res"), (t!"openid.user_setup_url", t!"http://op/?a&b\">")]
        (some t!"rp.example") t!"/back"⟩) [])).map (vsays ·.page) =
    some (t!"<a href=\"http://op/?a&amp;b&quot;&gt;\">Setup needed</a>", some t!"http://u.example/") := by decide +kernel

-- a visitor has begun a request, and it is pending
example : ∃ past ss s, Reached cworld0 cconf0 past ss ∧ ss.get? t!"k" = some s ∧ s.token.isSome = true := by
  let found : Ev := .discover t!"http://u.example/" (.ok (t!"http://u.example/", [endpoint0]))
  let held : Ev := .store (.getAssociation t!"http://op.example/" none) (.ok (.assoc (some cassoc0)))
  let v : Visit := ⟨some t!"k", .verify [(t!"openid_identifier", t!"http://u.example/")]⟩
  let played := play (visit cworld0 cconf0 cenv0 vsetup0 [] t!"n" v) [found, held]
  have hsome : (match played with | some (.ok (ss, _)) => ((ss.get? t!"k").bind (·.token)).isSome | _ => false) = true := by
    decide +kernel
  cases hp : played with
  | none => rw [hp] at hsome; cases hsome
  | some o =>
    rw [hp] at hsome
    cases o with
    | error x => cases hsome
    | ok r =>
      obtain ⟨ss, reply⟩ := r
      simp only at hsome
      cases hs : ss.get? t!"k" with
      | none => rw [hs] at hsome; cases hsome
      | some s =>
        rw [hs] at hsome
        exact ⟨[⟨cenv0, vsetup0, t!"n", v, [found, held], reply⟩], ss, s, .visit .start (play_runs hp), hs, hsome⟩

/-- the visits of one person: the request is begun, and the response brought -/
def vfirst : Visit := ⟨some t!"k", .verify [(t!"openid_identifier", t!"http://u.example/")]⟩
def vsecond : Visit := ⟨some t!"k", .process (cquery0 t!"AQIf") (some t!"rp.example") t!"/back"⟩

def vbegun : List Ev :=
  [.discover t!"http://u.example/" (.ok (t!"http://u.example/", [endpoint0])),
   .store (.getAssociation t!"http://op.example/" none) (.ok (.assoc (some cassoc0)))]

def vplayed (ss : Sessions) (v : Visit) (evs : List Ev) : Sessions × Visitor.Reply :=
  match play (visit cworld0 cconf0 cenv0 vsetup0 ss t!"n" v) evs with
  | some (.ok r) => r
  | _ => ([], ⟨none, .trouble⟩)

theorem vplayed_runs {ss : Sessions} {v : Visit} {evs : List Ev}
    (h : (play (visit cworld0 cconf0 cenv0 vsetup0 ss t!"n" v) evs).isSome = true) :
    Consumer.Runs (visit cworld0 cconf0 cenv0 vsetup0 ss t!"n" v) evs (.ok ((vplayed ss v evs).1, (vplayed ss v evs).2)) := by
  obtain ⟨o, ho⟩ := Option.isSome_iff_exists.1 h
  have hr := play_runs ho
  obtain ⟨ss', reply, rfl⟩ := c90_page hr
  simp only [vplayed, ho]
  exact hr

theorem reached_next {W : World} {C : Conf} {past : List Visited} {ss ss' : Sessions} {E : Consumer.Env} {S : Setup} {fresh : Str}
    {v : Visit} {evs : List Ev} {reply : Visitor.Reply} (h : Reached W C past ss)
    (hr : Consumer.Runs (visit W C E S ss fresh v) evs (.ok (ss', reply))) :
    Reached W C (past ++ [⟨E, S, fresh, v, evs, reply⟩]) ss' := .visit h hr

def vhistory : List Visited :=
  [⟨cenv0, vsetup0, t!"n", vfirst, vbegun, (vplayed [] vfirst vbegun).2⟩,
   ⟨cenv0, vsetup0, t!"n", vsecond, cevs0, (vplayed (vplayed [] vfirst vbegun).1 vsecond cevs0).2⟩]

-- the hypotheses of `c90_once`, with one visit that is told
example : (∃ ss, Reached cworld0 cconf0 vhistory ss) ∧
    OnceEach (vhistory.flatMap fun v => storeCalls v.calls) ∧ cconf0.hasStore = true ∧
    vhistory.countP (·.toldOf (cquery0 t!"AQIf")) = 1 := by
  refine ⟨⟨(vplayed (vplayed [] vfirst vbegun).1 vsecond cevs0).1, ?_⟩, ?_, rfl, by decide +kernel⟩
  · have h1 : (play (visit cworld0 cconf0 cenv0 vsetup0 [] t!"n" vfirst) vbegun).isSome = true := by decide +kernel
    have h2 : (play (visit cworld0 cconf0 cenv0 vsetup0 (vplayed [] vfirst vbegun).1 t!"n" vsecond) cevs0).isSome = true := by
      decide +kernel
    have r1 := vplayed_runs h1
    have r2 := vplayed_runs h2
    clear h1 h2
    unfold vhistory
    generalize vplayed [] vfirst vbegun = a at *
    generalize vplayed a.1 vsecond cevs0 = b at *
    exact reached_next (reached_next .start r1) r2
  · intro u t s
    simp only [vhistory, vbegun, cevs0, storeCalls, List.flatMap_cons, List.flatMap_nil, List.filterMap_cons, List.filterMap_nil,
      List.nil_append, List.append_nil, List.cons_append, List.count_cons, List.count_nil]
    simp
    split <;> simp

/-- C90: whoever can make a visitor with a pending request follow a link can put markup into the page. -/
theorem c90_injection : vshown (play (visit cworld0 cconf0 cenv0 vsetup0 vsessions0 t!"n"
      ⟨some t!"k", .process [(t!"openid.mode", t!"error"), (t!"openid.error", t!"<script>x</script>")] (some t!"rp.example")
        t!"/process"⟩) []) =
    some ⟨some t!"k", .page t!"Verification of http://u.example/ failed: <script>x</script>" (some t!"http://u.example/")
      none none⟩ := by decide +kernel

/-- C90: a session id that the program never gave out is taken from the cookie: whoever sets a cookie for another visitor
    shares their session. -/
theorem c90_chosen_cookie (W : World) (C : Conf) (E : Consumer.Env) (S : Setup) (ss : Sessions) (fresh sid : Str) :
    Consumer.Runs (visit W C E S ss fresh ⟨some sid, .verify []⟩) []
      (.ok (ss.set sid (sessionOf ss sid),
        ⟨some sid, .page t!"Enter an OpenID Identifier to verify." none none none⟩)) :=
  visit_runs.2 ⟨_, ⟨rfl, rfl⟩, rfl⟩

/-- a signed response about no identifier at all, as an extension may ask for -/
def vquery0 : Dict Str Str :=
  [(t!"openid.ns", OPENID2_NS), (t!"openid.mode", t!"id_res"), (t!"openid.op_endpoint", t!"http://op.example/"),
   (t!"openid.return_to", t!"http://rp.example/back?x=1"), (t!"x", t!"1"),
   (t!"openid.response_nonce", t!"2005-05-15T17:11:51Zaa"), (t!"openid.assoc_handle", t!"h"),
   (t!"openid.signed", t!"op_endpoint,return_to,response_nonce,assoc_handle"), (t!"openid.sig", t!"AQK0")]

/-- C90: a genuine response about no identifier is accepted by the library, its nonce spent, and then the program breaks on it. -/
theorem c90_no_identifier :
    succeeded0 (play (complete cworld0 cconf0 cenv0 ⟨some endpoint0, none⟩ vquery0 t!"http://rp.example/back") cevs0) =
      some none ∧
    vshown (play (visit cworld0 cconf0 cenv0 vsetup0 vsessions0 t!"n"
      ⟨some t!"k", .process vquery0 (some t!"rp.example") t!"/back"⟩) cevs0) = some ⟨some t!"k", .trouble⟩ := by
  decide +kernel

end Props
