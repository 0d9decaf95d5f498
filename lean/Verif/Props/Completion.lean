import Verif.Lemmas.Completion
/-! # C89: what a completion asks for and changes outside, whatever comes of it -/

namespace Props
open Py Message Association Cryptutil Store Discover Consumer Spec

theorem doIdRes_calls {W : World} {C : Conf} {E : Consumer.Env} {session : Option Endpoint} {q : Dict Str Str}
    {current : Str} {evs : List Ev} {m : Msg} (hq : Dict.WF q) (hm : fromPostArgs W.reg q = .ok m)
    (hmode : arg q t!"mode" = some t!"id_res") {r : Except Err Consumer.Response}
    (h : Runs (doIdRes W C E m session current) evs r) :
    ∃ server found looked asked dropped spent, evs = found ++ looked ++ asked ++ dropped ++ spent ∧
      Steps W C E session q m server found looked asked dropped spent ∧
      (spent ≠ [] → ∃ u t salt o e signed, spent = [.store (.useNonce u t salt) o] ∧
        Verified W C E session q current
          (found ++ looked ++ asked ++ dropped ++ [.store (.useNonce u t salt) (.ok (.bool true))]) e m signed ∧
        (o = .ok (.bool true) → r = .ok (.success e m signed)) ∧ (o ≠ .ok (.bool true) → ∃ x, r = .error x)) := by
  have hg := got hq hm
  have hnone : ∃ server found looked asked dropped spent, [] = found ++ looked ++ asked ++ dropped ++ spent ∧
      Steps W C E session q m server found looked asked dropped spent ∧ (spent ≠ [] → ∃ u t salt o e signed, spent = [.store (.useNonce u t salt) o] ∧
        Verified W C E session q current
          (found ++ looked ++ asked ++ dropped ++ [.store (.useNonce u t salt) (.ok (.bool true))]) e m signed ∧
        (o = .ok (.bool true) → r = .ok (.success e m signed)) ∧ (o ≠ .ok (.bool true) → ∃ x, r = .error x)) :=
    ⟨[], [], [], [], [], [], rfl, ⟨.inl rfl, .inl rfl, .inl rfl, .inl rfl, .inl rfl, .inl rfl⟩, fun h => absurd rfl h⟩
  rw [doIdRes] at h
  rcases (runs_py_bind _ _ _ _).1 h with ⟨⟨⟩, h1, j1⟩ | ⟨_, _, _, rfl⟩
  case inr => exact hnone
  clear h
  rcases (runs_py_bind _ _ _ _).1 j1 with ⟨⟨⟩, h2, j2⟩ | ⟨_, _, _, rfl⟩
  case inr => exact hnone
  obtain ⟨hv, f1, l, f2, f3⟩ := fields_ok hg.toParsed h1
  have hhandle : ∃ v, arg q t!"assoc_handle" = some v :=
    f1 _ (by rw [neededFields]; exact List.mem_append_left _ (by decide))
  clear j1
  rw [runs_bind] at j2
  rcases j2 with ⟨found, rest, d, rfl, h3, j3⟩ | ⟨x, rfl, h3⟩
  case inr =>
    exact ⟨[], evs, [], [], [], [], by simp, ⟨discovery_calls hg hv h3, .inl rfl, .inl rfl, .inl rfl, .inl rfl, .inl rfl⟩,
      fun h => absurd rfl h⟩
  have hfound := discovery_calls hg hv h3
  have hconf := discovery_ok hg hv h3
  rw [runs_bind] at j3
  rcases j3 with ⟨sig, rest, ⟨⟩, rfl, h4, j4⟩ | ⟨x, rfl, h4⟩
  case inr =>
    obtain ⟨looked, asked, dropped, rfl, c1, c2, c3⟩ := signature_calls hg.toParsed h4
    exact ⟨d.serverUrl, found, looked, asked, dropped, [], by simp, ⟨hfound, .inr ⟨d, hconf, rfl⟩, c1, c2, c3, .inl rfl⟩,
      fun h => absurd rfl h⟩
  obtain ⟨looked, asked, dropped, rfl, c1, c2, c3⟩ := signature_calls hg.toParsed h4
  have hsig := signature_ok hg.toParsed hhandle h4
  have hlast : m.getArgReq .openid t!"signed" = .ok l := by
    rw [getArgReq_ok, hg.get _ (by decide) (by decide), f2]
  have hnonce : ∃ spent, rest = spent ∧ ∃ o, Runs (idResCheckNonce W C m d) spent o ∧
      (o = .ok () → r = .ok (.success d m ((splitOn ',' l).map (t!"openid." ++ ·)))) ∧
      (∀ x, o = .error x → r = .error x) := by
    rw [runs_bind] at j4
    rcases j4 with ⟨spent, e4, ⟨⟩, rfl, h5, j5⟩ | ⟨x, rfl, h5⟩
    · rw [hlast] at j5
      obtain ⟨rfl, rfl⟩ := j5
      exact ⟨spent, by simp, .ok (), h5, fun _ => rfl, nofun⟩
    · exact ⟨rest, rfl, .error x, h5, nofun, fun y hy => by cases hy; rfl⟩
  obtain ⟨spent, rfl, o, h5, hok, herr⟩ := hnonce
  refine ⟨d.serverUrl, found, looked, asked, dropped, rest, by simp,
    ⟨hfound, .inr ⟨d, hconf, rfl⟩, c1, c2, c3, ?_⟩, fun hne => ?_⟩
  · rcases nonce_calls hg hv h5 with g | ⟨hs, n, t, salt, a, g1, g2, g3, -, -⟩
    · exact .inl g
    · exact .inr ⟨_, g3, hs, hsig, n, t, salt, a, g1, g2, rfl⟩
  · rcases nonce_calls hg hv h5 with g | ⟨hs, n, t, salt, a, g1, g2, g3, g4, g5⟩
    · exact absurd g hne
    · refine ⟨_, t, salt, a, d, _, g3, ?_, fun ha => hok (g4.2 ha), fun ha => ?_⟩
      · have hrun : Runs (doIdRes W C E m session current)
            (found ++ looked ++ asked ++ dropped ++ [.store (.useNonce (nonceIn q d.serverUrl).2 t salt) (.ok (.bool true))])
            (.ok (.success d m ((splitOn ',' l).map (t!"openid." ++ ·)))) := by
          rw [doIdRes, runs_py_bind_ok]
          refine ⟨(), h1, ?_⟩
          rw [runs_py_bind_ok]
          refine ⟨(), h2, ?_⟩
          rw [runs_bind_ok]
          refine ⟨found, looked ++ asked ++ dropped ++
            [.store (.useNonce (nonceIn q d.serverUrl).2 t salt) (.ok (.bool true))], d, by simp, h3, ?_⟩
          rw [runs_bind_ok]
          refine ⟨looked ++ asked ++ dropped, _, (), rfl, h4, ?_⟩
          rw [runs_bind_ok]
          refine ⟨_, [], (), (List.append_nil _).symm, g5, ?_⟩
          rw [hlast]
          exact ⟨rfl, rfl⟩
        obtain ⟨e, sg, hr, hver⟩ := doIdRes_ok hq hm hmode hrun
        cases hr
        exact hver
      · cases o with
        | ok u => exact absurd (g4.1 (by cases u; rfl)) ha
        | error x => exact ⟨x, herr x rfl⟩

/-- a completion makes no calls, or those of a positive assertion -/
theorem complete_calls {W : World} {C : Conf} {E : Consumer.Env} {s s' : UserSession} {q : Dict Str Str} {current : Str}
    {evs : List Ev} {r : Except Err Consumer.Response} (hq : Dict.WF q)
    (h : Runs (complete W C E s q current) evs (.ok (s', r))) (hne : evs ≠ []) :
    ∃ m r', fromPostArgs W.reg q = .ok m ∧ arg q t!"mode" = some t!"id_res" ∧
      Runs (doIdRes W C E m s.token current) evs r' ∧ r = asFailure s.token r' := by
  rw [complete] at h
  cases hm : fromPostArgs W.reg q with
  | error x => rw [hm] at h; exact absurd h.1 hne
  | ok m =>
    rw [hm] at h
    simp only at h
    by_cases hmode : arg q t!"mode" = some t!"id_res"
    case neg =>
      rw [generic_told hq hm hmode] at h
      exact absurd h.1 hne
    have hg := got hq hm
    rw [runs_handle] at h
    obtain ⟨e1, e2, o, rfl, h1, h2⟩ := h
    have he2 : e2 = [] ∧ r = o := by
      cases o with
      | error x => simp at h2; exact ⟨h2.1, h2.2.2.symm⟩
      | ok x => simp at h2; exact ⟨h2.1, h2.2.2.symm⟩
    obtain ⟨rfl, rfl⟩ := he2
    rw [List.append_nil] at hne ⊢
    rw [genericComplete, hg.get _ (by decide) (by decide), hmode] at h1
    rcases (runs_py_bind _ _ _ _).1 h1 with ⟨mode, k1, k2⟩ | ⟨_, k1, _⟩
    case inr => simp at k1
    simp only [Except.ok.injEq] at k1
    subst k1
    rw [if_neg (by decide), if_neg (by decide), if_neg (by decide), if_pos rfl, completeIdRes] at k2
    rcases (runs_py_bind _ _ _ _).1 k2 with ⟨u, l1, l2⟩ | ⟨_, _, _, l2⟩
    case inr => exact absurd l2 hne
    cases u with
    | some u => exact absurd l2.1 hne
    | none =>
      simp only at l2
      rw [runs_handle] at l2
      obtain ⟨e3, e4, o', rfl, g1, rfl, g2⟩ := l2
      rw [List.append_nil]
      exact ⟨m, o', rfl, hmode, g1, g2.symm⟩

/-- C89: the calls of a completion are these five steps in this order, each at most once and each about the server that
    discovery confirmed. -/
theorem c89_calls {W : World} {C : Conf} {E : Consumer.Env} {s s' : UserSession} {q : Dict Str Str} {current : Str}
    {evs : List Ev} {r : Except Err Consumer.Response} (hq : Dict.WF q)
    (h : Runs (complete W C E s q current) evs (.ok (s', r))) :
    evs = [] ∨ ∃ m server found looked asked dropped spent, fromPostArgs W.reg q = .ok m ∧
      arg q t!"mode" = some t!"id_res" ∧ evs = found ++ looked ++ asked ++ dropped ++ spent ∧
      Steps W C E s.token q m server found looked asked dropped spent := by
  by_cases hne : evs = []
  · exact .inl hne
  · obtain ⟨m, r', hm, hmode, h1, -⟩ := complete_calls hq h hne
    obtain ⟨server, found, looked, asked, dropped, spent, h2, h3, -⟩ := doIdRes_calls hq hm hmode h1
    exact .inr ⟨m, server, found, looked, asked, dropped, spent, hm, hmode, h2, h3⟩

theorem not_nonce_of_steps {W : World} {C : Conf} {E : Consumer.Env} {session : Option Endpoint} {q : Dict Str Str} {m : Msg}
    {server : Str} {found looked asked dropped spent : List Ev}
    (h : Steps W C E session q m server found looked asked dropped spent) {u : Str} {t : Int} {salt : Str} {o : Outcome} :
    Ev.store (.useNonce u t salt) o ∉ found ++ looked ++ asked ++ dropped := by
  intro hin
  simp only [List.mem_append] at hin
  rcases hin with ((hin | hin) | hin) | hin
  · rcases h.discovery with g | ⟨ev, g, _, _, _, rfl⟩ <;> rw [g] at hin <;> simp at hin
  · rcases h.lookup with g | ⟨ev, g, _, _, rfl⟩ <;> rw [g] at hin <;> simp at hin
  · rcases h.question with g | ⟨ev, g, _, _, _, rfl, _⟩ <;> rw [g] at hin <;> simp at hin
  · rcases h.removal with g | ⟨ev, g, _, _, _, _, _, rfl, _⟩ <;> rw [g] at hin <;> simp at hin

/-- C89: a nonce is brought to the store as the very last step, when everything else was verified; if the store takes it the
    completion succeeds, and if not it fails.  A response that is not genuine uses up no nonce. -/
theorem c89_nonce {W : World} {C : Conf} {E : Consumer.Env} {s s' : UserSession} {q : Dict Str Str} {current : Str}
    {evs : List Ev} {r : Except Err Consumer.Response} {u : Str} {t : Int} {salt : Str} {o : Outcome} (hq : Dict.WF q)
    (h : Runs (complete W C E s q current) evs (.ok (s', r))) (hn : Ev.store (.useNonce u t salt) o ∈ evs) :
    ∃ before e m signed, evs = before ++ [.store (.useNonce u t salt) o] ∧
      (∀ u' t' salt' o', Ev.store (.useNonce u' t' salt') o' ∉ before) ∧
      Verified W C E s.token q current (before ++ [.store (.useNonce u t salt) (.ok (.bool true))]) e m signed ∧
      (o = .ok (.bool true) → r = .ok (.success e m signed)) ∧
      (o ≠ .ok (.bool true) → r = .ok (.failure s.token none) ∨ ∃ x, r = .error x) := by
  obtain ⟨m, r', hm, hmode, h1, h2⟩ := complete_calls hq h (by rintro rfl; simp at hn)
  obtain ⟨server, found, looked, asked, dropped, spent, rfl, h3, h4⟩ := doIdRes_calls hq hm hmode h1
  have hin : Ev.store (.useNonce u t salt) o ∈ spent := by
    rcases List.mem_append.1 hn with hn | hn
    · exact absurd hn (not_nonce_of_steps h3)
    · exact hn
  obtain ⟨u', t', salt', o', e, signed, g1, g2, g3, g4⟩ := h4 (by rintro rfl; simp at hin)
  rw [g1] at hin
  simp only [List.mem_singleton, Ev.store.injEq, Op.useNonce.injEq] at hin
  obtain ⟨⟨rfl, rfl, rfl⟩, rfl⟩ := hin
  refine ⟨_, e, m, signed, by rw [g1], fun _ _ _ _ => not_nonce_of_steps h3, g2, fun ho => ?_, fun ho => ?_⟩
  · rw [h2, g3 ho]; rfl
  · obtain ⟨x, hx⟩ := g4 ho
    rw [h2, hx, asFailure]
    split
    · exact .inl rfl
    · exact .inr ⟨x, rfl⟩

/-- C89: with a store, a completion succeeds exactly if the store takes a nonce from it. -/
theorem c89_spent {W : World} {C : Conf} {E : Consumer.Env} {s s' : UserSession} {q : Dict Str Str} {current : Str}
    {evs : List Ev} {r : Except Err Consumer.Response} (hq : Dict.WF q) (hs : C.hasStore = true)
    (h : Runs (complete W C E s q current) evs (.ok (s', r))) :
    (∃ e m signed, r = .ok (.success e m signed)) ↔ ∃ u t salt, Ev.store (.useNonce u t salt) (.ok (.bool true)) ∈ evs := by
  constructor
  · rintro ⟨e, m, signed, rfl⟩
    obtain ⟨n, t, salt, -, -, h1⟩ := (c37_success hq h).nonce
    exact ⟨_, _, _, h1 hs⟩
  · rintro ⟨u, t, salt, hin⟩
    obtain ⟨_, e, m, signed, -, -, -, h1, -⟩ := c89_nonce hq h hin
    exact ⟨e, m, signed, h1 rfl⟩

/-- C89: an association is removed only if it is one of the server that discovery confirmed, the store has none of the name
    in the response, and that server, asked about this response, replied that it is to be removed. -/
theorem c89_removed {W : World} {C : Conf} {E : Consumer.Env} {s s' : UserSession} {q : Dict Str Str} {current : Str}
    {evs : List Ev} {r : Except Err Consumer.Response} {u handle : Str} {o : Outcome} (hq : Dict.WF q)
    (h : Runs (complete W C E s q current) evs (.ok (s', r))) (hr : Ev.store (.removeAssociation u handle) o ∈ evs) :
    ∃ m ask e reply, fromPostArgs W.reg q = .ok m ∧ Confirmed W s.token q evs e ∧ e.serverUrl = u ∧
      .store (.getAssociation u (arg q t!"assoc_handle")) (.ok (.assoc none)) ∈ evs ∧
      m.setArg .openid t!"mode" t!"check_authentication" = .ok ask ∧ .post u ask.toURLEncoded reply ∈ evs ∧
      RepliedWith reply t!"invalidate_handle" handle := by
  rcases c89_calls hq h with rfl | ⟨m, server, found, looked, asked, dropped, spent, hm, -, rfl, st⟩
  · simp at hr
  have hin : Ev.store (.removeAssociation u handle) o ∈ dropped := by
    simp only [List.mem_append] at hr
    rcases hr with (((hr | hr) | hr) | hr) | hr
    · rcases st.discovery with g | ⟨ev, g, _, _, _, rfl⟩ <;> rw [g] at hr <;> simp at hr
    · rcases st.lookup with g | ⟨ev, g, _, _, rfl⟩ <;> rw [g] at hr <;> simp at hr
    · rcases st.question with g | ⟨ev, g, _, _, _, rfl, _⟩ <;> rw [g] at hr <;> simp at hr
    · exact hr
    · rcases st.nonce with g | ⟨ev, g, _, _, _, _, _, _, _, _, rfl⟩ <;> rw [g] at hr <;> simp at hr
  rcases st.removal with g | ⟨ev, g, hs, hd, o', body, reply, rfl, hask, hrep⟩
  · rw [g] at hin; simp at hin
  rw [g] at hin
  simp only [List.mem_singleton, Ev.store.injEq, Op.removeAssociation.injEq] at hin
  obtain ⟨⟨rfl, rfl⟩, rfl⟩ := hin
  rcases st.question with g' | ⟨ev, g', ask, o'', hset, rfl, hl⟩
  · rw [g'] at hask; simp at hask
  rw [g'] at hask
  simp only [List.cons.injEq, Ev.post.injEq, and_true, true_and] at hask
  obtain ⟨-, rfl⟩ := hask
  rw [if_pos hs] at hl
  rcases st.endpoint with he | ⟨e, he, hu⟩
  · rw [g] at he; simp at he
  exact ⟨m, ask, e, o'', hm, he.mono (by grind), hu, by simp [hl], hset, by simp [g'], hrep⟩

-- a genuine response whose nonce was used already: everything else is verified, the nonce comes last, and the answer is a failure
example : play (complete cworld0 cconf0 cenv0 ⟨some endpoint0, none⟩ (cquery0 t!"AQIf") t!"http://rp.example/back")
    [.store (.getAssociation t!"http://op.example/" (some t!"h")) (.ok (.assoc (some cassoc0))),
     .store (.useNonce t!"http://op.example/" 1116177111 t!"aa") (.ok (.bool false))] =
    some (.ok (⟨none, none⟩, .ok (.failure (some endpoint0) none))) := by decide +kernel

-- a forged one: the nonce is not brought to the store at all
example : play (complete cworld0 cconf0 cenv0 ⟨some endpoint0, none⟩ (cquery0 t!"AQIg") t!"http://rp.example/back")
    [.store (.getAssociation t!"http://op.example/" (some t!"h")) (.ok (.assoc (some cassoc0)))] =
    some (.ok (⟨none, none⟩, .ok (.failure (some endpoint0) none))) := by decide +kernel

-- the provider does not confirm a response, and says that the association is to be removed
example : play (complete cworld0 cconf0 cenv0 ⟨none, none⟩ (cquery0 t!"zz") t!"http://rp.example/back")
    (cevs1.take 2 ++
    [.post t!"http://op.example/"
       t!"openid.assoc_handle=h&openid.claimed_id=http%3A%2F%2Fu.example%2F%23f&openid.identity=http%3A%2F%2Fop.example%2Fu&openid.mode=check_authentication&openid.ns=http%3A%2F%2Fspecs.openid.net%2Fauth%2F2.0&openid.op_endpoint=http%3A%2F%2Fop.example%2F&openid.response_nonce=2005-05-15T17%3A11%3A51Zaa&openid.return_to=http%3A%2F%2Frp.example%2Fback%3Fx%3D1&openid.sig=zz&openid.signed=op_endpoint%2Creturn_to%2Cresponse_nonce%2Cassoc_handle%2Cclaimed_id%2Cidentity&x=1"
       (.ok ⟨200, Utf8.encode t!"is_valid:false\ninvalidate_handle:k\n"⟩),
     .store (.removeAssociation t!"http://op.example/" t!"k") (.ok (.bool true))]) =
    some (.ok (⟨none, none⟩, .ok (.failure none none))) := by decide +kernel

end Props
