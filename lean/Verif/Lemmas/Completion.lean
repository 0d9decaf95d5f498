import Verif.Spec.Completion
import Verif.Props.Consumer
/-! # The calls of a completion, step by step -/

namespace Props
open Py Message Association Cryptutil Store Discover Consumer Spec

theorem discoverAndVerify_calls {W : World} {ms : List ToMatch} {id : Option Str} {evs : List Ev} {r : Except Err Endpoint}
    (h : Runs (discoverAndVerify W ms id) evs r) : AtMostOne (fun ev => ∃ c o, id = some c ∧ ev = .discover c o) evs := by
  cases id with
  | none => exact .inl h.1
  | some c =>
    rw [discoverAndVerify, runs_bind] at h
    rcases h with ⟨e1, e2, a, rfl, h1, h2⟩ | ⟨x, rfl, h1⟩
    · obtain ⟨o, rfl, -⟩ := runs_discover.1 h1
      obtain ⟨rfl, -⟩ := h2
      exact .inr ⟨_, rfl, c, o, rfl, rfl⟩
    · obtain ⟨o, rfl, -⟩ := runs_discover.1 h1
      exact .inr ⟨_, rfl, c, o, rfl, rfl⟩

theorem endpointFor2_calls {W : World} {t : ToMatch} {session : Option Endpoint} {evs : List Ev} {r : Except Err Endpoint}
    (h : Runs (endpointFor2 W t session) evs r) :
    AtMostOne (fun ev => ∃ c o, t.claimedId = some c ∧ ev = .discover c o) evs := by
  cases session with
  | none => exact discoverAndVerify_calls h
  | some e =>
    simp only [endpointFor2] at h
    split at h
    · exact .inl h.1
    · split at h
      · exact discoverAndVerify_calls h
      · exact .inl h.1

theorem endpointFor1_calls {W : World} {t u : ToMatch} {c : Option Str} {session : Option Endpoint} {evs : List Ev}
    {r : Except Err Endpoint} (h : Runs (endpointFor1 W t u c session) evs r) :
    AtMostOne (fun ev => ∃ i o, c = some i ∧ ev = .discover i o) evs := by
  cases session with
  | none => exact discoverAndVerify_calls h
  | some e =>
    simp only [endpointFor1] at h
    split at h
    · exact .inl h.1
    · split at h
      · exact discoverAndVerify_calls h
      · exact .inl h.1

theorem discovery_calls {W : World} {m : Msg} {q : Dict Str Str} {session : Option Endpoint} {evs : List Ev}
    {r : Except Err Endpoint} (hg : Got W.reg m q)
    (hv : (m.getOpenIDNamespace = some OPENID2_NS ∧ ¬ IsV1 q ∧ m.isOpenID1 = false) ∨
     (m.getOpenIDNamespace = some OPENID1_NS ∧ IsV1 q ∧ m.isOpenID1 = true))
    (h : Runs (verifyDiscoveryResults W m session) evs r) :
    AtMostOne (fun ev => ∃ c o, claimedOf session q = some c ∧ ev = .discover c o) evs := by
  rw [verifyDiscoveryResults] at h
  rcases hv with ⟨ho, hv, -⟩ | ⟨ho, hv, -⟩
  · rw [if_pos ho, verifyDiscoveryResults2] at h
    rw [claimedOf, if_neg hv]
    rcases (runs_py_bind _ _ _ _).1 h with ⟨c, h1, h⟩ | ⟨_, _, _, rfl⟩
    · rw [getArg_uri ho (by decide), hg.get _ (by decide) (by decide)] at h1
      simp only [Except.ok.injEq] at h1
      rcases (runs_py_bind _ _ _ _).1 h with ⟨i, h2, h⟩ | ⟨_, _, _, rfl⟩
      · rcases (runs_py_bind _ _ _ _).1 h with ⟨u, h3, h⟩ | ⟨_, _, _, rfl⟩
        · split at h
          · exact .inl h.1
          · exact .inl h.1
          · exact .inl h.1
          · rw [runs_bind] at h
            rcases h with ⟨e1, e2, a, rfl, g1, g2⟩ | ⟨x, rfl, g1⟩
            · obtain ⟨rfl, -⟩ := g2
              rw [List.append_nil]
              rw [h1]
              exact endpointFor2_calls g1
            · rw [h1]
              exact endpointFor2_calls g1
        · exact .inl rfl
      · exact .inl rfl
    · exact .inl rfl
  · rw [if_neg (by rw [ho]; decide), verifyDiscoveryResults1] at h
    rw [claimedOf, if_pos hv]
    rcases (runs_py_bind _ _ _ _).1 h with ⟨c, h1, h⟩ | ⟨_, _, _, rfl⟩
    · rw [hg.bare _ (by decide)] at h1
      simp only [Except.ok.injEq] at h1
      rcases (runs_py_bind _ _ _ _).1 h with ⟨cl, h2, h⟩ | ⟨_, _, _, rfl⟩
      · have hcl : claimedIn session q = cl := by
          rw [claimedIn, show q.get? t!"openid1_claimed_id" = c from h1]
          cases c with
          | some c => simpa [claimedId1] using h2
          | none => cases session <;> simp_all [claimedId1]
        rw [hcl]
        rcases (runs_py_bind _ _ _ _).1 h with ⟨i, h3, h⟩ | ⟨_, _, _, rfl⟩
        · split at h
          · exact .inl h.1
          · exact endpointFor1_calls h
        · exact .inl rfl
      · exact .inl rfl
    · exact .inl rfl

theorem dropAssoc_calls {url h : Str} {evs : List Ev} {r : Except Err Unit} (hr : Runs (dropAssoc url h) evs r) :
    ∃ o, evs = [.store (.removeAssociation url h) o] := by
  rw [dropAssoc] at hr
  obtain ⟨o, rest, rfl, h2⟩ := hr
  cases o <;> (obtain ⟨rfl, -⟩ := h2; exact ⟨_, rfl⟩)

theorem invalidate_calls {C : Conf} {url : Str} {i : Option Str} {evs : List Ev} {r : Except Err Unit}
    (hr : Runs (invalidate C url i) evs r) :
    AtMostOne (fun ev => C.hasStore = true ∧ ∃ h o, i = some h ∧ ev = .store (.removeAssociation url h) o) evs := by
  cases i with
  | none => exact .inl hr.1
  | some h =>
    rw [invalidate] at hr
    split at hr
    · next hs =>
      obtain ⟨o, rfl⟩ := dropAssoc_calls hr
      exact .inr ⟨_, rfl, hs, h, o, rfl, rfl⟩
    · exact .inl hr.1

/-- what asking the provider leads to -/
theorem checkAuth_calls {W : World} {C : Conf} {m : Msg} {url : Str} {evs : List Ev} {r : Except Err Bool}
    (h : Runs (checkAuth W C m url) evs r) :
    ∃ asked dropped, evs = asked ++ dropped ∧
      AtMostOne (fun ev => ∃ ask o, m.setArg .openid t!"mode" t!"check_authentication" = .ok ask ∧
        ev = .post url ask.toURLEncoded o) asked ∧
      AtMostOne (fun ev => C.hasStore = true ∧ ∃ h o body reply, ev = .store (.removeAssociation url h) o ∧
        asked = [.post url body reply] ∧ RepliedWith reply t!"invalidate_handle" h) dropped := by
  rw [checkAuth] at h
  rcases (runs_py_bind _ _ _ _).1 h with ⟨a, h1, h⟩ | ⟨_, _, _, rfl⟩
  case inr => exact ⟨[], [], rfl, .inl rfl, .inl rfl⟩
  cases a with
  | none => exact ⟨[], [], h.1, .inl rfl, .inl rfl⟩
  | some ask =>
    have hask : m.setArg .openid t!"mode" t!"check_authentication" = .ok ask := by
      rw [createCheckAuthRequest] at h1
      obtain ⟨sg, hsg, h1⟩ := bind_eq_ok.1 h1
      obtain ⟨b, hb, h1⟩ := bind_eq_ok.1 h1
      cases b with
      | false => simp at h1
      | true =>
        rw [if_pos rfl] at h1
        obtain ⟨ask', k1, k2⟩ := bind_eq_ok.1 h1
        simp at k2
        rw [k1, k2]
    simp only [postCheckAuth] at h
    rw [runs_handle] at h
    obtain ⟨e1, e2, o, rfl, g1, g2⟩ := h
    obtain ⟨o', rfl, g3⟩ := runs_makeKVPost.1 g1
    refine ⟨_, e2, rfl, .inr ⟨_, rfl, ask, o', hask, rfl⟩, ?_⟩
    split at g2
    · next response =>
      rcases g3 with ⟨hr, rfl, g3⟩ | ⟨e, rfl, g3⟩
      · rw [processCheckAuthResponse] at g2
        rcases (runs_py_bind _ _ _ _).1 g2 with ⟨v, f1, g2⟩ | ⟨_, _, _, rfl⟩
        case inr => exact .inl rfl
        rcases (runs_py_bind _ _ _ _).1 g2 with ⟨i, f2, g2⟩ | ⟨_, _, _, rfl⟩
        case inr => exact .inl rfl
        have key : ∀ {evs r}, Runs (invalidate C url i) evs r →
            AtMostOne (fun ev => C.hasStore = true ∧ ∃ h o body reply, ev = .store (.removeAssociation url h) o ∧
              [Ev.post url ask.toURLEncoded (.ok hr)] = [.post url body reply] ∧
              RepliedWith reply t!"invalidate_handle" h) evs := by
          intro evs r hi
          rcases invalidate_calls hi with h | ⟨ev, h, hs, hd, o, rfl, rfl⟩
          · exact .inl h
          · exact .inr ⟨_, h, hs, hd, o, _, _, rfl, rfl, reply_ok g3 (by decide) (by decide) f2⟩
        rw [runs_bind] at g2
        rcases g2 with ⟨a1, a2, x, rfl, b1, b2⟩ | ⟨x, rfl, b1⟩
        · obtain ⟨rfl, -⟩ := b2
          rw [List.append_nil]
          exact key b1
        · exact key b1
      · simp at g3
    · exact .inl g2.1
    · exact .inl g2.1
    · exact .inl g2.1

theorem fetchAssoc_calls {url : Str} {h : Option Str} {evs : List Ev} {r : Except Err (Option Assoc)}
    (hr : Runs (fetchAssoc url h) evs r) : ∃ o, evs = [.store (.getAssociation url h) o] := by
  rw [fetchAssoc] at hr
  obtain ⟨o, rest, rfl, h2⟩ := hr
  rcases o with _ | (_ | _ | _ | _) <;> (obtain ⟨rfl, -⟩ := h2; exact ⟨_, rfl⟩)

theorem signature_calls {W : World} {C : Conf} {E : Env} {m : Msg} {q : Dict Str Str} {url : Str} {evs : List Ev}
    {r : Except Err Unit} (hp : Server.Parsed m q) (h : Runs (idResCheckSignature W C E m url) evs r) :
    ∃ looked asked dropped, evs = looked ++ asked ++ dropped ∧
      AtMostOne (fun ev => C.hasStore = true ∧ ∃ o, ev = .store (.getAssociation url (arg q t!"assoc_handle")) o) looked ∧
      AtMostOne (fun ev => ∃ ask o, m.setArg .openid t!"mode" t!"check_authentication" = .ok ask ∧
        ev = .post url ask.toURLEncoded o ∧ looked = if C.hasStore then
          [.store (.getAssociation url (arg q t!"assoc_handle")) (.ok (.assoc none))] else []) asked ∧
      AtMostOne (fun ev => C.hasStore = true ∧ ∃ h o body reply, ev = .store (.removeAssociation url h) o ∧
        asked = [.post url body reply] ∧ RepliedWith reply t!"invalidate_handle" h) dropped := by
  rw [idResCheckSignature] at h
  rw [hp.get _ (by decide) (by decide)] at h
  rcases (runs_py_bind _ _ _ _).1 h with ⟨hd, h1, h⟩ | ⟨_, h1, _⟩
  case inr => simp at h1
  simp only [Except.ok.injEq] at h1; subst h1
  have hl : ∀ {evs r}, Runs (storedAssoc C url (arg q t!"assoc_handle")) evs r →
      AtMostOne (fun ev => C.hasStore = true ∧ ∃ o, ev = .store (.getAssociation url (arg q t!"assoc_handle")) o) evs := by
    intro evs r hr
    rw [storedAssoc] at hr
    split at hr
    · next hs =>
      obtain ⟨o, rfl⟩ := fetchAssoc_calls hr
      exact .inr ⟨_, rfl, hs, o, rfl⟩
    · exact .inl hr.1
  rw [runs_bind] at h
  rcases h with ⟨e1, e2, a, rfl, h2, h3⟩ | ⟨x, rfl, h2⟩
  case inr => exact ⟨evs, [], [], by simp, hl h2, .inl rfl, .inl rfl⟩
  cases a with
  | some a =>
    have : e2 = [] := by
      simp only at h3
      split at h3
      · exact h3.1
      · rcases (runs_py_bind _ _ _ _).1 h3 with ⟨b, h4, h5⟩ | ⟨_, _, _, h⟩
        · cases b <;> exact h5.1
        · exact h
    subst this
    exact ⟨e1, [], [], by simp, hl h2, .inl rfl, .inl rfl⟩
  | none =>
    have he1 : e1 = if C.hasStore then
        [.store (.getAssociation url (arg q t!"assoc_handle")) (.ok (.assoc none))] else [] := by
      rw [storedAssoc] at h2
      split at h2
      · next hs => rw [if_pos hs]; exact runs_fetchAssoc_ok.1 h2
      · next hs => rw [if_neg hs]; exact h2.1
    simp only at h3
    have key : ∃ r, Runs (checkAuth W C m url) e2 r := by
      rw [runs_bind] at h3
      rcases h3 with ⟨a1, a2, b, rfl, b1, b2⟩ | ⟨x, rfl, b1⟩
      · have : a2 = [] := by cases b <;> exact b2.1
        subst this
        rw [List.append_nil]
        exact ⟨_, b1⟩
      · exact ⟨_, b1⟩
    obtain ⟨r', key⟩ := key
    obtain ⟨asked, dropped, rfl, c1, c2⟩ := checkAuth_calls key
    refine ⟨e1, asked, dropped, by simp, hl h2, ?_, c2⟩
    rcases c1 with c1 | ⟨ev, c1, ask, o, c3, c4⟩
    · exact .inl c1
    · exact .inr ⟨ev, c1, ask, o, c3, c4, he1⟩

/-- the nonce check: no call, or one that decides the outcome -/
theorem nonce_calls {W : World} {C : Conf} {m : Msg} {q : Dict Str Str} {e : Endpoint} {evs : List Ev}
    {r : Except Err Unit} (hg : Got W.reg m q)
    (hv : (m.getOpenIDNamespace = some OPENID2_NS ∧ ¬ IsV1 q ∧ m.isOpenID1 = false) ∨
     (m.getOpenIDNamespace = some OPENID1_NS ∧ IsV1 q ∧ m.isOpenID1 = true))
    (h : Runs (idResCheckNonce W C m e) evs r) :
    evs = [] ∨ C.hasStore = true ∧ ∃ nonce t salt o, (nonceIn q e.serverUrl).1 = some nonce ∧
      Nonce.split W.digits nonce = .ok (t, salt) ∧ evs = [.store (.useNonce (nonceIn q e.serverUrl).2 t salt) o] ∧
      (r = .ok () ↔ o = .ok (.bool true)) ∧
      Runs (idResCheckNonce W C m e) [.store (.useNonce (nonceIn q e.serverUrl).2 t salt) (.ok (.bool true))] (.ok ()) := by
  have hn : nonceOf m e = .ok (nonceIn q e.serverUrl) := by
    rw [nonceOf, nonceIn]
    rcases hv with ⟨ho, hv, h1'⟩ | ⟨ho, hv, h1'⟩
    · simp only [h1', Bool.false_eq_true, if_false]
      rw [getArg_uri ho (by decide), hg.get _ (by decide) (by decide)]
      simp [hv]
    · simp only [h1', if_true]
      rw [hg.bare _ (by decide)]
      simp [hv, nonceArg]
  rw [idResCheckNonce, hn] at h ⊢
  rcases (runs_py_bind _ _ _ _).1 h with ⟨p, h1, k1⟩ | ⟨_, h1, _⟩
  case inr => simp at h1
  simp only [Except.ok.injEq] at h1
  obtain ⟨n, url⟩ := p
  rw [h1] at hn ⊢
  cases n with
  | none => exact .inl k1.1
  | some n =>
    clear h
    simp only at k1
    rcases (runs_py_bind _ _ _ _).1 k1 with ⟨⟨t, salt⟩, h2, k2⟩ | ⟨_, _, _, k2⟩
    case inr => exact .inl k2
    clear k1
    have h2' : Nonce.split W.digits n = .ok (t, salt) := by
      cases hn' : Nonce.split W.digits n with
      | ok x => rw [hn'] at h2; exact h2
      | error x => rw [hn'] at h2; simp only [asProtocolError] at h2; split at h2 <;> cases h2
    simp only at k2
    by_cases hs : C.hasStore = true
    · refine .inr ⟨hs, n, t, salt, ?_⟩
      have hgood : Runs (do
          let ok ← nonceFresh C url t salt
          if ok = true then pure () else Prog.raise (.py .protocolError))
          [.store (.useNonce url t salt) (.ok (.bool true))] (.ok ()) := by
        rw [runs_bind_ok]
        refine ⟨_, [], true, (List.append_nil _).symm, ?_, by simp⟩
        rw [nonceFresh, if_pos hs, runs_useNonce_ok]
      have hgood' : Runs (Prog.ofPy (Except.ok (ε := PyErr) (some n, url)) >>= fun p => match p with
          | (nonce, url) => match nonce with
            | none => Prog.raise (.py .protocolError)
            | some nonce => do
              let (timestamp, salt) ← Prog.ofPy (asProtocolError (Nonce.split W.digits nonce))
              let ok ← nonceFresh C url timestamp salt
              if ok = true then pure () else Prog.raise (.py .protocolError))
          [.store (.useNonce url t salt) (.ok (.bool true))] (.ok ()) := by
        rw [runs_py_bind_ok]
        refine ⟨_, rfl, ?_⟩
        simp only
        rw [runs_py_bind_ok]
        exact ⟨_, h2, hgood⟩
      rw [nonceFresh, if_pos hs, useNonce] at k2
      change Runs (Prog.store _ _) _ _ at k2
      obtain ⟨o, rest, rfl, k3⟩ := k2
      rcases o with x | (_ | _ | b | _)
      case ok.bool =>
        cases b <;>
        · obtain ⟨rfl, rfl⟩ := k3
          refine ⟨_, rfl, h2', rfl, ?_, hgood'⟩
          simp
      all_goals
        obtain ⟨rfl, rfl⟩ := k3
        refine ⟨_, rfl, h2', rfl, ?_, hgood'⟩
        simp
    · rw [nonceFresh, if_neg hs] at k2
      exact .inl k2.1

end Props
