import Verif.Props.ConsumerAssociate
import Verif.Props.Serve
import Verif.Spec.Negotiate
/-! # C84: how association types are negotiated -/

namespace Props
open Py Message Association Cryptutil Store Discover Consumer Spec DH

theorem kvToDict_wf {text : Str} {d : Dict Str Str} (h : KVForm.kvToDict text = .ok d) : Dict.WF d := by
  rw [KVForm.kvToDict] at h
  obtain ⟨l, -, h⟩ := bind_eq_ok.1 h
  obtain rfl := Except.ok.inj h
  exact Dict.WF_ofPairs _

/-- the reply to a request, when that is an error of the provider, and otherwise -/
theorem request_replied {W : World} {E : Consumer.Env} {priv : Nat} {e : Endpoint} {a t : Str} {evs : List Ev}
    {r : Except Err (Option Assoc)} (h : Runs (requestAssociation W E priv e a t) evs r) {body : Str}
    {o : Except PyErr Http} (he : evs = [.post e.serverUrl body o]) :
    (∀ code m, r = .error (.server code m) → ∃ http text d, o = .ok http ∧ http.status = 400 ∧
      Utf8.decode http.body = .ok text ∧ KVForm.kvToDict text = .ok d ∧ Dict.WF d ∧ fromOpenIDArgs W.reg d = .ok m ∧
      code = d.get? t!"error_code") ∧
    ((∀ code m, r ≠ .error (.server code m)) → ∀ a s, ¬ Suggests W o a s) := by
  rw [requestAssociation, runs_py_bind] at h
  rcases h with ⟨⟨s, m⟩, h1, h2⟩ | ⟨x, -, -, h2⟩
  case inr => rw [he] at h2; cases h2
  simp only at h2
  rw [runs_handle] at h2
  obtain ⟨e1, e2, o1, hevs, h3, h4⟩ := h2
  obtain ⟨o', rfl, h5⟩ := runs_makeKVPost.1 h3
  rw [he] at hevs
  simp only [List.cons_append, List.nil_append, List.cons.injEq, Ev.post.injEq] at hevs
  obtain ⟨⟨-, -, rfl⟩, -⟩ := hevs
  constructor
  · intro code m' hr
    subst hr
    rcases h5 with ⟨http, rfl, h5⟩ | ⟨er, rfl, rfl⟩
    · have hx : httpResponseToMessage W http = .error (.server code m') := by
        rw [h5]
        split at h4
        · have h6 := h4.2
          unfold noAssociation at h6
          split at h6
          · cases h6
          · split at h6 <;> cases h6
        · exact absurd h4.2 (by simp)
        · exact (Except.error.inj h4.2) ▸ rfl
      rw [httpResponseToMessage] at hx
      cases ht : Utf8.decode http.body with
      | error x => rw [ht] at hx; cases hx
      | ok text =>
        rw [ht] at hx
        simp only [lift, ok_bind] at hx
        cases hd : fromKVForm W.reg text with
        | error x => rw [hd] at hx; cases hx
        | ok m1 =>
          rw [hd] at hx
          simp only [ok_bind] at hx
          rw [fromKVForm] at hd
          obtain ⟨d, hd1, hd2⟩ := bind_eq_ok.1 hd
          split at hx
          · next hst =>
            have hw := kvToDict_wf hd1
            have hg := (fromOpenIDArgs_has hw hd2).2
            rw [serverError, hg _ (by decide) (by decide), hg _ (by decide) (by decide)] at hx
            simp only [lift, ok_bind, Except.error.injEq, Err.server.injEq] at hx
            obtain ⟨rfl, rfl⟩ := hx
            exact ⟨http, text, d, rfl, hst, ht, hd1, hw, hd2, rfl⟩
          · split at hx <;> cases hx
    · split at h4
      · next hx => cases hx
      · cases h4.2
      · next x _ hx =>
        obtain rfl := Except.error.inj hx
        cases h4.2
  · rintro hr a' s' ⟨http, text, d, m1, rfl, hst, ht, hd1, hd2, -, -, -, -⟩
    have hw := kvToDict_wf hd1
    have hg := (fromOpenIDArgs_has hw hd2).2
    rcases h5 with ⟨http', ho, h5⟩ | ⟨er, ho, -⟩
    · obtain rfl := Except.ok.inj ho
      have hx : httpResponseToMessage W http = .error (.server (d.get? t!"error_code") m1) := by
        rw [httpResponseToMessage, ht]
        simp only [lift, ok_bind, fromKVForm, hd1, hd2, if_pos hst]
        rw [serverError, hg _ (by decide) (by decide), hg _ (by decide) (by decide)]
        rfl
      rw [hx] at h5
      subst h5
      exact hr _ _ h4.2.symm
    · cases ho

/-- an association that a reply grants is made -/
theorem extract_grants {W : World} {now : Int} {response : Msg} {d : Dict Str Str} {s s' : Session} {a : Assoc} {expires : Str}
    (hd : Dict.WF d) (hm : fromOpenIDArgs W.reg d = .ok response) (h1 : d.get? t!"assoc_handle" = some a.handle)
    (h2 : d.get? t!"assoc_type" = some a.assocType) (h3 : d.get? t!"expires_in" = some expires)
    (h4 : parseInt W.digits expires = .ok a.lifetime) (h5 : a.issued = now)
    (h6 : (d.get? t!"ns" = some t!"http://specs.openid.net/auth/2.0" ∨ d.get? t!"ns" = none ∨
        d.get? t!"ns" = some t!"http://openid.net/signon/1.0") ∧ s' = s ∧ d.get? t!"session_type" = some s'.sessionType ∨
     (d.get? t!"ns" = none ∨ d.get? t!"ns" = some t!"http://openid.net/signon/1.0") ∧ s' = .plain ∧
       (d.get? t!"session_type" = none ∨ d.get? t!"session_type" = some [] ∨
        d.get? t!"session_type" = some s'.sessionType))
    (h7 : a.assocType ∈ assocTypesOf s'.sessionType) (h8 : s'.extractSecret W response = .ok a.secret) :
    extractAssociation W now response s = .ok a := by
  obtain ⟨ho, hget⟩ := fromOpenIDArgs_has hd hm
  have hns : response.getOpenIDNamespace = some ((d.get? t!"ns").getD OPENID1_NS) := ho.ns
  have hne : s'.sessionType ≠ [] := by rcases s' with _ | ⟨_ | _, _⟩ <;> simp [Session.sessionType]
  have hreply : ∃ t, replySessionType response = .ok t ∧ sessionFor response s t = .ok s' := by
    have hone : (d.get? t!"ns" = none ∨ d.get? t!"ns" = some t!"http://openid.net/signon/1.0") → response.isOpenID1 = true ∧
        response.getArg (.uri OPENID1_NS) t!"session_type" = .ok (d.get? t!"session_type") := by
      intro h
      have hn : response.getOpenIDNamespace = some OPENID1_NS := by
        rw [hns]; rcases h with h | h <;> rw [h] <;> rfl
      exact ⟨by rw [Msg.isOpenID1, hn]; decide, by rw [getArg_uri hn (by decide), hget _ (by decide) (by decide)]⟩
    rcases h6 with ⟨hn, rfl, hs⟩ | ⟨hn, rfl, hs⟩
    · refine ⟨s'.sessionType, ?_, by rw [sessionFor, if_pos rfl]⟩
      rw [← or_assoc, or_comm, ← or_assoc] at hn
      by_cases hn1 : d.get? t!"ns" = none ∨ d.get? t!"ns" = some t!"http://openid.net/signon/1.0"
      · obtain ⟨k1, k2⟩ := hone hn1
        rw [replySessionType, if_pos k1, getOpenID1SessionType, k2, hs]
        simp only [ok_bind, Option.some.injEq, if_neg hne]
        rfl
      · have hn2 : response.getOpenIDNamespace = some OPENID2_NS := by
          rw [hns]
          rcases hn with (hn | hn) | hn
          · exact absurd (.inr hn) hn1
          · rw [hn]; rfl
          · exact absurd (.inl hn) hn1
        have k1 : response.isOpenID1 = false := by rw [Msg.isOpenID1, hn2]; decide
        rw [replySessionType, k1]
        simp only [Bool.false_eq_true, if_false]
        rw [getArgReq_ok, getArg_uri hn2 (by decide), hget _ (by decide) (by decide), hs]
    · obtain ⟨k1, k2⟩ := hone hn
      refine ⟨t!"no-encryption", ?_, ?_⟩
      · rw [replySessionType, if_pos k1, getOpenID1SessionType, k2]
        rcases hs with hs | hs | hs <;> rw [hs] <;> rfl
      · unfold sessionFor
        split
        · next he =>
          rcases s with _ | ⟨_ | _, _⟩ <;> first | rfl | (revert he; simp [Session.sessionType])
        · rw [if_pos (by simp [k1])]
  obtain ⟨t, hr1, hr2⟩ := hreply
  rw [extractAssociation]
  rw [(getArgReq_ok).2 (by rw [hget _ (by decide) (by decide), h2]), ok_bind,
    (getArgReq_ok).2 (by rw [hget _ (by decide) (by decide), h1]), ok_bind,
    (getArgReq_ok).2 (by rw [hget _ (by decide) (by decide), h3]), ok_bind, h4]
  simp only [asProtocolError, ok_bind, hr1, hr2, h8]
  rw [if_pos (by rw [allowed_eq]; simpa using h7), Assoc.fromExpiresIn, Assoc.new, if_pos, ← h5]
  have : a.assocType ∈ [t!"HMAC-SHA1", t!"HMAC-SHA256"] := by
    rw [← allowed_eq] at h7
    rcases s' with _ | ⟨_ | _, _⟩ <;> simp [Session.allowedAssocTypes] at h7 ⊢ <;> grind
  simp only [List.mem_cons, List.not_mem_nil, or_false] at this
  rcases this with h | h <;> rw [h] <;> decide

/-- an association that the reply grants is the result -/
theorem request_grants {W : World} {E : Consumer.Env} {priv : Nat} {e : Endpoint} {a t : Str} {evs : List Ev}
    {r : Except Err (Option Assoc)} (h : Runs (requestAssociation W E priv e a t) evs r) {body : Str}
    {o : Except PyErr Http} (he : evs = [.post e.serverUrl body o]) {x : Assoc} (hx : Grants W E t body o x) :
    r = .ok (some x) := by
  rw [requestAssociation, runs_py_bind] at h
  rcases h with ⟨⟨s, m⟩, h1, h2⟩ | ⟨x, -, -, h2⟩
  case inr => rw [he] at h2; cases h2
  obtain ⟨hs, hask, hkey⟩ := createRequest_ok h1
  simp only at h2
  rw [runs_handle] at h2
  obtain ⟨e1, e2, o1, hevs, h3, h4⟩ := h2
  obtain ⟨o', rfl, h5⟩ := runs_makeKVPost.1 h3
  rw [he] at hevs
  simp only [List.cons_append, List.nil_append, List.cons.injEq, Ev.post.injEq] at hevs
  obtain ⟨⟨-, hb, rfl⟩, -⟩ := hevs
  rw [← hb] at hkey
  obtain ⟨http, text, d, m1, expires, used, rfl, hst, ht, hd, hm, g1, g2, g3, g4, g5, g6, g7, g8, g9⟩ := hx
  have hw := kvToDict_wf hd
  have hget := (fromOpenIDArgs_has hw hm).2
  have hmsg : httpResponseToMessage W http = .ok m1 := by
    rw [httpResponseToMessage, ht]
    simp only [lift, ok_bind, fromKVForm, hd, hm]
    rw [if_neg (by omega), if_pos hst]
    rfl
  rcases h5 with ⟨http', ho, h5⟩ | ⟨er, ho, -⟩
  case inr => cases ho
  obtain rfl := Except.ok.inj ho
  rw [hmsg] at h5
  subst h5
  have key : ∀ s' : Session, s'.sessionType = used → (s' = s ∨ s' = .plain) → s'.extractSecret W m1 = .ok x.secret := by
    intro s' hu hs'
    cases s' with
    | plain =>
      obtain ⟨k, k1, k2⟩ := g8 hu.symm
      rw [Session.extractSecret, getArgReq_ok.2 (by rw [hget _ (by decide) (by decide), k1]), ok_bind, k2]
    | dh b dh =>
      have hss : Session.dh b dh = s := hs'.resolve_right (fun h => by cases h)
      obtain ⟨pub, enc, k1, k2, k3⟩ := g9 (by rw [← hu]; cases b <;> simp [Session.sessionType])
      have k3 := k3 dh (hkey b dh hss.symm)
      have hh : W.hash b = if used = t!"DH-SHA256" then W.sha256 else W.sha1 := by rw [← hu]; cases b <;> rfl
      rw [← hh] at k3
      have k4 := k3
      rw [DiffieHellman.xorSecret] at k4
      obtain ⟨sh, l1, k4⟩ := bind_eq_ok.1 k4
      obtain ⟨_, -, k4⟩ := bind_eq_ok.1 k4
      obtain ⟨z, l2, k4⟩ := bind_eq_ok.1 k4
      rw [DiffieHellman.getSharedSecret] at l1
      obtain ⟨y, l1, -⟩ := bind_eq_ok.1 l1
      rw [Session.extractSecret, getArgReq_ok.2 (by rw [hget _ (by decide) (by decide), k1]), ok_bind,
        getArgReq_ok.2 (by rw [hget _ (by decide) (by decide), k2]), ok_bind, l1, ok_bind, fromBase64, l2, ok_bind, k3, ok_bind]
      have := c04_base64 x.secret
      rwa [fromBase64] at this
  have hex : extractAssociation W (E.seconds W) m1 s = .ok x := by
    rcases g6 with ⟨hn, rfl, hst⟩ | ⟨hn, rfl, hst⟩
    · exact extract_grants (s' := s) hw hm g1 g2 g3 g4 g5 (.inl ⟨hn, rfl, by rw [hs]; exact hst⟩) (by rw [hs]; exact g7)
        (key s hs (.inl rfl))
    · exact extract_grants (s' := .plain) hw hm g1 g2 g3 g4 g5 (.inr ⟨hn, rfl, hst⟩) g7 (key .plain rfl (.inr rfl))
  simp only at h4
  rw [← h4.2, hex]
  rfl

/-- what is made of an error of the provider -/
theorem supported_iff {W : World} {n : Negotiator} {http : Http} {text : Str} {d : Dict Str Str} {m : Msg}
    (hst : http.status = 400) (ht : Utf8.decode http.body = .ok text) (hd : KVForm.kvToDict text = .ok d) (hw : Dict.WF d)
    (hm : fromOpenIDArgs W.reg d = .ok m) :
    ∃ q, extractSupportedAssociationType n (d.get? t!"error_code") m = .ok q ∧
      ∀ a s, q = some (a, s) ↔ Suggests W (.ok http) a s ∧ Permits n a s := by
  obtain ⟨hh, hg⟩ := fromOpenIDArgs_has hw hm
  have hsug : ∀ a s, Suggests W (.ok http) a s ↔ d.get? t!"ns" = some t!"http://specs.openid.net/auth/2.0" ∧
      d.get? t!"error_code" = some t!"unsupported-type" ∧ d.get? t!"assoc_type" = some a ∧ d.get? t!"session_type" = some s := by
    intro a s
    constructor
    · rintro ⟨http', text', d', m', he, -, ht', hd', -, h⟩
      obtain rfl := Except.ok.inj he
      rw [ht] at ht'
      obtain rfl := Except.ok.inj ht'
      rw [hd] at hd'
      obtain rfl := Except.ok.inj hd'
      exact h
    · intro h
      exact ⟨http, text, d, m, rfl, hst, ht, hd, hm, h⟩
  have hv : m.isOpenID1 = false ↔ d.get? t!"ns" = some t!"http://specs.openid.net/auth/2.0" := by
    have h1 := hh.ns
    have h2 := hh.inv.oid _ hh.ns
    rw [Msg.isOpenID1, Msg.getOpenIDNamespace, NamespaceMap.getNamespaceURI, h1]
    cases hns : d.get? t!"ns" with
    | none => simp only [Option.getD]; decide
    | some u =>
      rw [hns] at h2
      simp only [Option.getD] at h2 ⊢
      simp only [List.mem_cons, List.not_mem_nil, or_false] at h2
      rcases h2 with rfl | rfl | rfl <;> decide
  unfold extractSupportedAssociationType
  by_cases hc : d.get? t!"error_code" = some t!"unsupported-type"
  · by_cases h1 : m.isOpenID1 = true
    · refine ⟨none, by simp [h1], fun a s => ⟨nofun, fun h => ?_⟩⟩
      have := hv.2 ((hsug a s).1 h.1).1
      rw [h1] at this; cases this
    · have h1 : m.isOpenID1 = false := by simpa using h1
      rw [if_neg (by simp [hc, h1]), hg _ (by decide) (by decide), hg _ (by decide) (by decide)]
      simp only [ok_bind]
      cases ha : d.get? t!"assoc_type" with
      | none => exact ⟨none, rfl, fun a s => ⟨nofun, fun h => by
          have := ((hsug a s).1 h.1).2.2.1; rw [ha] at this; cases this⟩⟩
      | some a0 =>
        cases hs : d.get? t!"session_type" with
        | none => exact ⟨none, rfl, fun a s => ⟨nofun, fun h => by
            have := ((hsug a s).1 h.1).2.2.2; rw [hs] at this; cases this⟩⟩
        | some s0 =>
          have hsug0 : Suggests W (.ok http) a0 s0 := (hsug a0 s0).2 ⟨hv.1 h1, hc, ha, hs⟩
          have huniq : ∀ a s, Suggests W (.ok http) a s → a = a0 ∧ s = s0 := fun a s h => by
            have h := (hsug a s).1 h
            rw [ha, hs] at h
            exact ⟨(Option.some.inj h.2.2.1).symm, (Option.some.inj h.2.2.2).symm⟩
          by_cases hp : n.isAllowed a0 s0 = true
          · refine ⟨some (a0, s0), by simp [hp], fun a s => ⟨fun h => ?_, fun h => ?_⟩⟩
            · obtain ⟨rfl, rfl⟩ := Prod.mk.inj (Option.some.inj h)
              exact ⟨hsug0, Server.permits_iff.1 hp⟩
            · obtain ⟨rfl, rfl⟩ := huniq a s h.1; rfl
          · refine ⟨none, by simp [hp], fun a s => ⟨nofun, fun h => ?_⟩⟩
            obtain ⟨rfl, rfl⟩ := huniq a s h.1
            exact absurd (Server.permits_iff.2 h.2) hp
  · refine ⟨none, by simp [hc], fun a s => ⟨nofun, fun h => ?_⟩⟩
    exact absurd ((hsug a s).1 h.1).2.1 hc

/-- a negotiation that ended without exception -/
theorem negotiate_asked {W : World} {C : Conf} {E : Consumer.Env} {e : Endpoint} {evs : List Ev} {x : Option Assoc}
    (h : Runs (negotiateAssociation W C E e) evs (.ok x)) :
    ∃ p body o, Asked W C e evs p body o ∧ (∀ a, x = some a → Granted W E p.2 body o a) ∧
      ∀ a, Grants W E p.2 body o a → x = some a := by
  unfold negotiateAssociation at h
  cases hn : C.negotiator.getAllowedType with
  | none => rw [hn] at h; cases h.2
  | some p =>
    obtain ⟨a, t⟩ := p
    have hfirst : C.negotiator.head? = some (a, t) := hn
    rw [hn] at h
    simp only at h
    rw [runs_handle] at h
    obtain ⟨e1, e2, o, rfl, h1, h2⟩ := h
    have hq := runs_requestAssociation h1
    by_cases hsv : ∃ code m, o = .error (.server code m)
    · obtain ⟨code, m, rfl⟩ := hsv
      rcases hq with ⟨-, y, hy⟩ | ⟨body, o, rfl, hask, -⟩
      · cases hy
      · obtain ⟨http, text, d, rfl, hst, ht, hd, hw, hm, rfl⟩ := (request_replied h1 rfl).1 _ _ rfl
        obtain ⟨q, hq1, hq2⟩ := supported_iff (n := C.negotiator) hst ht hd hw hm
        simp only at h2
        rw [hq1, runs_py_bind_ok] at h2
        obtain ⟨sup, hs, h2⟩ := h2
        obtain rfl := Except.ok.inj hs
        cases q with
        | none =>
          obtain ⟨rfl, hx⟩ := h2
          obtain rfl := Except.ok.inj hx
          refine ⟨_, _, _, .once body _ (a, t) hfirst hask fun a s hs hp => ?_, nofun, fun y hy => ?_⟩
          · cases (hq2 a s).2 ⟨hs, hp⟩
          · cases request_grants h1 rfl hy
        | some q =>
          obtain ⟨a', t'⟩ := q
          obtain ⟨hs, hp⟩ := (hq2 a' t').1 rfl
          simp only [retryAssociation] at h2
          rw [runs_handle] at h2
          obtain ⟨e3, e4, o2, rfl, k1, k2⟩ := h2
          have k1' := runs_requestAssociation k1
          have he4 : e4 = [] := by split at k2 <;> exact k2.1
          subst he4
          rcases k1' with ⟨rfl, y, rfl⟩ | ⟨body2, o', rfl, hask2, hgr⟩
          · cases k2.2
          · refine ⟨_, _, _, .twice body _ (a, t) hfirst hask (a', t') hs hp body2 o' hask2, fun y hy => ?_, fun y hy => ?_⟩
            · subst hy
              refine hgr y ?_
              split at k2
              · cases k2.2
              · exact k2.2
            · have := request_grants k1 rfl hy
              subst this
              exact (Except.ok.inj k2.2).symm
    · have hh : e2 = [] ∧ o = .ok x := by
        split at h2
        · exact absurd ⟨_, _, rfl⟩ hsv
        · exact h2
      obtain ⟨rfl, rfl⟩ := hh
      rcases hq with ⟨rfl, y, hy⟩ | ⟨body, o', rfl, hask, hgr⟩
      · cases hy
      · refine ⟨_, _, _, .once body o' (a, t) hfirst hask fun a s hs _ => ?_, fun y hy => hgr y (by rw [hy]), fun y hy => ?_⟩
        · exact (request_replied h1 rfl).2 (fun _ _ => nofun) a s hs
        · exact Except.ok.inj (request_grants h1 rfl hy)

theorem usable_iff {W : World} {E : Consumer.Env} {x : Option Assoc} :
    usable W E x = true ↔ ∃ a, x = some a ∧ Lasting W E a := by
  cases x with
  | none => simp [usable]
  | some a =>
    have : usable W E (some a) = decide (0 < a.getExpiresIn (E.seconds W)) := rfl
    rw [this, decide_eq_true_eq, Assoc.getExpiresIn]
    simp only [Lasting, Option.some.injEq, exists_eq_left']
    omega

theorem getAssociation_obtains {W : World} {C : Conf} {E : Consumer.Env} {e : Endpoint} {evs : List Ev} {x : Option Assoc}
    (hs : C.hasStore = true) (h : Runs (Consumer.getAssociation W C E e) evs (.ok x)) : Obtains W C E e evs x := by
  rw [Consumer.getAssociation, runs_bind_ok] at h
  obtain ⟨e1, e2, a, rfl, h1, h2⟩ := h
  have h1 : e1 = [.store (.getAssociation e.serverUrl none) (.ok (.assoc a))] := by
    simp only [fetchAssoc, Consumer.Runs] at h1
    obtain ⟨o, rest, rfl, h1⟩ := h1
    split at h1
    · obtain ⟨rfl, h1⟩ := h1
      obtain rfl := Except.ok.inj h1
      rfl
    · cases h1.2
    · cases h1.2
  subst h1
  split at h2
  · next hu =>
    obtain ⟨rfl, hx⟩ := h2
    obtain rfl := Except.ok.inj hx
    obtain ⟨b, rfl, hb⟩ := usable_iff.1 hu
    exact .stored hs b hb
  · next hu =>
    have hu : ∀ b, a = some b → ¬ Lasting W E b := fun b hb hl => hu (usable_iff.2 ⟨b, hb, hl⟩)
    rw [negotiateAndStore, runs_bind_ok] at h2
    obtain ⟨e3, e4, b, rfl, h3, h4⟩ := h2
    obtain ⟨p, body, o, hask, hgr, hgs⟩ := negotiate_asked h3
    cases b with
    | none =>
      obtain ⟨rfl, hx⟩ := h4
      obtain rfl := Except.ok.inj hx
      rw [List.append_nil]
      exact .refused hs a hu e3 p body o hask (fun y hy => nomatch hgs y hy)
    | some b =>
      simp only at h4
      rw [runs_bind_ok] at h4
      obtain ⟨e5, e6, _, rfl, h5, h6, hx⟩ := h4
      obtain rfl := Except.ok.inj hx
      subst h6
      simp only [putAssoc, Consumer.Runs] at h5
      obtain ⟨o', rest, rfl, h5⟩ := h5
      split at h5
      · obtain ⟨rfl, -⟩ := h5
        exact .granted hs a hu e3 p body o hask b (hgr b rfl) _
      · cases h5.2

/-- **C84** how the association of a request comes about, whatever the provider replies: when `beginWithoutDiscovery`
    returns a request, the store was asked and what it had taken, if there was time left; otherwise the first
    pair of types of the negotiator was asked for, and then, exactly if the reply suggested a pair that is permitted, that
    one; what the last reply granted was stored and is the association of the request. -/
theorem c84_obtains {W : World} {C : Conf} {E : Consumer.Env} {s s' : UserSession} {e : Endpoint} {anonymous : Bool}
    {evs : List Ev} {req : AuthRequest} (h : Runs (beginWithoutDiscovery W C E s e anonymous) evs (.ok (s', .ok req))) :
    Obtains W C E e evs req.assoc := by
  rw [beginWithoutDiscovery, runs_handle] at h
  obtain ⟨e1, e2, o, rfl, h1, h2⟩ := h
  split at h2
  · have := h2.2
    simp only [Except.ok.injEq, Prod.mk.injEq, reduceCtorEq, and_false] at this
  · next r =>
    obtain ⟨rfl, h2⟩ := h2
    simp only [Except.ok.injEq, Prod.mk.injEq] at h2
    have hr : req.assoc = r.assoc := by
      have h3 := h2.2
      unfold anonymousOr AuthRequest.setAnonymous at h3
      split at h3
      · next r' hr' =>
        obtain rfl := Except.ok.inj h3
        split at hr'
        · cases hr'
        · obtain rfl := Except.ok.inj hr'; rfl
      · split at h3 <;> cases h3
    rw [List.append_nil, hr]
    rw [genericBegin, runs_bind_ok] at h1
    obtain ⟨e3, e4, a, rfl, h3, h4⟩ := h1
    rw [runs_py_bind_ok] at h4
    obtain ⟨r0, h5, rfl, h6⟩ := h4
    obtain rfl := Except.ok.inj h6
    have ha : (r0.addReturnToArgs W E).assoc = a := by
      rw [AuthRequest.new] at h5
      obtain ⟨m, -, h5⟩ := bind_eq_ok.1 h5
      obtain rfl := Except.ok.inj h5
      rfl
    rw [List.append_nil, ha]
    unfold associationFor at h3
    split at h3
    · next hs => exact getAssociation_obtains hs h3
    · next hs =>
      obtain ⟨rfl, h3⟩ := h3
      obtain rfl := Except.ok.inj h3
      exact .none (by simpa using hs)

/-- **C84**, not so: a provider of this library that does not do what is asked for says so, and what it would do, but with
    HTTP status 200 (openid/server/server.py:1346-1349), and so a consumer of this library neither takes the suggestion nor
    reports anything: it makes no second request, stores nothing and goes on without an association. -/
theorem c84_own_refusal {σ : Type} {WS : Server.World} {ES : Server.Env} {step : σ → Event → σ × Outcome} (op : Option Str)
    (n : Negotiator) (text : Server.Reason → Option Msg → Str) (q : Dict Str Str) (hq : Dict.WF q) (r : Server.AssociateRequest)
    (hd : Server.decode WS ES op q = .ok (some (.associate r))) (hp : ¬ Permits n r.assocType r.session.sessionType)
    (hn : ∀ p ∈ n, '\n' ∉ p.1 ∧ '\n' ∉ p.2) (hv : ¬ IsV1 q) (s : σ) :
    ∃ body, Server.Prog.run step ES.now s (Server.serverEndPoint WS ES op n text q) = (s, .ok (.web ⟨200, none, body⟩)) ∧
      ∀ (W : World) (C : Conf) (E : Consumer.Env) (u u' : UserSession) (e : Endpoint) (anonymous : Bool) (evs : List Ev)
        (req : AuthRequest), Runs (beginWithoutDiscovery W C E u e anonymous) evs (.ok (u', .ok req)) →
        (∀ url b o, .post url b o ∈ evs → o = .ok ⟨200, Utf8.encode body⟩) →
        (∃ a, evs = [.store (.getAssociation e.serverUrl none) (.ok (.assoc (some a)))] ∧ Lasting W E a ∧ req.assoc = some a) ∨
        (evs.filter isPost).length ≤ 1 ∧ evs.filter isStored = [] ∧ req.assoc = none := by
  obtain ⟨body, why, h1, d, hd1, hw, hd2⟩ := (c66_unsupported (step := step) op n text q hq r hd hp hn s).1 hv
  refine ⟨body, h1, fun W C E u u' e anonymous evs req hr ho => ?_⟩
  have key : ∀ {posts p b o}, Asked W C e posts p b o → (∀ ev ∈ posts, ev ∈ evs) → posts = [.post e.serverUrl b o] ∧
      ∀ a, ¬ Granted W E p.2 b o a := by
    intro posts p b o hask hin
    cases hask with
    | once _ _ _ hf ha hno =>
      refine ⟨rfl, fun a hg => ?_⟩
      obtain rfl := ho e.serverUrl b o (hin _ (List.mem_cons_self ..))
      obtain ⟨http, text', d', _, _, hh, -, ht, hd', hhandle, -⟩ := hg
      obtain rfl := Except.ok.inj hh
      rw [Utf8.decode_encode] at ht
      obtain rfl := Except.ok.inj ht
      rw [hd1] at hd'
      obtain rfl := Except.ok.inj hd'
      obtain ⟨y, -, h2 | ⟨-, h3, -⟩⟩ := (hd2 _ _).1 hhandle
      · simp [argsOf] at h2
      · exact absurd h3 (by decide)
    | twice b1 o1 p1 hf ha _ hs hm b2 o2 ha2 =>
      exfalso
      obtain ⟨http, _, _, _, hh, hst, -⟩ := hs
      have := ho _ _ _ (hin (.post e.serverUrl b1 o1) (by simp))
      rw [hh] at this
      obtain rfl := Except.ok.inj this
      simp at hst
  have hob := c84_obtains hr
  generalize req.assoc = x at hob ⊢
  cases hob with
  | none hs => right; simp [*]
  | stored hs a ha => exact .inl ⟨a, rfl, ha, by simp [*]⟩
  | refused hs x hx posts p b o hask =>
    obtain ⟨rfl, -⟩ := key hask fun ev hev => List.mem_cons_of_mem _ hev
    right
    exact ⟨Nat.le_refl 1, rfl, rfl⟩
  | granted hs x hx posts p b o hask a hg answer =>
    exact absurd hg ((key hask fun ev hev => by simp [hev]).2 a)

/-- what a provider that does only SHA-1 says to the first request of `negotiation0` -/
def refusal0 : Str := t!"assoc_type:HMAC-SHA1\nerror:Association type 'HMAC-SHA256' is not supported with session type 'no-encryption'\nerror_code:unsupported-type\nns:http://specs.openid.net/auth/2.0\nsession_type:no-encryption\n"

/-- the consumer of `negotiation0` with that provider: it would take what is suggested, but goes on without association -/
example : (end0 none [(t!"HMAC-SHA1", t!"no-encryption")] (Percent.parseQsl true (assocBody0 t!"HMAC-SHA256"))).2 =
      .ok (.web ⟨200, none, refusal0⟩) ∧
    begun0 (play (beginWithoutDiscovery cworld0 plainConf0 cenv0 ⟨none, none⟩ endpoint0 false)
      [.store (.getAssociation t!"http://op.example/" none) (.ok (.assoc none)),
       .post t!"http://op.example/" (assocBody0 t!"HMAC-SHA256") (.ok ⟨200, Utf8.encode refusal0⟩)]) = some none ∧
    ¬ IsV1 (Percent.parseQsl true (assocBody0 t!"HMAC-SHA256")) :=
  ⟨by decide +kernel, by decide +kernel, fun h => by
    rcases h t!"http://specs.openid.net/auth/2.0" (by decide +kernel) with h | h <;> revert h <;> decide⟩

/-- a suggestion that is taken: the execution of `Props/ConsumerAssociate`, with a second request -/
example : ∃ s' req, Runs (beginWithoutDiscovery cworld0 plainConf0 cenv0 ⟨none, none⟩ endpoint0 false) negotiation0
    (.ok (s', .ok req)) ∧ req.assoc = some ⟨t!"h", [1, 2], 5, 10, t!"HMAC-SHA1"⟩ := by
  have h : (play (beginWithoutDiscovery cworld0 plainConf0 cenv0 ⟨none, none⟩ endpoint0 false) negotiation0).map (fun r =>
      match r with
      | .ok (_, .ok r) => r.assoc
      | _ => none) = some (some ⟨t!"h", [1, 2], 5, 10, t!"HMAC-SHA1"⟩) := by decide +kernel
  obtain ⟨r, h1, h2⟩ := Option.map_eq_some_iff.1 h
  split at h2
  · exact ⟨_, _, play_runs h1, h2⟩
  · cases h2

end Props
