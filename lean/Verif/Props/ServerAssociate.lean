import Verif.Props.ServerAnswer
import Verif.Lemmas.ServerAssociate
/-! # C36, the server's part: what `openid_associate` stores and answers -/

namespace Props
open Py Message Association Cryptutil DH Store Server Spec

/-- **C36** A request for a pair the negotiator permits: the store then holds a new association of the type asked for,
    and nothing else changed; the answer gives its handle, its lifetime and its secret, the secret as the session
    demands. -/
theorem c36_allowed {σ : Type} {step : σ → Event → σ × Outcome} {view : σ → AssocMap} (W : World) (E : Env)
    (hf : Faithful W.clock step view) (n : Negotiator) (r : AssociateRequest) (s s' : σ) (resp : Response)
    (hp : Permits n r.assocType r.session.sessionType)
    (h : Prog.run step E.now s (openidAssociate W E n r) = (s', .ok resp)) :
    ∃ a oid kvs, Makes W E a ∧ a.assocType = r.assocType ∧
      view s' = (fun u k => if u = t!"http://localhost/|normal" ∧ k = a.handle then some a else view s u k) ∧
      resp.request = .associate r ∧ r.message.getOpenIDNamespace = some oid ∧
      SecretFor W r.session a.secret kvs ∧
      Carries resp.fields oid (argsOf ([(t!"expires_in", some t!"1209600"), (t!"assoc_type", some r.assocType),
        (t!"assoc_handle", some a.handle)] ++ kvs ++
        [(t!"session_type", if r.session = .plain ∧ MsgV1 r.message then none else some r.session.sessionType)])) := by
  unfold openidAssociate at h
  rw [if_pos (permits_iff.2 hp)] at h
  obtain ⟨s1, a, h1, h2⟩ := run_bind_ok _ _ h
  rcases run_create hf h1 with ⟨a', ha', hn, hv⟩ | ⟨e, he, -⟩
  · simp only [Except.ok.injEq] at ha'; subst ha'
    simp only [run_done, Prod.mk.injEq] at h2
    obtain ⟨rfl, h2⟩ := h2
    obtain ⟨hm, ht⟩ := newAssociation_ok hn
    have hexp : intToStr (a.getExpiresIn (E.seconds W)) = t!"1209600" := by
      obtain ⟨k, -, -, hi, hl, -⟩ := hm
      simp only [Assoc.getExpiresIn, hi, hl, Env.seconds]
      rw [show max 0 (W.clock.seconds E.now + 1209600 - W.clock.seconds E.now) = 1209600 by omega]
      decide
    unfold AssociateRequest.answer at h2
    obtain ⟨r0, g0, h2⟩ := bind_eq_ok.1 h2
    obtain ⟨r1, g1, h2⟩ := bind_eq_ok.1 h2
    obtain ⟨kvs, g2, h2⟩ := bind_eq_ok.1 h2
    obtain ⟨r2, g3, h2⟩ := bind_eq_ok.1 h2
    obtain ⟨q0, hex, hnone⟩ := Response.new_ok g0
    obtain ⟨q1, u1⟩ := Response.update_ok g1
    obtain ⟨q2, u2⟩ := Response.update_ok g3
    cases ho : r.message.getOpenIDNamespace with
    | none =>
      have : r0.fields = {} := hnone (by simpa [Request.message] using ho)
      rw [this] at u1
      simp [Msg.updateArgs, Msg.fixNS, Msg.getOpenIDNamespace, NamespaceMap.getNamespaceURI, Dict.get?] at u1
    | some oid =>
      have x0 := hex oid (by simpa [Request.message] using ho)
      obtain ⟨m1, e1, x1⟩ := Exactly.updateNew (l := []) x0 [(t!"expires_in", intToStr (a.getExpiresIn (E.seconds W))),
        (t!"assoc_type", r.assocType), (t!"assoc_handle", a.handle)] (by simp [Dict.WF, Dict.keys]) (by simp)
      rw [e1] at u1; simp only [Except.ok.injEq] at u1; subst u1
      obtain ⟨hsec, hkeys⟩ := answer_secretFor g2
      obtain ⟨m2, e2, x2⟩ := Exactly.updateNew x1 kvs (by
        rcases hkeys with h | h <;> rw [Dict.WF, h] <;> decide) (by
        rcases hkeys with h | h <;> rw [h] <;> simp)
      rw [e2] at u2; simp only [Except.ok.injEq] at u2; subst u2
      have hfresh : t!"session_type" ∉ (([] ++ [(t!"expires_in", intToStr (a.getExpiresIn (E.seconds W))),
          (t!"assoc_type", r.assocType), (t!"assoc_handle", a.handle)].map (fun p => (p.1, some p.2)) ++
          kvs.map fun p => (p.1, some p.2)) : List (Str × Option Str)).map (·.1) := by
        have : kvs.map (fun p => p.1) = Dict.keys kvs := rfl
        simp only [List.map_append, List.map_map, List.map_cons, List.map_nil, List.nil_append, Function.comp_def, this,
          List.mem_append]
        rcases hkeys with h | h <;> rw [h] <;> simp
      refine ⟨a, oid, kvs.map fun p => (p.1, some p.2), hm, ht, hv, ?_, rfl, hsec, ?_⟩
      · split at h2
        · simp only [pure_eq_ok, Except.ok.injEq] at h2
          rw [← h2, q2, q1, q0]
        · rw [(Response.set_ok h2).1, q2, q1, q0]
      · have hpl : r.session.sessionType = t!"no-encryption" ↔ r.session = .plain := by
          cases r.session with
          | plain => simp [Session.sessionType]
          | dh b d k => cases b <;> simp [Session.sessionType]
        simp only [hexp] at x2 hfresh
        split at h2
        · next hb =>
          simp only [pure_eq_ok, Except.ok.injEq] at h2
          subst h2
          rw [if_pos ⟨hpl.1 hb.1, (v1_iff _).1 hb.2⟩]
          exact carries_of (x2.skip hfresh)
        · next hb =>
          rw [if_neg fun hc => hb ⟨hpl.2 hc.1, (v1_iff _).2 hc.2⟩]
          exact carries_of (x2.setNew hfresh (Response.set_ok h2).2)
  · simp at he

/-- **C36** A request for any other pair stores nothing.  An OpenID 2 request is told that the type is unsupported, and
    which pair the server would take, if any; an OpenID 1 request ends in a protocol error. -/
theorem c36_refused {σ : Type} {step : σ → Event → σ × Outcome} (W : World) (E : Env)
    (n : Negotiator) (r : AssociateRequest) (s s' : σ) (o : Except Err Response)
    (hp : ¬ Permits n r.assocType r.session.sessionType)
    (h : Prog.run step E.now s (openidAssociate W E n r) = (s', o)) :
    s' = s ∧ (MsgV1 r.message → o = .error (.protocol .unsupported (some r.message))) ∧
    ∀ resp, o = .ok resp → resp.request = .associate r ∧ ∃ oid text, r.message.getOpenIDNamespace = some oid ∧
      Carries resp.fields oid (argsOf [(t!"error_code", some t!"unsupported-type"), (t!"error", some text),
        (t!"assoc_type", given (n.head?.map (·.1))), (t!"session_type", given (n.head?.map (·.2)))]) := by
  unfold openidAssociate at h
  rw [if_neg (by rw [permits_iff]; exact hp)] at h
  simp only [run_done, Prod.mk.injEq] at h
  obtain ⟨rfl, rfl⟩ := h
  refine ⟨rfl, ?_, ?_⟩
  · intro hv
    simp [AssociateRequest.answerUnsupported, (v1_iff _).2 hv]
  · intro resp h
    unfold AssociateRequest.answerUnsupported at h
    split at h
    · simp at h
    · obtain ⟨r0, g0, h⟩ := bind_eq_ok.1 h
      obtain ⟨r1, g1, h⟩ := bind_eq_ok.1 h
      obtain ⟨r2, g2, h⟩ := bind_eq_ok.1 h
      obtain ⟨r3, g3, h⟩ := bind_eq_ok.1 h
      obtain ⟨q0, hex, hnone⟩ := Response.new_ok g0
      cases ho : r.message.getOpenIDNamespace with
      | none =>
        exact (Response.set_none g1 (by rw [hnone (by simpa [Request.message] using ho)]; rfl)).elim
      | some oid =>
        have x0 := hex oid (by simpa [Request.message] using ho)
        obtain ⟨q1, u1⟩ := Response.set_ok g1
        obtain ⟨q2, u2⟩ := Response.set_ok g2
        have x1 := Exactly.setNew (l := []) x0 (by simp) u1
        have x2 := x1.setNew (by simp) u2
        obtain ⟨q3, x3⟩ := setTruthy_exactly x2 (by simp) g3
        obtain ⟨q4, x4⟩ := setTruthy_exactly x3 (by simp) h
        exact ⟨by rw [q4, q3, q2, q1, q0], oid, _, rfl, carries_of x4⟩

/-- the answer to a request, on a fresh memory store -/
def associated0 (n : Negotiator) (q : Dict Str Str) (field : Str) : Option Str :=
  match decode sworld0 senv0 (some t!"http://op/") q with
  | .ok (some (.associate r)) =>
    match (Prog.run (MemStore.keptStep clock0) senv0.now MemStore.keptInit (openidAssociate sworld0 senv0 n r)).2 with
    | .ok resp => (resp.fields.getArg .openid field).toOption.join
    | .error _ => none
  | _ => none

-- in the clear; a pair the negotiator does not list, in OpenID 2 and in OpenID 1
example : associated0 defaultAssociationOrder (associate0 t!"no-encryption") t!"mac_key" =
      some (toBase64 (List.replicate 20 65)) ∧
    associated0 defaultAssociationOrder (associate0 t!"no-encryption") t!"session_type" = some t!"no-encryption" ∧
    associated0 defaultAssociationOrder [(t!"openid.mode", t!"associate")] t!"assoc_handle" = some private0.handle ∧
    associated0 defaultAssociationOrder [(t!"openid.mode", t!"associate")] t!"session_type" = none ∧
    associated0 onlyEncryptedAssociationOrder (associate0 t!"no-encryption") t!"error_code" = some t!"unsupported-type" ∧
    associated0 onlyEncryptedAssociationOrder (associate0 t!"no-encryption") t!"assoc_type" = some t!"HMAC-SHA256" ∧
    associated0 onlyEncryptedAssociationOrder [(t!"openid.mode", t!"associate")] t!"assoc_handle" = none := by
  decide +kernel

-- Diffie-Hellman, with a "hash" of the right length
example : (match decode { sworld0 with sha1 := fun _ => List.replicate 20 3 } senv0 none (associate0 t!"DH-SHA1") with
    | .ok (some (.associate r)) => r.session.answer { sworld0 with sha1 := fun _ => List.replicate 20 3 }
        (List.replicate 20 65)
    | _ => .error .version) =
    .ok [(t!"dh_server_public", t!"Cg=="), (t!"enc_mac_key", toBase64 (List.replicate 20 66))] := by decide +kernel

end Props
