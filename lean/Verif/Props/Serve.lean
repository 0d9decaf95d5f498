import Verif.Lemmas.Serve
/-! # C66: an endpoint replies to every request -/

namespace Props
open Py Message Association Cryptutil DH Store Server Spec KVForm

theorem v1_version {m : Msg} {q : Dict Str Str} (hP : Parsed m q) {oid : Str} (ho : m.getOpenIDNamespace = some oid) :
    IsV1 q ↔ oid ≠ OPENID2_NS := by
  have h2 := hP.v2
  rw [v2_iff, ho] at h2
  constructor
  · rintro h rfl; exact h2.1 rfl h
  · intro h
    apply Classical.byContradiction
    intro hn
    have := h2.2 hn
    simp only [Option.some.injEq] at this
    exact h this

/-- C66: With no parameters there is nothing to answer; a request through the browser goes to the application. -/
theorem c66_about {σ : Type} (W : World) (E : Env) (op : Option Str) (n : Negotiator) (text : Reason → Option Msg → Str)
    (step : σ → Event → σ × Outcome) (s : σ) :
    Prog.run step E.now s (serverEndPoint W E op n text []) = (s, .ok .about) ∧
    ∀ q r, decode W E op q = .ok (some (.checkId r)) →
      Prog.run step E.now s (serverEndPoint W E op n text q) = (s, .ok (.ask r)) := by
  refine ⟨rfl, fun q r h => ?_⟩
  rw [serverEndPoint, h]; rfl

/-- C66: A request to check a signature is told whether the provider made it, with a private association that it still
    has; and a handle asked about comes back if the provider no longer has that association.  But a line end in the handle
    asked about makes the endpoint raise. -/
theorem c66_check_authentication {σ : Type} {W : World} {E : Env} {step : σ → Event → σ × Outcome} {view : σ → AssocMap}
    (hf : Faithful W.clock step view) (hw : NeverFails step) (op : Option Str) (n : Negotiator)
    (text : Reason → Option Msg → Str) (q : Dict Str Str) (hq : Dict.WF q) (r : CheckAuthRequest)
    (hd : decode W E op q = .ok (some (.checkAuth r))) (s : σ) :
    ∃ s' o, Prog.run step E.now s (serverEndPoint W E op n text q) = (s', o) ∧
      ∃ valid inv,
        (valid = true ↔ ∃ a, view s t!"http://localhost/|dumb" r.assocHandle = some a ∧
          ¬ expired (W.clock.seconds E.now) a ∧ a.checkMessageSignature W.mac r.signed = .ok true) ∧
        (∀ h, inv = some h ↔ given (arg q t!"invalidate_handle") = some h ∧
          ¬ Alive W E (view s) t!"http://localhost/|normal" h) ∧
        ((∀ h, inv = some h → '\n' ∉ h) → ∃ body, o = .ok (.web ⟨200, none, body⟩) ∧
          Tells body (IsV1 q) (argsOf [(t!"is_valid", some (if valid = true then t!"true" else t!"false")),
            (t!"invalidate_handle", inv)])) ∧
        ((∃ h, inv = some h ∧ '\n' ∈ h) → o = .error (.py .kvFormError)) := by
  obtain ⟨h1, h2, h3, h4, h5, h6⟩ := (c34_checkauth W E op q hq r).1 hd
  have hP := parsed hq h5
  obtain ⟨oid, ho⟩ := hP.ns
  have hoid := hP.inv.oid _ ho
  have hs : r.signed.getOpenIDNamespace = some oid := by
    obtain ⟨oid', ho', hn, -⟩ := setArg_openid _ hP.inv _ _ _ h6
    rw [ho] at ho'; cases ho'
    rw [← ho]; simp [Msg.getOpenIDNamespace, hn]
  obtain ⟨s', f, valid, inv, k1, k2, k3, k4⟩ := answers (E := E) hf hw s r hs ho hoid
  have hc := carries_of k2
  refine ⟨s', pageOf f.toKVForm, ?_, valid, inv, k3, by rw [← h4]; exact k4, ?_, ?_⟩
  · rw [serverEndPoint, hd]
    simp only
    rw [run_bind, handleRequest, k1]
    simp only
    exact display_direct W E s' ⟨.checkAuth r, f⟩ hc rfl (by simp) E.now
  · intro hno
    obtain ⟨kv, e1, e2⟩ := kv_tells hc hoid (by
      intro k v hk
      simp only [argsOf] at hk
      split at hk
      · next hk' => subst hk'; simp at hk; subst hk; exact ⟨⟨by decide, by decide⟩, by decide, by cases valid <;> decide⟩
      · split at hk
        · next hk' => subst hk'; exact ⟨⟨by decide, by decide⟩, by decide, hno _ hk⟩
        · cases hk) (v1_version hP ho)
    exact ⟨kv, by rw [e1]; rfl, e2⟩
  · rintro ⟨h, rfl, hh⟩
    rw [kv_fails hc (k := t!"invalidate_handle") (by rfl) hh]; rfl

theorem argsOf_some {l : List (Str × Option Str)} {k v : Str} (h : argsOf l k = some v) : (k, some v) ∈ l := by
  induction l with
  | nil => cases h
  | cons p r ih =>
    obtain ⟨a, b⟩ := p
    rw [argsOf] at h
    split at h
    · next hk => subst hk; subst h; simp
    · exact List.mem_cons_of_mem _ (ih h)

theorem fits_type {s a : Str} (h : SessionFits s a) : a = t!"HMAC-SHA1" ∨ a = t!"HMAC-SHA256" := by
  rcases h with ⟨-, h | h⟩ | ⟨-, h⟩ | ⟨-, h⟩ <;> simp [h]

theorem type_plain {a : Str} (h : a = t!"HMAC-SHA1" ∨ a = t!"HMAC-SHA256") : ∀ c ∈ a, isSpace c = false := by
  rcases h with rfl | rfl <;> decide

theorem plain_line {s : Str} (h : ∀ c ∈ s, isSpace c = false) : '\n' ∉ s := fun hn => by
  have := h _ hn; revert this; decide

/-- C66: A request for an association of a kind the provider makes: it makes one, and the reply tells of it.  If the public
    key of the request cannot be used, the endpoint raises, and the association stays in the store all the same. -/
theorem c66_associate {σ : Type} {W : World} {E : Env} {step : σ → Event → σ × Outcome} {view : σ → AssocMap}
    (hf : Faithful W.clock step view) (hw : NeverFails step) (hz : Sized W E) (op : Option Str) (n : Negotiator)
    (text : Reason → Option Msg → Str) (q : Dict Str Str) (hq : Dict.WF q) (r : AssociateRequest)
    (hd : decode W E op q = .ok (some (.associate r))) (hp : Permits n r.assocType r.session.sessionType) (s : σ) :
    ∃ s' o a, Prog.run step E.now s (serverEndPoint W E op n text q) = (s', o) ∧ Makes W E a ∧
      a.assocType = r.assocType ∧
      view s' = (fun u k => if u = t!"http://localhost/|normal" ∧ k = a.handle then some a else view s u k) ∧
      (SessionOk W.lib r.session → ∃ body kvs, o = .ok (.web ⟨200, none, body⟩) ∧ SecretFor W r.session a.secret kvs ∧
        Tells body (IsV1 q) (argsOf ([(t!"expires_in", some t!"1209600"), (t!"assoc_type", some r.assocType),
          (t!"assoc_handle", some a.handle)] ++ kvs ++
          [(t!"session_type", if r.session = .plain ∧ IsV1 q then none else some r.session.sessionType)]))) ∧
      (¬ SessionOk W.lib r.session → o = .error (.py .valueError)) := by
  obtain ⟨h1, h2, h3, h4, h5⟩ := (c34_associate W E op q hq r).1 hd
  have hP := parsed hq h2
  obtain ⟨oid, ho⟩ := hP.ns
  have hoid := hP.inv.oid _ ho
  have hty := fits_type h4
  obtain ⟨s1, a, k1, k2, k3, k4⟩ := create_runs' (E := E) hf hw s false hty
  obtain ⟨nn, g1, g2, g3, g4, g5⟩ := id k2
  rw [k3] at g1
  have hrun : ∀ o, r.answer W E a = o →
      Prog.run step E.now s (openidAssociate W E n r) = (s1, o) := by
    intro o ho'
    rw [openidAssociate, if_pos (permits_iff.2 hp), run_bind, k1]
    simp only [run_done, ho']
  by_cases hk : SessionOk W.lib r.session
  · obtain ⟨kvs0, hkv⟩ := session_answers hz h4 g1 hk
    rw [← g2] at hkv
    have hans : ∃ resp, r.answer W E a = .ok resp := by
      rcases associate_answers (W := W) (E := E) (a := a) ho hoid with ⟨-, h⟩ | ⟨h, -⟩ | ⟨e, h, -⟩
      · rw [hkv] at h; cases h
      · exact h
      · rw [hkv] at h; cases h
    obtain ⟨resp, hresp⟩ := hans
    have hr0 := hrun _ hresp
    obtain ⟨a', oid', kvs, m1, m2, m3, m4, m5, m6, m7⟩ := c36_allowed W E hf n r s s1 resp hp hr0
    rw [ho] at m5; cases m5
    have haa : a' = a := by
      obtain ⟨n', b1, b2, b3, b4, b5⟩ := m1
      rw [m2] at b1 b5; rw [k3] at g5
      have hnn : n' = nn := by
        rcases b1 with ⟨c1, rfl⟩ | ⟨c1, rfl⟩ <;> rcases g1 with ⟨c2, rfl⟩ | ⟨c2, rfl⟩ <;> first | rfl | (rw [c1] at c2; revert c2; decide)
      subst hnn
      obtain ⟨x1, x2, x3, x4, x5⟩ := a'
      obtain ⟨y1, y2, y3, y4, y5⟩ := a
      simp only at b2 b3 b4 b5 g2 g3 g4 g5 m2 k3
      simp [b2, b3, b4, b5, g2, g3, g4, g5, m2, k3]
    subst haa
    have hc : ∀ k v, (k, some v) ∈ kvs → Clean k ∧ ':' ∉ k ∧ k ≠ t!"mode" ∧ '\n' ∉ v := by
      intro k v hmem
      cases hses : r.session with
      | plain =>
        rw [hses] at m6
        simp only [SecretFor] at m6
        subst m6
        simp only [List.mem_cons, List.not_mem_nil, or_false, Prod.mk.injEq, Option.some.injEq] at hmem
        obtain ⟨rfl, rfl⟩ := hmem
        exact ⟨⟨by decide, by decide⟩, by decide, by decide, plain_line (toBase64_noSpace _)⟩
      | dh b d key =>
        rw [hses] at m6
        obtain ⟨pub, enc, e1, e2, rfl⟩ := m6
        have hpub : ∃ x, pub = toBase64 x := by
          rw [DiffieHellman.publicKey, longToBase64] at e1
          obtain ⟨x, -, e⟩ := bind_eq_ok.1 e1
          simp only [pure_eq_ok, Except.ok.injEq] at e
          exact ⟨x, e.symm⟩
        have henc : ∃ x, enc = toBase64 x := by
          rw [DiffieHellman.xorSecret] at e2
          obtain ⟨_, -, e2⟩ := bind_eq_ok.1 e2
          obtain ⟨_, -, e2⟩ := bind_eq_ok.1 e2
          obtain ⟨_, -, e2⟩ := bind_eq_ok.1 e2
          obtain ⟨x, -, e⟩ := bind_eq_ok.1 e2
          simp only [pure_eq_ok, Except.ok.injEq] at e
          exact ⟨x, e.symm⟩
        simp only [List.mem_cons, List.not_mem_nil, or_false, Prod.mk.injEq, Option.some.injEq] at hmem
        obtain ⟨x, rfl⟩ := hpub
        obtain ⟨y, rfl⟩ := henc
        rcases hmem with ⟨rfl, rfl⟩ | ⟨rfl, rfl⟩ <;>
          exact ⟨⟨by decide, by decide⟩, by decide, by decide, plain_line (toBase64_noSpace _)⟩
    have hv : (r.session = .plain ∧ MsgV1 r.message) ↔ (r.session = .plain ∧ IsV1 q) := by
      rw [← v1_iff, hP.v1]
    have hst : '\n' ∉ r.session.sessionType := by
      rcases r.session with _ | ⟨_ | _, _, _⟩ <;> simp [Session.sessionType]
    have hall : ∀ k v, argsOf ([(t!"expires_in", some t!"1209600"), (t!"assoc_type", some r.assocType),
          (t!"assoc_handle", some a'.handle)] ++ kvs ++
          [(t!"session_type", if r.session = .plain ∧ MsgV1 r.message then none else some r.session.sessionType)]) k = some v →
        Clean k ∧ ':' ∉ k ∧ k ≠ t!"mode" ∧ '\n' ∉ v := by
      intro k v hk
      have hmem := argsOf_some hk
      simp only [List.cons_append, List.nil_append, List.mem_cons, List.mem_append, List.not_mem_nil, or_false, Prod.mk.injEq,
        Option.some.injEq] at hmem
      rcases hmem with ⟨rfl, rfl⟩ | ⟨rfl, rfl⟩ | ⟨rfl, rfl⟩ | hmem | ⟨rfl, hmem⟩
      · exact ⟨⟨by decide, by decide⟩, by decide, by decide, by decide⟩
      · exact ⟨⟨by decide, by decide⟩, by decide, by decide, plain_line (type_plain hty)⟩
      · refine ⟨⟨by decide, by decide⟩, by decide, by decide, plain_line ?_⟩
        rw [g5]
        exact handle_noSpace (type_plain (by rw [k3]; exact hty)) _ _
      · exact hc _ _ hmem
      · refine ⟨⟨by decide, by decide⟩, by decide, by decide, ?_⟩
        split at hmem
        · cases hmem
        · simp only [Option.some.injEq] at hmem; subst hmem; exact hst
    obtain ⟨kv, e1, e2⟩ := kv_tells m7 hoid (fun k v h => ⟨(hall k v h).1, (hall k v h).2.1, (hall k v h).2.2.2⟩)
      (v1_version hP ho)
    have hmode : argsOf ([(t!"expires_in", some t!"1209600"), (t!"assoc_type", some r.assocType),
          (t!"assoc_handle", some a'.handle)] ++ kvs ++
          [(t!"session_type", if r.session = .plain ∧ MsgV1 r.message then none else some r.session.sessionType)]) t!"mode" = none := by
      cases hm : argsOf _ t!"mode" with
      | none => rfl
      | some v => exact absurd rfl (hall _ v hm).2.2.1
    refine ⟨s1, _, a', ?_, k2, k3, k4, fun _ => ⟨kv, kvs, rfl, m6, ?_⟩, fun h => absurd hk h⟩
    · rw [serverEndPoint, hd]
      simp only
      rw [run_bind, handleRequest, hr0]
      simp only
      rw [display_direct W E s1 resp m7 hmode (by simp [m4]) E.now, e1]; rfl
    · simp only [hv] at e2; exact e2
  · have hbad : r.session.answer W a.secret = .error (.py .valueError) := session_fails hk
    have hans : r.answer W E a = .error (.py .valueError) := by
      rcases associate_answers (W := W) (E := E) (a := a) ho hoid with ⟨h, -⟩ | ⟨-, kvs, h⟩ | ⟨e, h, h'⟩
      · exact h
      · rw [hbad] at h; cases h
      · rw [hbad] at h; cases h; exact absurd rfl h'
    refine ⟨s1, .error (.py .valueError), a, ?_, k2, k3, k4, fun h => absurd h hk, fun _ => rfl⟩
    rw [serverEndPoint, hd]
    simp only
    rw [run_bind, handleRequest, hrun _ hans]

/-- C66: A request for any other kind of association: in OpenID 2 the reply says that it is not supported, and what is
    (as long as the names that the provider was configured with have no line ends); in OpenID 1 the endpoint raises the
    protocol error instead of answering with it.  Nothing is stored. -/
theorem c66_unsupported {σ : Type} {W : World} {E : Env} {step : σ → Event → σ × Outcome} (op : Option Str) (n : Negotiator)
    (text : Reason → Option Msg → Str) (q : Dict Str Str) (hq : Dict.WF q) (r : AssociateRequest)
    (hd : decode W E op q = .ok (some (.associate r))) (hp : ¬ Permits n r.assocType r.session.sessionType)
    (hn : ∀ p ∈ n, '\n' ∉ p.1 ∧ '\n' ∉ p.2) (s : σ) :
    (¬ IsV1 q → ∃ body why, Prog.run step E.now s (serverEndPoint W E op n text q) = (s, .ok (.web ⟨200, none, body⟩)) ∧
      Tells body False (argsOf [(t!"error_code", some t!"unsupported-type"), (t!"error", some why),
        (t!"assoc_type", given (n.head?.map (·.1))), (t!"session_type", given (n.head?.map (·.2)))])) ∧
    (IsV1 q → Prog.run step E.now s (serverEndPoint W E op n text q) =
      (s, .error (.protocol .unsupported (some r.message)))) := by
  obtain ⟨h1, h2, h3, h4, h5⟩ := (c34_associate W E op q hq r).1 hd
  have hP := parsed hq h2
  obtain ⟨oid, ho⟩ := hP.ns
  have hoid := hP.inv.oid _ ho
  constructor
  · intro hv
    have hoid2 : oid = OPENID2_NS := by
      apply Classical.byContradiction
      intro h; exact hv ((v1_version hP ho).2 h)
    subst hoid2
    have hna : n.isAllowed r.assocType r.session.sessionType ≠ true := by rw [Ne, permits_iff]; exact hp
    obtain ⟨resp, hresp⟩ := unsupported_answers (r := r) (unsupportedText r.assocType r.session.sessionType)
      (n.getAllowedType.map (·.1)) (n.getAllowedType.map (·.2)) ho
    have hr0 : Prog.run step E.now s (openidAssociate W E n r) = (s, .ok resp) := by
      rw [openidAssociate, if_neg hna, run_done, hresp]
    have hex : Exactly resp.fields OPENID2_NS (argsOf [(t!"error_code", some t!"unsupported-type"),
        (t!"error", some (unsupportedText r.assocType r.session.sessionType)),
        (t!"assoc_type", given (n.head?.map (·.1))), (t!"session_type", given (n.head?.map (·.2)))]) ∧
        resp.request = .associate r := by
      have h := hresp
      unfold AssociateRequest.answerUnsupported at h
      rw [if_neg (by rw [Msg.isOpenID1, ho]; decide)] at h
      obtain ⟨r0, g0, h⟩ := bind_eq_ok.1 h
      obtain ⟨r1, g1, h⟩ := bind_eq_ok.1 h
      obtain ⟨r2, g2, h⟩ := bind_eq_ok.1 h
      obtain ⟨r3, g3, h⟩ := bind_eq_ok.1 h
      obtain ⟨q0, hex, -⟩ := Response.new_ok g0
      have x0 := hex OPENID2_NS ho
      obtain ⟨q1, u1⟩ := Response.set_ok g1
      obtain ⟨q2, u2⟩ := Response.set_ok g2
      have x1 := Exactly.setNew (l := []) x0 (by simp) u1
      have x2 := x1.setNew (by simp) u2
      obtain ⟨q3, x3⟩ := setTruthy_exactly x2 (by simp) g3
      obtain ⟨q4, x4⟩ := setTruthy_exactly x3 (by simp) h
      exact ⟨x4, by rw [q4, q3, q2, q1, q0]⟩
    have hc := carries_of hex.1
    have hgiv : ∀ (f : Str × Str → Str), (∀ p ∈ n, '\n' ∉ f p) → ∀ v, given (n.head?.map f) = some v → '\n' ∉ v := by
      intro f hf v hv
      cases n with
      | nil => cases hv
      | cons p r =>
        have : given (some (f p)) = some v := hv
        have hfp := hf p (by simp)
        cases hfp' : f p with
        | nil => rw [hfp'] at this; cases this
        | cons c t => rw [hfp'] at this; cases this; rw [hfp'] at hfp; exact hfp
    have hty := fits_type h4
    have htext : '\n' ∉ unsupportedText r.assocType r.session.sessionType := by
      have : ∀ a ∈ [t!"HMAC-SHA1", t!"HMAC-SHA256"], ∀ t ∈ [t!"no-encryption", t!"DH-SHA1", t!"DH-SHA256"],
          '\n' ∉ unsupportedText a t := by decide
      apply this
      · simpa using hty
      · rcases r.session with _ | ⟨_ | _, _, _⟩ <;> simp [Session.sessionType]
    obtain ⟨kv, e1, e2⟩ := kv_tells hc hoid (by
      intro k v hk
      have hmem := argsOf_some hk
      simp only [List.mem_cons, List.not_mem_nil, or_false, Prod.mk.injEq, Option.some.injEq] at hmem
      rcases hmem with ⟨rfl, rfl⟩ | ⟨rfl, rfl⟩ | ⟨rfl, hv'⟩ | ⟨rfl, hv'⟩
      · exact ⟨⟨by decide, by decide⟩, by decide, by decide⟩
      · exact ⟨⟨by decide, by decide⟩, by decide, htext⟩
      · exact ⟨⟨by decide, by decide⟩, by decide, hgiv _ (fun p hp => (hn p hp).1) v hv'.symm⟩
      · exact ⟨⟨by decide, by decide⟩, by decide, hgiv _ (fun p hp => (hn p hp).2) v hv'.symm⟩) (v1 := False) (by simp)
    refine ⟨kv, _, ?_, e2⟩
    rw [serverEndPoint, hd]
    simp only
    rw [run_bind, handleRequest, hr0]
    simp only
    rw [display_direct W E s resp hc (by simp [argsOf]) (by simp [hex.2]) E.now, e1]; rfl
  · intro hv
    obtain ⟨-, k, -⟩ := c36_refused (step := step) W E n r s _ _ hp rfl
    have hk := k ((v1_iff _).1 (hP.v1.2 hv))
    obtain ⟨k0, -, -⟩ := c36_refused (step := step) W E n r s _ _ hp rfl
    rw [serverEndPoint, hd]
    simp only
    rw [run_bind, handleRequest]
    rw [show Prog.run step E.now s (openidAssociate W E n r) = (s, .error (.protocol .unsupported (some r.message))) from
      Prod.ext k0 hk]

/-- C66: A request that breaks the protocol is told so: at its return_to, if it has one; else in the body, with status 400;
    unless it came through the browser or has no mode, then the application has to show the error.  What is sent carries
    mode `error` and the text. -/
theorem c66_protocol_error {σ : Type} {W : World} {E : Env} {step : σ → Event → σ × Outcome} (op : Option Str)
    (n : Negotiator) (text : Reason → Option Msg → Str) (q : Dict Str Str) (hq : Dict.WF q) (why : Reason) (m : Msg)
    (hd : decode W E op q = .error (.protocol why (some m))) (s : σ) :
    ∃ o, Prog.run step E.now s (serverEndPoint W E op n text q) = (s, o) ∧
      match arg q t!"return_to" with
      | some url => ∃ e oid, Carries e oid (argsOf [(t!"mode", some t!"error"), (t!"error", some (text why (some m)))]) ∧
          ((∃ w, o = .ok (.web w) ∧ sentTo e url w) ∨ TooLong e url ∧ ¬ Writable e url ∧ o = .error (.py .valueError))
      | none => if DirectMode q then
          ('\n' ∉ text why (some m) → ∃ body, o = .ok (.web ⟨400, none, body⟩) ∧
            Tells body (MsgV1 m) (argsOf [(t!"mode", some t!"error"), (t!"error", some (text why (some m)))])) ∧
          ('\n' ∈ text why (some m) → o = .error (.py .kvFormError))
        else o = .ok .failed := by
  rcases c34_errors W E op q hq _ hd with ⟨why', _, he, hb, ⟨oid, ho⟩, hg⟩ | ⟨_, he, -⟩ | ⟨-, ⟨he, -⟩ | ⟨he | he | he, -⟩⟩ <;>
    cases he
  have hi := minv_built _ _ hb
  obtain ⟨to, hto⟩ : ∃ to, to = arg q t!"return_to" := ⟨_, rfl⟩
  obtain ⟨e, hc, hres⟩ := c51_sent W.reg ⟨some m, text why (some m), none, none⟩ m rfl hb oid ho
    to (arg q t!"mode") (by rw [hto]; exact hg _ (by decide) (by decide)) (hg _ (by decide) (by decide))
  have hres := hres _ rfl
  have hsame : ∀ k, argsOf [(t!"mode", some t!"error"), (t!"error", some (text why (some m))), (t!"contact", none),
      (t!"reference", none)] k = argsOf [(t!"mode", some t!"error"), (t!"error", some (text why (some m)))] k := by
    intro k
    simp only [argsOf]
    (repeat' split) <;> rfl
  have hc' : Carries e oid (argsOf [(t!"mode", some t!"error"), (t!"error", some (text why (some m)))]) := by
    rw [← funext hsame]; exact hc
  have hrun : Prog.run step E.now s (serverEndPoint W E op n text q) =
      Prog.run step E.now s (display (.done (encodeError ⟨some m, text why (some m), none, none⟩))) := by
    rw [serverEndPoint, hd]
  rw [hrun]
  generalize henc : encodeError ⟨some m, text why (some m), none, none⟩ = enc at hres
  rw [← hto]
  cases to with
  | some url =>
    simp only at hres
    rcases hres with ⟨-, w, rfl, hw⟩ | ⟨h1, h2, rfl⟩
    · exact ⟨_, rfl, e, oid, hc', .inl ⟨w, rfl, hw⟩⟩
    · exact ⟨_, rfl, e, oid, hc', .inr ⟨h1, h2, rfl⟩⟩
  | none =>
    simp only at hres
    have hfail : ¬ DirectMode q → enc = .error .encoding := by
      intro hn
      split at hres
      · next x hx =>
        rw [if_pos] at hres
        · exact hres
        · apply Classical.byContradiction
          intro h
          simp only [not_or] at h
          exact hn ⟨x, hx, h.1, h.2⟩
      · exact hres
    by_cases hdir : DirectMode q
    · obtain ⟨x, hx, hx1, hx2⟩ := id hdir
      rw [hx] at hres
      simp only at hres
      rw [if_neg (by simp [hx1, hx2])] at hres
      refine ⟨_, display_done E.now s enc, ?_⟩
      simp only
      rw [if_pos hdir]
      constructor
      · intro hn
        obtain ⟨kv, e1, e2⟩ := kv_tells hc' (hi.oid _ ho) (by
          intro k v hk
          have hmem := argsOf_some hk
          simp only [List.mem_cons, List.not_mem_nil, or_false, Prod.mk.injEq, Option.some.injEq] at hmem
          rcases hmem with ⟨rfl, rfl⟩ | ⟨rfl, rfl⟩
          · exact ⟨⟨by decide, by decide⟩, by decide, by decide⟩
          · exact ⟨⟨by decide, by decide⟩, by decide, hn⟩) (v1 := MsgV1 m) (by
            have := hi.oid _ ho
            rw [MsgV1, ho]
            simp only [List.mem_cons, List.not_mem_nil, or_false] at this
            rcases this with rfl | rfl | rfl <;> decide)
        rcases hres with ⟨kv', h1, rfl⟩ | ⟨w, h1, -⟩
        · rw [e1] at h1; cases h1
          exact ⟨kv, rfl, e2⟩
        · rw [e1] at h1; cases h1
      · intro hn
        have := kv_fails hc' (k := t!"error") (by rfl) hn
        rcases hres with ⟨kv', h1, rfl⟩ | ⟨w, h1, rfl⟩
        · rw [this] at h1; cases h1
        · rw [this] at h1; cases h1; rfl
    · rw [hfail hdir]
      exact ⟨_, rfl, by simp only; rw [if_neg hdir]; trivial⟩

/-- C66: When an exception leaves the endpoint.  In all other cases there is a page, a response of the library, a question
    to the application, or an error for it to show. -/
theorem c66_unanswered {σ : Type} {W : World} {E : Env} {step : σ → Event → σ × Outcome} {view : σ → AssocMap}
    (hf : Faithful W.clock step view) (hw : NeverFails step) (hz : Sized W E) (op : Option Str) (n : Negotiator)
    (hn : ∀ p ∈ n, '\n' ∉ p.1 ∧ '\n' ∉ p.2) (text : Reason → Option Msg → Str) (q : Dict Str Str) (hq : Dict.WF q) (s s' : σ)
    (e : Err) (h : Prog.run step E.now s (serverEndPoint W E op n text q) = (s', .error e)) :
    Unanswered W E op n text q e := by
  cases hd : decode W E op q with
  | error x =>
    rcases c34_errors W E op q hq _ hd with ⟨why, m, rfl, -⟩ | ⟨p, rfl, hk⟩ | ⟨hm, hx⟩
    · obtain ⟨o, h1, h2⟩ := c66_protocol_error (step := step) op n text q hq why m hd s
      rw [h1] at h
      simp only [Prod.mk.injEq] at h
      obtain ⟨-, rfl⟩ := h
      split at h2
      · next url hu =>
        obtain ⟨f, oid, c1, ⟨w, hw, -⟩ | ⟨c2, c3, c4⟩⟩ := h2
        · cases hw
        · cases c4; exact .form why (some m) f oid url hu c1 c2 c3
      · next hu =>
        split at h2
        · next hdir =>
          by_cases hl : '\n' ∈ text why (some m)
          · have := h2.2 hl
            cases this
            exact .text why (some m) hdir hu hl
          · obtain ⟨_, h3, -⟩ := h2.1 hl; cases h3
        · cases h2
    · have he : e = .py p := by
        rw [serverEndPoint, hd] at h
        simp at h; exact h.2.symm
      subst he
      exact .namespaces _ hk
    · have hp : ∀ why m, x ≠ .protocol why m := by rintro why m rfl; simp at hx
      have he : e = x := by
        rw [serverEndPoint, hd] at h
        cases x <;> first | (simp at h; exact h.2.symm) | exact absurd rfl (hp _ _)
      subst he
      rcases hx with ⟨rfl, h1, h2⟩ | ⟨h1, h2⟩
      · exact .endpoint hm h1 h2
      · refine .url _ hm h1 ?_
        rcases h2 with ⟨u, h3, h4⟩ | ⟨u, h3, h4⟩
        · exact ⟨u, .inl h3, h4⟩
        · exact ⟨u, .inr h3, h4⟩
  | ok r =>
    cases r with
    | none => rw [serverEndPoint, hd] at h; cases h
    | some r =>
      cases r with
      | checkId r => rw [serverEndPoint, hd] at h; cases h
      | checkAuth r =>
        obtain ⟨s1, o, h1, valid, inv, -, h2, h3, h4⟩ := c66_check_authentication (E := E) hf hw op n text q hq r hd s
        rw [h1] at h
        simp only [Prod.mk.injEq] at h
        obtain ⟨-, rfl⟩ := h
        by_cases hl : ∃ h, inv = some h ∧ '\n' ∈ h
        · have he := h4 hl
          cases he
          obtain ⟨x, hx, hnl⟩ := hl
          have hgv := ((h2 x).1 hx).1
          refine .handle x ((c34_checkauth W E op q hq r).1 hd).1 ?_ hnl
          revert hgv
          rcases arg q t!"invalidate_handle" with _ | _ | ⟨c, t⟩ <;> simp [given]
        · obtain ⟨_, h5, -⟩ := h3 (fun x hx hnl => hl ⟨x, hx, hnl⟩)
          cases h5
      | associate r =>
        obtain ⟨k1, k2, k3, k4, k5⟩ := (c34_associate W E op q hq r).1 hd
        by_cases hp : Permits n r.assocType r.session.sessionType
        · obtain ⟨s1, o, a, h1, -, -, -, h2, h3⟩ := c66_associate (E := E) hf hw hz op n text q hq r hd hp s
          rw [h1] at h
          simp only [Prod.mk.injEq] at h
          obtain ⟨-, rfl⟩ := h
          by_cases hk : SessionOk W.lib r.session
          · obtain ⟨_, _, h4, -⟩ := h2 hk; cases h4
          · have := h3 hk
            cases this
            rcases k5 with h5 | ⟨b, modulus, gen, d, k, h5, h6, h7, h8, -⟩
            · rw [h5] at hk; exact absurd trivial hk
            · rw [h5] at hk
              exact .key modulus gen k d k1 h6 h7 h8 hk
        · obtain ⟨h1, h2⟩ := c66_unsupported (step := step) op n text q hq r hd hp hn s
          by_cases hv : IsV1 q
          · rw [h2 hv] at h
            cases h
            exact .unsupported _ _ _ k1 hv k3 hp
          · obtain ⟨_, _, h3, -⟩ := h1 hv
            rw [h3] at h; cases h

/-- a world and its random numbers, with digests of the right lengths -/
def endWorld0 : World :=
  { sworld0 with sha1 := fun x => List.replicate 20 (x.headD 9), sha256 := fun x => List.replicate 32 (x.headD 7) }

/-- the text of the errors: the one of the code for types that do not go together, made from the request -/
def endText0 : Reason → Option Msg → Str
  | .sessionMismatch, some m =>
    match m.getArg .openid t!"session_type", m.getArg .openid t!"assoc_type" with
    | .ok (some s), .ok (some a) => mismatchText s a
    | _, _ => t!"mismatch"
  | _, _ => t!"wrong"

/-- the endpoint on a fresh memory store -/
def end0 (op : Option Str) (n : Negotiator) (q : Dict Str Str) : MemStore.Kept × Except Err Page :=
  Prog.run (MemStore.keptStep clock0) senv0.now MemStore.keptInit (serverEndPoint endWorld0 senv0 op n endText0 q)

-- what the theorems ask of the store, of the world, of the negotiators and of the queries
example : Faithful endWorld0.clock (MemStore.keptStep clock0) MemStore.keptView ∧ NeverFails (MemStore.keptStep clock0) ∧
    Sized endWorld0 senv0 ∧
    (∀ p ∈ defaultAssociationOrder ++ onlyEncryptedAssociationOrder, '\n' ∉ p.1 ∧ '\n' ∉ p.2) ∧
    Dict.WF (associate0 t!"DH-SHA1") :=
  ⟨c30_memory_store _, fun _ _ _ _ => ⟨_, rfl⟩,
    ⟨fun n => List.length_replicate, fun _ => List.length_replicate, fun _ => List.length_replicate,
      fun _ _ => List.cons_ne_nil _ _⟩, by decide, by decide⟩

def checkauth0 (asked : Str) : Dict Str Str :=
  [(t!"openid.ns", OPENID2_NS), (t!"openid.mode", t!"check_authentication"), (t!"openid.assoc_handle", t!"h"),
   (t!"openid.sig", t!"s"), (t!"openid.signed", t!"mode"), (t!"openid.invalidate_handle", asked)]

-- replies: to a request to check an unknown signature, to requests for associations with the two kinds of sessions, for one
-- that is not made, with types that do not go together, with an unknown mode; and a request from a browser with an error
example : (end0 none [] (checkauth0 t!"old")).2 =
    .ok (.web ⟨200, none, t!"invalidate_handle:old\nis_valid:false\nns:http://specs.openid.net/auth/2.0\n"⟩) := by
  decide +kernel
example : (end0 none defaultAssociationOrder (associate0 t!"DH-SHA1")).2 = .ok (.web ⟨200, none,
    t!"assoc_handle:{HMAC-SHA1}{5}{AQIDBA==}\nassoc_type:HMAC-SHA1\ndh_server_public:Cg==\nenc_mac_key:R0dHR0dHR0dHR0dHR0dHR0dHR0c=\nexpires_in:1209600\nns:http://specs.openid.net/auth/2.0\nsession_type:DH-SHA1\n"⟩) ∧
    (end0 none defaultAssociationOrder (associate0 t!"no-encryption")).2 = .ok (.web ⟨200, none,
    t!"assoc_handle:{HMAC-SHA1}{5}{AQIDBA==}\nassoc_type:HMAC-SHA1\nexpires_in:1209600\nmac_key:QUFBQUFBQUFBQUFBQUFBQUFBQUE=\nns:http://specs.openid.net/auth/2.0\nsession_type:no-encryption\n"⟩) :=
  ⟨by decide +kernel, by decide +kernel⟩
example : (end0 none onlyEncryptedAssociationOrder (associate0 t!"no-encryption")).2 = .ok (.web ⟨200, none,
    t!"assoc_type:HMAC-SHA256\nerror:Association type 'HMAC-SHA1' is not supported with session type 'no-encryption'\nerror_code:unsupported-type\nns:http://specs.openid.net/auth/2.0\nsession_type:DH-SHA256\n"⟩) :=
  by decide +kernel
example : (end0 none defaultAssociationOrder (associate0 t!"DH-SHA256")).2 = .ok (.web ⟨400, none,
    t!"error:Session type DH-SHA256 does not support association type HMAC-SHA1\nmode:error\nns:http://specs.openid.net/auth/2.0\n"⟩) ∧
    (end0 none [] [(t!"openid.mode", t!"foo"), (t!"openid.return_to", t!"http://rp/")]).2 =
      .ok (.web ⟨302, some t!"http://rp/?openid.error=wrong&openid.mode=error", []⟩) ∧
    (end0 none [] [(t!"openid.mode", t!"checkid_setup")]).2 = .ok .failed :=
  ⟨by decide +kernel, by decide +kernel, by decide +kernel⟩

/-- C66, not so (openid/server/server.py:270-274, 1347): who asks the provider about a handle with a line end in it gets no
    answer. -/
theorem c66_handle_raises : (end0 none defaultAssociationOrder (checkauth0 t!"o\nd")).2 = .error (.py .kvFormError) := by
  decide +kernel

/-- C66, not so (openid/server/server.py:490-492, 1347): nor who asks for an association whose type has a line end in it. -/
theorem c66_type_raises : (end0 none defaultAssociationOrder [(t!"openid.mode", t!"associate"),
    (t!"openid.session_type", t!"no-encryption"), (t!"openid.assoc_type", t!"a\nb")]).2 = .error (.py .kvFormError) := by
  decide +kernel

/-- C66, not so (openid/server/server.py:399, 1608-1610): nor who sends an empty public key; but the association with them is
    stored. -/
theorem c66_key_raises : (end0 none defaultAssociationOrder [(t!"openid.mode", t!"associate"),
      (t!"openid.session_type", t!"DH-SHA1"), (t!"openid.dh_consumer_public", [])]).2 = .error (.py .valueError) ∧
    (MemStore.keptView (end0 none defaultAssociationOrder [(t!"openid.mode", t!"associate"),
      (t!"openid.session_type", t!"DH-SHA1"), (t!"openid.dh_consumer_public", [])]).1 t!"http://localhost/|normal"
      t!"{HMAC-SHA1}{5}{AQIDBA==}").isSome = true :=
  ⟨by decide +kernel, by decide +kernel⟩

/-- C66, not so (openid/server/server.py:528-529): nor an OpenID 1 consumer that asks for an association in the clear, if the
    provider makes only encrypted ones. -/
theorem c66_unsupported_raises : ∃ m, (end0 none onlyEncryptedAssociationOrder [(t!"openid.mode", t!"associate")]).2 =
    .error (.protocol .unsupported (some m)) := ⟨_, rfl⟩

end Props
