import Verif.Lemmas.ConsumerVerify
import Verif.Props.ServerAuth
/-! # C37: what a successful completion has checked -/

namespace Props
open Py Message Association Cryptutil Store Discover Consumer Spec

theorem doIdRes_ok {W : World} {C : Conf} {E : Env} {session : Option Endpoint} {q : Dict Str Str} {current : Str}
    {evs : List Ev} {m : Msg} (hq : Dict.WF q) (hm : fromPostArgs W.reg q = .ok m) (hmode : arg q t!"mode" = some t!"id_res")
    {r : Consumer.Response} (h : Runs (doIdRes W C E m session current) evs (.ok r)) :
    ∃ e signed, r = .success e m signed ∧ Verified W C E session q current evs e m signed := by
  have hg := got hq hm
  rw [doIdRes] at h
  obtain ⟨⟨⟩, h1, h⟩ := (runs_py_bind_ok _ _ _ _).1 h
  obtain ⟨⟨⟩, h2, h⟩ := (runs_py_bind_ok _ _ _ _).1 h
  rw [runs_bind_ok] at h
  obtain ⟨e1, e', d, rfl, h3, h⟩ := h
  rw [runs_bind_ok] at h
  obtain ⟨e2, e', _, rfl, h4, h⟩ := h
  rw [runs_bind_ok] at h
  obtain ⟨e3, e4, _, rfl, h5, h⟩ := h
  obtain ⟨sg, h6, h⟩ := (runs_py_bind_ok _ _ _ _).1 h
  obtain ⟨rfl, h7⟩ := h
  simp only [Except.ok.injEq] at h7
  obtain ⟨hv, f1, l, f2, f3⟩ := fields_ok hg.toParsed h1
  rw [getArgReq_ok, hg.get _ (by decide) (by decide), f2] at h6
  simp only [Except.ok.injEq, Option.some.injEq] at h6; subst h6
  have hin : ∀ f, f ∈ [t!"return_to", t!"assoc_handle", t!"sig", t!"signed"] → ∃ v, arg q f = some v :=
    fun f hf => f1 f (by rw [neededFields]; exact List.mem_append_left _ hf)
  obtain ⟨rt, hrt⟩ := hin t!"return_to" (by decide)
  refine ⟨d, _, h7.symm, hm, hmode, f1, ⟨l, f2, rfl, f3⟩, ⟨rt, hrt, ?_⟩, ?_, ?_, ?_⟩
  · rw [returnToMatches] at h2
    obtain ⟨b, g1, g2⟩ := bind_eq_ok.1 h2
    cases b with
    | false => simp at g2
    | true => exact returnTo_ok hg hrt g1
  · exact (discovery_ok hg hv h3).mono (by grind)
  · exact (signature_ok hg.toParsed (hin _ (by decide)) h4).mono (by grind)
  · exact (nonce_ok hg hv h5).mono (by grind)

/-- C37: if `complete` reports success, every check was made and passed: mode, fields, signed fields, return URL, discovery,
    signature and nonce. -/
theorem c37_success {W : World} {C : Conf} {E : Consumer.Env} {s s' : UserSession} {q : Dict Str Str} {current : Str}
    {evs : List Ev} {e : Endpoint} {m : Msg} {signed : List Str} (hq : Dict.WF q)
    (h : Runs (complete W C E s q current) evs (.ok (s', .ok (.success e m signed)))) :
    Verified W C E s.token q current evs e m signed := by
  rw [complete] at h
  cases hm : fromPostArgs W.reg q with
  | error x => rw [hm] at h; simp at h
  | ok m' =>
    rw [hm] at h
    simp only at h
    rw [runs_handle] at h
    obtain ⟨e1, e2, o, rfl, h1, h2⟩ := h
    have hg := got hq hm
    cases o with
    | error x => simp at h2
    | ok r =>
      simp at h2
      obtain ⟨rfl, -, rfl⟩ := h2
      rw [List.append_nil]
      rw [genericComplete] at h1
      obtain ⟨mode, k1, k2⟩ := (runs_py_bind_ok _ _ _ _).1 h1
      rw [hg.get _ (by decide) (by decide)] at k1
      simp only [Except.ok.injEq] at k1
      split at k2
      · simp at k2
      · split at k2
        · obtain ⟨-, k2⟩ := k2
          rw [lift_ok, completeError] at k2
          obtain ⟨_, _, k2⟩ := bind_eq_ok.1 k2
          obtain ⟨_, _, k2⟩ := bind_eq_ok.1 k2
          obtain ⟨_, _, k2⟩ := bind_eq_ok.1 k2
          simp at k2
        · split at k2
          · obtain ⟨-, k2⟩ := k2
            rw [lift_ok, completeSetupNeeded] at k2
            split at k2
            · obtain ⟨_, _, k2⟩ := bind_eq_ok.1 k2
              simp at k2
            · simp at k2
          · split at k2
            · next hmode =>
              rw [completeIdRes] at k2
              obtain ⟨u, l1, l2⟩ := (runs_py_bind_ok _ _ _ _).1 k2
              cases u with
              | some u => simp at l2
              | none =>
                simp only at l2
                rw [runs_handle] at l2
                obtain ⟨e3, e4, o, rfl, g1, rfl, g2⟩ := l2
                rw [List.append_nil]
                cases o with
                | error x => simp only [asFailure] at g2; split at g2 <;> simp at g2
                | ok r =>
                  simp only [asFailure, Except.ok.injEq] at g2
                  subst g2
                  obtain ⟨e', sg, hr, hv⟩ := doIdRes_ok hq hm (k1.trans hmode) g1
                  cases hr
                  exact hv
            · simp at k2

def cworld0 : World := { sworld0 with digits := fun _ => none }
def cconf0 : Conf := ⟨true, [(t!"HMAC-SHA1", t!"DH-SHA1"), (t!"HMAC-SHA256", t!"DH-SHA256")]⟩
def cenv0 : Consumer.Env := ⟨5000, t!"abcdef", 5, 6⟩
def cassoc0 : Assoc := ⟨t!"h", [1, 2, 3], 0, 100, t!"HMAC-SHA1"⟩
def endpoint0 : Endpoint :=
  ⟨some t!"http://u.example/", t!"http://op.example/", [OPENID_2_0_TYPE], some t!"http://op.example/u", none, true, none⟩

def cquery0 (sig : Str) : Dict Str Str :=
  [(t!"openid.ns", OPENID2_NS), (t!"openid.mode", t!"id_res"), (t!"openid.op_endpoint", t!"http://op.example/"),
   (t!"openid.claimed_id", t!"http://u.example/#f"), (t!"openid.identity", t!"http://op.example/u"),
   (t!"openid.return_to", t!"http://rp.example/back?x=1"), (t!"x", t!"1"),
   (t!"openid.response_nonce", t!"2005-05-15T17:11:51Zaa"), (t!"openid.assoc_handle", t!"h"),
   (t!"openid.signed", t!"op_endpoint,return_to,response_nonce,assoc_handle,claimed_id,identity"), (t!"openid.sig", sig)]

def cevs0 : List Ev :=
  [.store (.getAssociation t!"http://op.example/" (some t!"h")) (.ok (.assoc (some cassoc0))),
   .store (.useNonce t!"http://op.example/" 1116177111 t!"aa") (.ok (.bool true))]

/-- the claimed identifier a completion reports, if it succeeds -/
def succeeded0 : Option (Except Err (UserSession × Except Err Consumer.Response)) → Option (Option Str)
  | some (.ok (_, .ok (.success e _ _))) => some e.claimedId
  | _ => none

-- a signed assertion is accepted, with an association from the store
example : succeeded0 (play (complete cworld0 cconf0 cenv0 ⟨some endpoint0, none⟩ (cquery0 t!"AQIf") t!"HTTP://rp.example:80/back")
    cevs0) = some (some t!"http://u.example/#f") := by decide +kernel

/-- the same without an association in the store, and without a session: the provider is asked, and discovery made again -/
def cevs1 : List Ev :=
  [.discover t!"http://u.example/#f" (.ok (t!"http://u.example/", [{ endpoint0 with typeUris := [] }, endpoint0])),
   .store (.getAssociation t!"http://op.example/" (some t!"h")) (.ok (.assoc none)),
   .post t!"http://op.example/"
     t!"openid.assoc_handle=h&openid.claimed_id=http%3A%2F%2Fu.example%2F%23f&openid.identity=http%3A%2F%2Fop.example%2Fu&openid.mode=check_authentication&openid.ns=http%3A%2F%2Fspecs.openid.net%2Fauth%2F2.0&openid.op_endpoint=http%3A%2F%2Fop.example%2F&openid.response_nonce=2005-05-15T17%3A11%3A51Zaa&openid.return_to=http%3A%2F%2Frp.example%2Fback%3Fx%3D1&openid.sig=zz&openid.signed=op_endpoint%2Creturn_to%2Cresponse_nonce%2Cassoc_handle%2Cclaimed_id%2Cidentity&x=1"
     (.ok ⟨200, Utf8.encode t!"is_valid:true\n"⟩),
   .store (.useNonce t!"http://op.example/" 1116177111 t!"aa") (.ok (.bool true))]

example : succeeded0 (play (complete cworld0 cconf0 cenv0 ⟨none, none⟩ (cquery0 t!"zz") t!"http://rp.example/back") cevs1) =
    some (some t!"http://u.example/#f") := by decide +kernel

/-- what is done with a response that asserts nothing -/
theorem generic_told {W : World} {C : Conf} {E : Consumer.Env} {token : Option Endpoint} {q : Dict Str Str} {current : Str}
    {m : Msg} (hq : Dict.WF q) (hm : fromPostArgs W.reg q = .ok m) (hmode : arg q t!"mode" ≠ some t!"id_res") :
    genericComplete W C E m token current = .done (.ok (told token q)) := by
  have hg := got hq hm
  have hget : ∀ k, '.' ∉ k → k ≠ t!"ns" → m.getArg .openid k = .ok (arg q k) := hg.get
  rw [genericComplete, hget _ (by decide) (by decide)]
  show (if _ then _ else _) = _
  rw [told]
  split
  · rfl
  · split
    · rw [completeError, hget _ (by decide) (by decide), hget _ (by decide) (by decide), hget _ (by decide) (by decide)]
      rfl
    · split
      · next h3 =>
        rw [completeSetupNeeded]
        by_cases hv : IsV1 q
        · have : m.isOpenID2 = false := by
            cases h2 : m.isOpenID2 with
            | false => rfl
            | true => exact absurd hv (hg.v2.1 h2)
          simp [this, hv, Prog.ofPy, lift]
        · have h2 := hg.v2.2 hv
          have ho : m.getOpenIDNamespace = some OPENID2_NS := by simpa [Msg.isOpenID2] using h2
          rw [if_pos h2, if_pos ⟨h3, hv⟩, getArg_uri ho (by decide), hget _ (by decide) (by decide)]
          rfl
      · next h3 =>
        rw [if_neg (by rintro ⟨h4, -⟩; exact h3 h4)]
        rfl

/-- C37: a response that asserts nothing (any mode other than `id_res`) is reported for what it says, nothing is asked of
    anyone, and the request is forgotten. -/
theorem c37_other_modes {W : World} {C : Conf} {E : Consumer.Env} {s s' : UserSession} {q : Dict Str Str} {current : Str}
    {evs : List Ev} {r : Except Err Consumer.Response} {m : Msg} (hq : Dict.WF q) (hm : fromPostArgs W.reg q = .ok m)
    (hmode : arg q t!"mode" ≠ some t!"id_res") (h : Runs (complete W C E s q current) evs (.ok (s', r))) :
    evs = [] ∧ r = .ok (told s.token q) ∧ s'.token = none := by
  have key := generic_told (C := C) (E := E) (token := s.token) (current := current) hq hm hmode
  rw [complete, hm] at h
  simp only [key, Prog.handle] at h
  obtain ⟨rfl, h⟩ := h
  simp only [Except.ok.injEq, Prod.mk.injEq] at h
  refine ⟨rfl, h.2.symm, ?_⟩
  rw [← h.1]
  cases told s.token q with
  | success e _ _ => simp only [cleanup]; split <;> rfl
  | cancel e => cases e with
    | none => rfl
    | some e => simp only [cleanup]; split <;> rfl
  | failure _ _ => rfl
  | setupNeeded _ _ => rfl

/-- C37: in OpenID 1 a provider that could not answer without asking the user says so with `id_res` and a URL.  -/
theorem c37_setup_needed_v1 {W : World} {C : Conf} {E : Consumer.Env} {s s' : UserSession} {q : Dict Str Str} {current u : Str}
    {evs : List Ev} {r : Except Err Consumer.Response} {m : Msg} (hq : Dict.WF q) (hm : fromPostArgs W.reg q = .ok m)
    (hns : arg q t!"ns" = none ∨ arg q t!"ns" = some t!"http://openid.net/signon/1.0")
    (hmode : arg q t!"mode" = some t!"id_res") (hu : arg q t!"user_setup_url" = some u)
    (h : Runs (complete W C E s q current) evs (.ok (s', r))) :
    evs = [] ∧ r = .ok (.setupNeeded s.token (some u)) ∧ s'.token = none := by
  have hg := got hq hm
  have hv : IsV1 q := by intro x hx; rcases hns with h | h <;> rw [h] at hx <;> simp_all
  have hns' : m.getOpenIDNamespace = some OPENID1_NS := by
    have := (fromPostArgs_has hq hm).1.ns
    rw [show m.getOpenIDNamespace = _ from this]
    rcases hns with h | h <;> rw [arg] at h
    · rw [show q.get? t!"openid.ns" = none from h]; rfl
    · rw [show q.get? t!"openid.ns" = _ from h]; rfl
  have key : genericComplete W C E m s.token current = .done (.ok (.setupNeeded s.token (some u))) := by
    rw [genericComplete, hg.get _ (by decide) (by decide), hmode]
    show completeIdRes W C E m s.token current = _
    rw [completeIdRes, setupNeeded, if_pos (hg.v1.2 hv), getArg_uri hns' (by decide), hg.get _ (by decide) (by decide), hu]
    rfl
  rw [complete, hm] at h
  simp only [key, Prog.handle] at h
  obtain ⟨rfl, h⟩ := h
  simp only [Except.ok.injEq, Prod.mk.injEq] at h
  exact ⟨rfl, h.2.symm, by rw [← h.1]; rfl⟩

/-- C37: an assertion (mode `id_res`) that is not accepted is reported as a failure for the endpoint of the session, or as
    "setup needed", and the request is forgotten; a violation of the protocol and a failed discovery are always reported and
    never raised.  Other exceptions leave the session as it was. -/
theorem c37_reported {W : World} {C : Conf} {E : Consumer.Env} {s s' : UserSession} {q : Dict Str Str} {current : Str}
    {evs : List Ev} {r : Except Err Consumer.Response} {m : Msg} (hq : Dict.WF q) (hm : fromPostArgs W.reg q = .ok m)
    (hmode : arg q t!"mode" = some t!"id_res") (h : Runs (complete W C E s q current) evs (.ok (s', r))) :
    (∃ e m' signed, r = .ok (.success e m' signed) ∧ s'.token = none) ∨
    ((r = .ok (.failure s.token none) ∨ ∃ u, r = .ok (.setupNeeded s.token (some u))) ∧ s' = { s with token := none }) ∨
    (∃ x, r = .error x ∧ s' = s ∧ x ∉ [Err.py .protocolError, .py .typeURIMismatch, .py .discoveryFailure]) := by
  have hg := got hq hm
  rw [complete, hm] at h
  simp only at h
  rw [runs_handle] at h
  obtain ⟨e1, e2, o, rfl, h1, h2⟩ := h
  have hget : ∀ {ns : Ns} {k : Str} {x : PyErr}, m.getArg ns k = .error x →
      Err.py x ∉ [Err.py .protocolError, .py .typeURIMismatch, .py .discoveryFailure] := by
    intro ns k x hx
    rw [Msg.getArg] at hx
    cases hf : m.fixNS ns with
    | ok n => rw [hf] at hx; simp at hx
    | error y =>
      rw [hf] at hx
      simp only [error_bind, Except.error.injEq] at hx
      subst hx
      unfold Msg.fixNS at hf
      (repeat' split at hf) <;> simp at hf <;> subst hf <;> decide
  have key : (∃ e m' signed, o = .ok (.success e m' signed)) ∨ (o = .ok (.failure s.token none) ∨
      ∃ u, o = .ok (.setupNeeded s.token (some u))) ∨
      (∃ x, o = .error x ∧ x ∉ [Err.py .protocolError, .py .typeURIMismatch, .py .discoveryFailure]) := by
    rw [genericComplete, hg.get _ (by decide) (by decide), hmode] at h1
    change Runs (completeIdRes W C E m s.token current) _ _ at h1
    rw [completeIdRes, runs_py_bind] at h1
    rcases h1 with ⟨u, hu, h1⟩ | ⟨x, hx, rfl, -⟩
    · cases u with
      | some u => obtain ⟨-, rfl⟩ := h1; exact .inr (.inl (.inr ⟨u, rfl⟩))
      | none =>
        simp only at h1
        rw [runs_handle] at h1
        obtain ⟨f1, f2, o', rfl, h1, -, rfl⟩ := h1
        cases o' with
        | ok r' =>
          obtain ⟨e, signed, rfl, -⟩ := doIdRes_ok hq hm hmode h1
          exact .inl ⟨e, m, signed, rfl⟩
        | error x =>
          rw [asFailure]
          by_cases hx : isProtocolError x || x = .py .discoveryFailure
          · rw [if_pos hx]; exact .inr (.inl (.inl rfl))
          · rw [if_neg hx]
            refine .inr (.inr ⟨x, rfl, ?_⟩)
            intro hmem
            apply hx
            simp only [List.mem_cons, List.not_mem_nil, or_false] at hmem
            rcases hmem with rfl | rfl | rfl <;> decide
    · rw [setupNeeded] at hx
      split at hx
      · exact .inr (.inr ⟨_, rfl, hget hx⟩)
      · simp at hx
  rcases key with ⟨e, m', signed, rfl⟩ | hk | ⟨x, rfl, hx⟩
  · simp only [runs_pure, Except.ok.injEq, Prod.mk.injEq] at h2
    refine .inl ⟨e, m', signed, h2.2.2.symm, ?_⟩
    rw [← h2.2.1]
    simp only [cleanup]; split <;> rfl
  · refine .inr (.inl ?_)
    rcases hk with rfl | ⟨u, rfl⟩
    · simp only [runs_pure, Except.ok.injEq, Prod.mk.injEq] at h2
      exact ⟨.inl h2.2.2.symm, by rw [← h2.2.1]; rfl⟩
    · simp only [runs_pure, Except.ok.injEq, Prod.mk.injEq] at h2
      exact ⟨.inr ⟨u, h2.2.2.symm⟩, by rw [← h2.2.1]; rfl⟩
  · simp only [runs_pure, Except.ok.injEq, Prod.mk.injEq] at h2
    exact .inr (.inr ⟨x, h2.2.2.symm, h2.2.1.symm, hx⟩)

/-- what a completion returned, if it was a failure -/
def failed1 : Option (Except Err (UserSession × Except Err Consumer.Response)) → Option UserSession
  | some (.ok (s, .ok (.failure _ none))) => some s
  | _ => none

example : failed1 (play (complete cworld0 cconf0 cenv0 ⟨some endpoint0, none⟩ (cquery0 t!"AQIf") t!"http://other.example/")
    []) = some ⟨none, none⟩ := by decide +kernel

/-- C37: a response that does not parse as an OpenID message raises, and the session stays as it was. -/
theorem c37_unparsable {W : World} {C : Conf} {E : Consumer.Env} {s s' : UserSession} {q : Dict Str Str} {current : Str}
    {evs : List Ev} {r : Except Err Consumer.Response} {x : PyErr} (hm : fromPostArgs W.reg q = .error x)
    (h : Runs (complete W C E s q current) evs (.ok (s', r))) : evs = [] ∧ r = .error (.py x) ∧ s' = s := by
  rw [complete, hm] at h
  simp at h
  exact ⟨h.1, h.2.2.symm, h.2.1.symm⟩

/-- what a completion raises, if it does -/
def raised1 : Option (Except Err (UserSession × Except Err Consumer.Response)) → Option Err
  | some (.ok (_, .error e)) => some e
  | _ => none

example : (play (complete cworld0 cconf0 cenv0 ⟨some endpoint0, none⟩ [(t!"openid.mode", t!"cancel")] t!"http://rp/") []).isSome ∧
    told (some endpoint0) [(t!"openid.mode", t!"cancel")] = .cancel (some endpoint0) := by decide +kernel

example : raised1 (play (complete cworld0 cconf0 cenv0 ⟨some endpoint0, none⟩ [(t!"openid.ns", t!"x")] t!"http://rp/") []) =
    some (.py .invalidOpenIDNamespace) := by decide +kernel

def v1query0 (ns : Str) : Dict Str Str :=
  [(t!"openid.ns", ns), (t!"openid.mode", t!"id_res"), (t!"openid.user_setup_url", t!"http://op/setup"),
   (t!"openid.return_to", t!"http://rp/"), (t!"openid.assoc_handle", t!"h"), (t!"openid.sig", t!"s"),
   (t!"openid.signed", t!"return_to,identity"), (t!"openid.identity", t!"http://u/")]

example : (play (complete cworld0 cconf0 cenv0 ⟨some endpoint0, none⟩ (v1query0 t!"http://openid.net/signon/1.0") t!"http://rp/")
    []).isSome := by decide +kernel

/-- Not for the other namespace of OpenID 1: there `complete` raises a KeyError instead of returning a response. -/
theorem c37_signon_1_1_raises :
    raised1 (play (complete cworld0 cconf0 cenv0 ⟨some endpoint0, none⟩ (v1query0 t!"http://openid.net/signon/1.1")
      t!"http://rp/") []) = some (.py .keyError) := by decide +kernel

/-- An empty signature is not reported as a failure: `complete` raises a ValueError. -/
theorem c37_empty_sig_raises :
    raised1 (play (complete cworld0 cconf0 cenv0 ⟨some endpoint0, none⟩ (cquery0 []) t!"http://rp.example/back")
      (cevs0.take 1)) = some (.py .valueError) := by decide +kernel

/-- The return URL is compared without its path parameters: `/back;y` is taken for `/back`. -/
theorem c37_path_parameters_ignored :
    succeeded0 (play (complete cworld0 cconf0 cenv0 ⟨some endpoint0, none⟩ (cquery0 t!"AQIf") t!"http://rp.example/back;y")
      cevs0) = some (some t!"http://u.example/#f") := by decide +kernel

end Props
