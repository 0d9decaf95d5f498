import Verif.Lemmas.BeginRaise
import Verif.Props.Consumer
/-! # C67: a consumer completes with a response; the exceptions that leave it -/

namespace Props
open Py Message Association Cryptutil Store Discover Consumer Spec

/-- **C67** What leaves `complete` when it does not return a response: never one of the library's own protocol errors, and
    the session is as it was, so that the user can come back. -/
theorem c67_raises (W : World) (hreg : ∀ a u, W.reg.get? a = some u → u ≠ t!"sreg") (C : Conf) (E : Env) (s s' : UserSession)
    (q : Dict Str Str) (hq : Dict.WF q) (current : Str) (evs : List Ev) (x : Err)
    (h : Runs (complete W C E s q current) evs (.ok (s', .error x))) :
    s' = s ∧ ∃ e, x = .py e ∧ e ≠ .protocolError ∧ e ≠ .typeURIMismatch ∧ e ≠ .discoveryFailure ∧
      Unfinished W s.token q current evs e := by
  rw [complete] at h
  cases hm : fromPostArgs W.reg q with
  | error e =>
    rw [hm] at h
    simp only [runs_pure] at h
    obtain ⟨rfl, h⟩ := h
    simp only [Except.ok.injEq, Prod.mk.injEq, Except.error.injEq] at h
    refine ⟨h.1.symm, e, h.2.symm, ?_⟩
    rcases fromPostArgs_why hq hm with ⟨rfl, u, h1, h2⟩ | ⟨-, h1⟩
    · exact ⟨by simp, by simp, by simp, .version u h1 h2⟩
    · exact ⟨by rintro rfl; exact (nomatch h1), by rintro rfl; exact (nomatch h1), by rintro rfl; exact (nomatch h1), .names e h1⟩
  | ok m =>
    rw [hm] at h
    obtain ⟨e1, e2, r, rfl, h1, h2⟩ := (runs_handle _ _ _ _).1 h
    cases r with
    | ok r =>
      simp only [runs_pure] at h2
      obtain ⟨-, h2⟩ := h2
      cases h2
    | error y =>
      simp only [runs_pure] at h2
      obtain ⟨rfl, h2⟩ := h2
      simp only [Except.ok.injEq, Prod.mk.injEq, Except.error.injEq] at h2
      obtain ⟨rfl, rfl⟩ := h2
      obtain ⟨e, rfl, hc, hu⟩ := generic_error hq hm hreg h1
      rw [List.append_nil]
      exact ⟨rfl, e, rfl, fun h => hc (.inl h), fun h => hc (.inr (.inl h)), fun h => hc (.inr (.inr h)), hu⟩

/-- **C67** An answer other than a positive assertion (a cancellation, an error, a request for setup, no mode or an unknown
    one) always gets a response, if only it can be read. -/
theorem c67_responds (W : World) (hreg : ∀ a u, W.reg.get? a = some u → u ≠ t!"sreg") (C : Conf) (E : Env) (s s' : UserSession)
    (q : Dict Str Str) (hq : Dict.WF q) (hv : ∀ u, arg q t!"ns" = some u → u ∈ versions)
    (hc : ∀ e, ¬ Clash W.reg (versionIn (arg q)) (arg q) e) (hmode : arg q t!"mode" ≠ some t!"id_res") (current : Str)
    (evs : List Ev) (r : Except Err Response) (h : Runs (complete W C E s q current) evs (.ok (s', r))) :
    ∃ response, r = .ok response := by
  cases r with
  | ok r => exact ⟨r, rfl⟩
  | error x =>
    obtain ⟨-, e, -, -, -, -, hu⟩ := c67_raises W hreg C E s s' q hq current evs x h
    exfalso
    cases hu with
    | version u h1 h2 => exact h2 (hv u h1)
    | names _ h1 => exact hc e h1
    | literal _ _ h1 => exact hmode h1
    | between h1 => exact hmode h1
    | url _ h1 => exact hmode h1
    | claimed _ h1 => exact hmode h1
    | nobody _ h1 => exact hmode h1
    | outside _ h1 => exact hmode h1
    | signature _ _ _ _ h1 => exact hmode h1

/-- **C67** What leaves `begin`; the pending request is as it was, unless the request is made for nobody. -/
theorem c67_begin (W : World) (C : Conf) (E : Env) (s s' : UserSession) (id : Str) (anonymous : Bool) (evs : List Ev) (x : Err)
    (h : Runs (begin W C E s id anonymous) evs (.ok (s', .error x))) :
    ∃ e, x = .py e ∧ NotBegun W C anonymous s'.token evs e ∧ (s'.token = s.token ∨ e = .protocolError) :=
  begin_error h

/-! ## Each of them happens -/

/-- the exception that leaves a completion -/
def left0 {α : Type} : Option (Except Err (UserSession × Except Err α)) → Option PyErr
  | some (.ok (_, .error (.py e))) => some e
  | _ => none

/-- a positive assertion, changed -/
def changed0 (k v : Str) : Dict Str Str := (cquery0 t!"AQIf").set k v

def complete0 (token : Option Endpoint) (q : Dict Str Str) (current : Str) (evs : List Ev) : Option PyErr :=
  left0 (play (complete cworld0 cconf0 cenv0 ⟨token, none⟩ q current) evs)

/-- what the provider is asked in `cevs1` -/
def asked0 (r : Except PyErr Http) : List Ev :=
  cevs1.take 2 ++ (cevs1.drop 2).flatMap fun
    | .post u b _ => [.post u b r]
    | _ => []

/-- The hypotheses of `c67_raises` are met: an unknown version. -/
example : (∀ a u, cworld0.reg.get? a = some u → u ≠ t!"sreg") ∧ Dict.WF (changed0 t!"openid.ns" t!"v") ∧
    complete0 none (changed0 t!"openid.ns" t!"v") t!"http://rp.example/back" [] = some .invalidOpenIDNamespace := by
  refine ⟨?_, by decide +kernel, by decide +kernel⟩
  intro a u h
  simp [cworld0, sworld0] at h

theorem c67_names_raises :
    complete0 none (changed0 t!"openid.ns.mode" t!"v") t!"http://rp.example/back" [] = some .assertionError := by
  decide +kernel

/-- An OpenID 1 assertion when no request is pending. -/
theorem c67_nobody_raises :
    complete0 none ((v1query0 t!"http://openid.net/signon/1.0").del t!"openid.user_setup_url") t!"http://rp/" [] =
      some .runtimeError := by
  decide +kernel

theorem c67_between_raises :
    complete0 (some endpoint0) (v1query0 t!"http://openid.net/signon/1.1") t!"http://rp/" [] = some .keyError := by
  decide +kernel

/-- A return URL, or a claimed identifier, that is no URL. -/
theorem c67_url_raises :
    complete0 none (changed0 t!"openid.return_to" t!"http://[rp/") t!"http://rp.example/back" [] = some .valueError ∧
    complete0 (some endpoint0) (changed0 t!"openid.claimed_id" t!"http://[u/#x") t!"http://rp.example/back" [] = some .valueError := by
  decide +kernel

/-- A signature over a text with a line end, and no signature at all. -/
theorem c67_signature_raises :
    complete0 (some endpoint0) (changed0 t!"openid.response_nonce" t!"2005-05-15T17:11:51Za\na") t!"http://rp.example/back"
      (cevs0.take 1) = some .kvFormError ∧
    complete0 (some endpoint0) (changed0 t!"openid.sig" []) t!"http://rp.example/back" (cevs0.take 1) = some .valueError := by
  decide +kernel

/-- A reply to a request to check that is not text, or that is of another protocol. -/
theorem c67_reply_raises :
    complete0 none (cquery0 t!"zz") t!"http://rp.example/back" (asked0 (.ok ⟨200, [255]⟩)) = some .unicodeError ∧
    complete0 none (cquery0 t!"zz") t!"http://rp.example/back" (asked0 (.ok ⟨200, Utf8.encode t!"ns:foo\n"⟩)) =
      some .invalidOpenIDNamespace := by
  decide +kernel

def begin0 (C : Conf) (anonymous : Bool) (e : Endpoint) : Option PyErr :=
  left0 (play (begin cworld0 C cenv0 ⟨none, none⟩ t!"http://u.example/" anonymous)
    [.discover t!"http://u.example/" (.ok (t!"http://u.example/", [e]))])

/-- No request for nobody in OpenID 1. -/
theorem c67_anonymous_raises :
    begin0 ⟨false, []⟩ true { endpoint0 with typeUris := [t!"http://openid.net/signon/1.1"] } = some .protocolError ∧
    begin0 ⟨false, []⟩ true endpoint0 = none := by
  decide +kernel

/-- Nothing found. -/
theorem c67_nothing_raises : left0 (play (begin cworld0 cconf0 cenv0 ⟨none, none⟩ t!"http://u.example/" false)
    [.discover t!"http://u.example/" (.ok (t!"http://u.example/", []))]) = some .discoveryFailure := by
  decide +kernel

end Props
