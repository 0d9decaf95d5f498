import Verif.Lemmas.Form
import Verif.Lemmas.ServerAnswer
import Verif.Props.ServerCodec
/-! # C33, C51, C52: signing and encoding -/

namespace Props
open Py Message Association Store Server Spec

/-! ## C52 -/

/-- the page that carries a message -/
theorem page_cases (m : Msg) (url : Str) :
    (Writable m url ∧ ∃ f, formMarkup noNames m [] (some url) = .ok f ∧
      Posts (Form.autoSubmitHTML f Form.defaultTitle) url m.toPostArgs ∧
      SubmitsItself (Form.autoSubmitHTML f Form.defaultTitle)) ∨
    (¬ Writable m url ∧ formMarkup noNames m [] (some url) = .error (.py .valueError)) := by
  have hok : ∀ n, noNames n = true → Form.Name n := fun n h => by cases h
  unfold formMarkup
  cases h : Form.toFormMarkup noNames m url [] Form.defaultSubmit with
  | ok f =>
    obtain ⟨-, h1, h2, -⟩ := Form.markup_iff.1 ⟨f, h⟩
    exact .inl ⟨⟨h1, h2⟩, f, by simp only [h]; rfl, Form.posts_form _ _ _ _ _ (Form.forms_page hok h), Form.submits_page hok h⟩
  | error e =>
    refine .inr ⟨fun hw => ?_, by simp only [h]; rw [Form.markup_error h]; rfl⟩
    obtain ⟨f, hf⟩ := Form.markup_iff.2 (⟨by simp, hw.1, hw.2, Form.legible_iff.1 (by decide)⟩ :
      (∀ p ∈ ([] : Dict Str Str), noNames p.1 = true ∧ Legible p.2) ∧ Legible url ∧
      (∀ p ∈ m.toPostArgs, Legible p.1 ∧ Legible p.2) ∧ Legible Form.defaultSubmit)
    rw [h] at hf; cases hf

/-- **C52** The response to a checkid request goes to where the request said, through the browser: by redirect, or as a
    form if it is of OpenID 2 and too long.  A response that would have to be a form but has characters that cannot be in
    one is refused with a ValueError. -/
theorem c52_browser (r : Response) (c : CheckIDRequest) (hr : r.request = .checkId c) (url : Str)
    (hu : c.returnTo = some url) :
    (¬ (TooLong r.fields url ∧ ¬ Writable r.fields url) ∧ ∃ w, encode r = .ok w ∧ sentTo r.fields url w) ∨
    (TooLong r.fields url ∧ ¬ Writable r.fields url ∧ encode r = .error (.py .valueError)) := by
  have hb : browserModes.contains r.request.mode = true := by
    rw [hr]; simp only [Request.mode, CheckIDRequest.mode]; cases c.immediate <;> decide
  unfold encode Response.whichEncoding Response.encodeToURL Response.toHTML Response.toFormMarkup
  rw [if_pos hb, hr]
  simp only [Request.returnTo, ok_bind, hu, toURL]
  by_cases h2 : r.fields.isOpenID2 = true
  · simp only [h2, if_true, pure_eq_ok, ok_bind]
    by_cases hl : (r.fields.toURL url).length > OPENID1_URL_LIMIT
    · have ht : TooLong r.fields url := ⟨(v2_iff _).1 h2, hl⟩
      simp only [hl, if_true]
      rcases page_cases r.fields url with ⟨h1, f, h3, h4, h5⟩ | ⟨h1, h3⟩
      · refine .inl ⟨fun h => h.2 h1, ⟨200, none, _⟩, by rw [h3]; rfl, .inl ⟨ht, rfl, rfl, h4, h5⟩⟩
      · exact .inr ⟨ht, h1, by rw [h3]; rfl⟩
    · have ht : ¬ TooLong r.fields url := fun h => hl h.2
      simp only [hl, if_false]
      exact .inl ⟨fun h => ht h.1, _, rfl, .inr ⟨ht, rfl⟩⟩
  · have ht : ¬ TooLong r.fields url := fun h => h2 ((v2_iff _).2 h.1)
    simp only [h2, if_false, ok_bind, pure_eq_ok, Bool.false_eq_true]
    exact .inl ⟨fun h => ht h.1, _, rfl, .inr ⟨ht, rfl⟩⟩

/-- **C52** Without a place to go to, there is no answer to a checkid request. -/
theorem c52_browser_nowhere (r : Response) (c : CheckIDRequest) (hr : r.request = .checkId c) (hu : c.returnTo = none)
    (w : WebResponse) : encode r ≠ .ok w := by
  have hb : browserModes.contains r.request.mode = true := by
    rw [hr]; simp only [Request.mode, CheckIDRequest.mode]; cases c.immediate <;> decide
  unfold encode Response.whichEncoding Response.encodeToURL
  rw [if_pos hb, hr]
  simp only [Request.returnTo, ok_bind, hu, toURL, error_bind]
  split <;> simp

/-- **C52** `renderAsForm` says whether the response goes as a form. -/
theorem c52_render (r : Response) (c : CheckIDRequest) (hr : r.request = .checkId c) (url : Str)
    (hu : c.returnTo = some url) (b : Bool) : r.renderAsForm = .ok b ↔ (b = true ↔ TooLong r.fields url) := by
  have hb : browserModes.contains r.request.mode = true := by
    rw [hr]; simp only [Request.mode, CheckIDRequest.mode]; cases c.immediate <;> decide
  unfold Response.renderAsForm Response.whichEncoding Response.encodeToURL
  rw [if_pos hb, hr]
  simp only [Request.returnTo, ok_bind, hu, toURL, TooLong, ← v2_iff]
  have h0 : OPENID1_URL_LIMIT = 2047 := rfl
  rw [h0]
  by_cases h2 : r.fields.isOpenID2 = true
  · simp only [h2, if_true, pure_eq_ok, ok_bind, true_and]
    by_cases hl : (r.fields.toURL url).length > 2047
    · have hl' : 2047 < (r.fields.toURL url).length := hl
      cases b <;> simp [hl']
    · have hl' : ¬ 2047 < (r.fields.toURL url).length := hl
      cases b <;> simp [hl']
  · cases b <;> simp [h2]

/-- the code and the fields with which a response to a checkid request is sent -/
def sent0 (fields : Dict Str Str) : Except Err (Nat × List (Str × Str)) := do
  let w ← encode ⟨.checkId (checkid0 none), msgOf fields⟩
  return (w.code, (formsOf w.body).flatMap (·.fields))

set_option maxRecDepth 20000 in
-- short; long; long, with a character that cannot be in a page
example :
    sent0 [(t!"mode", t!"cancel")] = .ok (302, []) ∧
    sent0 [(t!"x", List.replicate 680 '<')] = .ok (200, [(t!"openid.ns", t!"http://specs.openid.net/auth/2.0"), (t!"openid.x", List.replicate 680 '<')]) ∧
    sent0 [(t!"x", List.replicate 680 '\x08')] = .error (.py .valueError) :=
  ⟨by decide +kernel, by decide +kernel, by decide +kernel⟩

/-- **C52** The response to any other request is the answer itself, with status 200, in key-value form; if it has no
    such form there is no answer. -/
theorem c52_direct (r : Response) (hr : ∀ c, r.request ≠ .checkId c) (w : WebResponse) :
    encode r = .ok w ↔ ∃ kv, r.fields.toKVForm = .ok kv ∧ w = ⟨200, none, kv⟩ := by
  have hb : browserModes.contains r.request.mode = false := by
    cases h : r.request with
    | checkAuth _ => rfl
    | associate _ => rfl
    | checkId c => exact absurd h (hr c)
  unfold encode Response.whichEncoding
  rw [if_neg (by rw [hb]; decide)]
  simp only [ok_bind]
  cases r.fields.toKVForm with
  | error e => simp [lift]
  | ok kv => simp [lift, eq_comm]

/-! ## C33 -/

/-- a response that is a positive assertion (or says so, in OpenID 1, when setup is needed) -/
def IsIdRes (r : Response) : Prop := r.fields.getArg .openid t!"mode" = .ok (some t!"id_res")

theorem needs_iff (r : Response) : r.needsSigning = .ok true ↔ IsIdRes r := by
  unfold Response.needsSigning IsIdRes
  cases r.fields.getArg .openid t!"mode" with
  | error e => simp [lift]
  | ok m => simp [lift]

theorem hasKey_iff (m : Msg) (k : Str) :
    (m.hasKey .openid k = .ok true ↔ ∃ v, m.getArg .openid k = .ok (some v)) ∧
    (m.hasKey .openid k = .ok false ↔ m.getArg .openid k = .ok none) := by
  unfold Msg.hasKey Msg.getArg
  cases m.fixNS .openid with
  | error e => simp
  | ok n =>
    simp only [ok_bind, pure_eq_ok, Except.ok.injEq, Dict.has]
    cases m.args.get? (n, k) <;> simp

/-- **C33** A positive assertion leaves the signing encoder signed, by an association the store holds, and as it was but
    for that and for an `invalidate_handle`; it carried no signature before. -/
theorem c33_signed {σ : Type} (W : World) (step : σ → Event → σ × Outcome) (view : σ → AssocMap)
    (hf : Faithful W.clock step view) (s s' : σ) (E : Env) (r : Response) (w : WebResponse) (hi : IsIdRes r)
    (h : Prog.run step E.now s (signingEncode W E r) = (s', .ok w)) :
    r.fields.getArg .openid t!"sig" = .ok none ∧
    ∃ (a : Assoc) (m : Msg) (signed : Response) (dumb : Bool) (handle : Str),
      view s' (if dumb = true then t!"http://localhost/|dumb" else t!"http://localhost/|normal") handle = some a ∧
      (m = r.fields ∨ ∃ x, r.request.assocHandle = .ok (some x) ∧
        r.fields.setArg .openid t!"invalidate_handle" x = .ok m) ∧
      a.signMessage W.mac m = .ok signed.fields ∧ signed.request = r.request ∧ encode signed = .ok w ∧
      Prog.run step E.now s (sign W E r) = (s', .ok signed) := by
  unfold signingEncode at h
  rw [(needs_iff r).2 hi] at h
  simp only at h
  split at h
  · simp at h
  · simp at h
  · next hk =>
    refine ⟨(hasKey_iff _ _).2.1 hk, ?_⟩
    obtain ⟨s1, signed, h1, h2⟩ := run_bind_ok _ _ h
    simp only [run_done, Prod.mk.injEq] at h2
    obtain ⟨rfl, h2⟩ := h2
    cases hh : r.request.assocHandle with
    | error e => rw [sign, hh] at h1; simp at h1
    | ok o =>
      have less : (o = none ∨ o = some []) → ∃ a m signed dumb handle,
          view s1 (if dumb = true then t!"http://localhost/|dumb" else t!"http://localhost/|normal") handle = some a ∧
          (m = r.fields ∨ ∃ x, o = some x ∧ r.fields.setArg .openid t!"invalidate_handle" x = .ok m) ∧
          a.signMessage W.mac m = .ok signed.fields ∧ signed.request = r.request ∧ encode signed = .ok w ∧
          Prog.run step E.now s (sign W E r) = (s1, .ok signed) := by
        intro ho
        obtain ⟨a, -, -, k1, k2, k3⟩ := c32_stateless W step view hf s s1 E r signed
          (by rw [hh]; simpa using ho) h1
        refine ⟨a, r.fields, signed, true, a.handle, ?_, .inl rfl, k1, k2, h2, h1⟩
        rw [k3]; simp
      simp only [Except.ok.injEq]
      cases o with
      | none => exact less (.inl rfl)
      | some handle =>
        by_cases hne : handle = []
        · subst hne; exact less (.inr rfl)
        · by_cases hx : ∀ a, view s t!"http://localhost/|normal" handle = some a → a.issued + a.lifetime ≤ W.clock.seconds E.now
          · obtain ⟨a, m, -, k1, k2, k3, k4, -⟩ := c32_fallback W step view hf s s1 E r signed handle hh hne hx h1
            exact ⟨a, m, signed, true, a.handle, k4, .inr ⟨handle, rfl, k1⟩, k2, k3, h2, h1⟩
          · simp only [Classical.not_forall] at hx
            obtain ⟨a, ha, hx⟩ := hx
            have hx' : W.clock.seconds E.now < a.issued + a.lifetime := by omega
            obtain ⟨k1, k2, k3⟩ := c32_named W step view hf s s1 E r signed handle a hh hne ha hx' h1
            refine ⟨a, r.fields, signed, false, handle, ?_, .inl rfl, k1, k2, h2, h1⟩
            rcases k3 t!"http://localhost/|normal" handle with k | ⟨-, b, k, kx⟩
            · simpa [k] using ha
            · rw [ha] at k; cases k; simp only [expired] at kx; omega

/-- **C33** Anything else is sent as it is, and the store is not touched. -/
theorem c33_unsigned {σ : Type} (W : World) (step : σ → Event → σ × Outcome) (s : σ) (E : Env) (r : Response)
    (hi : ¬ IsIdRes r) (hn : ∃ oid, r.fields.getOpenIDNamespace = some oid) :
    Prog.run step E.now s (signingEncode W E r) = (s, encode r) := by
  obtain ⟨oid, hn⟩ := hn
  have : r.needsSigning = .ok false := by
    cases h : r.needsSigning with
    | error e =>
      unfold Response.needsSigning at h
      simp [Msg.getArg, Msg.fixNS, hn, lift] at h
    | ok b =>
      cases b
      · rfl
      · exact absurd ((needs_iff r).1 h) hi
  unfold signingEncode
  rw [this]; rfl

/-- **C33** A positive assertion that carries a signature already is refused, and nothing happens. -/
theorem c33_already {σ : Type} (W : World) (step : σ → Event → σ × Outcome) (s : σ) (E : Env) (r : Response) (v : Str)
    (hi : IsIdRes r) (hs : r.fields.getArg .openid t!"sig" = .ok (some v)) :
    Prog.run step E.now s (signingEncode W E r) = (s, .error .alreadySigned) := by
  unfold signingEncode
  rw [(needs_iff r).2 hi]
  simp only [((hasKey_iff _ _).1.2 ⟨v, hs⟩)]
  rfl

/-- where the browser is sent, by the store in memory that has just been made -/
def sends0 (r : Response) : Option (Nat × Bool) :=
  match (Prog.run (MemStore.keptStep clock0) 5000 MemStore.keptInit (signingEncode sworld0 senv0 r)).2 with
  | .ok w => some (w.code, (w.location.getD []).length > 100)
  | .error _ => none

-- a positive assertion is signed and redirected; signed already, it is refused; a refusal is redirected as it is
example : IsIdRes (unsigned0 none) ∧ sends0 (unsigned0 none) = some (302, true) ∧
    IsIdRes (signed0 none) ∧ sends0 (signed0 none) = none ∧
    ¬ IsIdRes ⟨.checkId (checkid0 none), msgOf [(t!"mode", t!"cancel")]⟩ ∧
    sends0 ⟨.checkId (checkid0 none), msgOf [(t!"mode", t!"cancel")]⟩ = some (302, false) := by
  refine ⟨by unfold IsIdRes; decide +kernel, by decide +kernel, by unfold IsIdRes; decide +kernel, by decide +kernel,
    by unfold IsIdRes; decide +kernel, by decide +kernel⟩

/-! ## C51 -/

/-- **C51** How a protocol error that came with a message is sent: to the return_to of the request, if it had one; else
    in the body, with status 400, if the mode of the request is one of direct communication; else not at all (an
    EncodingError tells the application to show it).  What is sent is of the version of the request and carries mode
    `error`, the text, and contact and reference if there are any. -/
theorem c51_sent (reg : Dict Str Str) (p : ProtocolError) (m : Msg) (hp : p.message = some m) (hb : Built reg m)
    (oid : Str) (ho : m.getOpenIDNamespace = some oid) (to mode : Option Str)
    (ht : m.getArg .openid t!"return_to" = .ok to) (hm : m.getArg .openid t!"mode" = .ok mode) :
    ∃ e, Carries e oid (argsOf [(t!"mode", some t!"error"), (t!"error", some p.text), (t!"contact", p.contact),
        (t!"reference", p.reference)]) ∧
      ∀ res, encodeError p = res →
        match to with
        | some url =>
          (¬ (TooLong e url ∧ ¬ Writable e url) ∧ ∃ w, res = .ok w ∧ sentTo e url w) ∨
          (TooLong e url ∧ ¬ Writable e url ∧ res = .error (.py .valueError))
        | none =>
          match given mode with
          | some x =>
            if x = t!"checkid_setup" ∨ x = t!"checkid_immediate" then res = .error .encoding
            else (∃ kv, e.toKVForm = .ok kv ∧ res = .ok ⟨400, none, kv⟩) ∨
              ∃ why, e.toKVForm = .error why ∧ res = .error (.py why)
          | none => res = .error .encoding := by
  have hi := minv_built reg m hb
  obtain ⟨e0, he0⟩ := new_can (hi.oid _ ho)
  have x0 := new_exactly he0
  obtain ⟨e1, h1, x1⟩ := x0.can t!"mode" t!"error"
  obtain ⟨e2, h2, x2⟩ := x1.can t!"error" p.text
  obtain ⟨e3, h3, x3⟩ := x2.setSome t!"contact" p.contact
  obtain ⟨e4, h4, x4⟩ := x3.setSome t!"reference" p.reference
  have hmsg : p.toMessage = .ok e4 := by
    unfold ProtocolError.toMessage
    simp only [hp, ho, he0, lift, ok_bind, h1, h2, h3, h4]
  refine ⟨e4, carries_of (x4.congr ?_), ?_⟩
  · intro k
    simp only [argsOf]
    by_cases k1 : k = t!"mode"
    · subst k1; rfl
    · by_cases k2 : k = t!"error"
      · subst k2; rfl
      · by_cases k3 : k = t!"contact"
        · subst k3; cases p.contact <;> rfl
        · by_cases k4 : k = t!"reference"
          · subst k4; cases p.reference <;> rfl
          · simp only [k1, k2, k3, k4, if_false]
            rw [if_neg (fun e => k4 e.symm), if_neg (fun e => k3 e.symm), if_neg (fun e => k2 e.symm),
              if_neg (fun e => k1 e.symm)]
  · intro res
    have h2' : m.isOpenID2 = e4.isOpenID2 := by
      unfold Msg.isOpenID2; rw [ho, x4.ns]
    have hto : p.getReturnTo = .ok to := by
      unfold ProtocolError.getReturnTo; simp only [hp, ht, lift]
    unfold encodeError ProtocolError.whichEncoding ProtocolError.whichDirect ProtocolError.encodeToURL
    simp only [hto, hp, hmsg, ok_bind, hm, lift]
    cases to with
    | some url =>
      intro hres
      simp only [toURL, ok_bind, h2', ProtocolError.toHTML, ProtocolError.toFormMarkup, hmsg, hto] at hres
      by_cases h2 : e4.isOpenID2 = true
      · simp only [h2, if_true, pure_eq_ok, ok_bind] at hres
        by_cases hl : (e4.toURL url).length > OPENID1_URL_LIMIT
        · have htl : TooLong e4 url := ⟨(v2_iff _).1 h2, hl⟩
          simp only [hl, if_true] at hres
          rcases page_cases e4 url with ⟨g1, f, g3, g4, g5⟩ | ⟨g1, g3⟩
          · rw [g3] at hres
            subst hres
            exact .inl ⟨fun h => h.2 g1, ⟨200, none, _⟩, rfl, .inl ⟨htl, rfl, rfl, g4, g5⟩⟩
          · rw [g3] at hres
            subst hres
            exact .inr ⟨htl, g1, rfl⟩
        · have htl : ¬ TooLong e4 url := fun h => hl h.2
          simp only [hl, if_false] at hres
          subst hres
          exact .inl ⟨fun h => htl h.1, _, rfl, .inr ⟨htl, rfl⟩⟩
      · have htl : ¬ TooLong e4 url := fun h => h2 ((v2_iff _).2 h.1)
        simp only [h2, if_false, ok_bind, pure_eq_ok, Bool.false_eq_true] at hres
        subst hres
        exact .inl ⟨fun h => htl h.1, _, rfl, .inr ⟨htl, rfl⟩⟩
    | none =>
      rcases mode with _ | _ | ⟨c, x⟩
      · simp only [truthy, given, Bool.false_and, Bool.false_eq_true, if_false, pure_eq_ok, ok_bind, throw_eq_error]
        exact fun h => h.symm
      · simp only [truthy, given, Bool.false_and, Bool.false_eq_true, if_false, pure_eq_ok, ok_bind, throw_eq_error]
        exact fun h => h.symm
      · have hc : browserModes.contains (c :: x) = true ↔
            (c :: x = t!"checkid_setup" ∨ c :: x = t!"checkid_immediate") := by
          simp [browserModes]
        simp only [truthy, given, Bool.true_and, Option.getD_some]
        by_cases hcb : c :: x = t!"checkid_setup" ∨ c :: x = t!"checkid_immediate"
        · rw [hc.2 hcb]
          simp only [Bool.not_true, Bool.false_eq_true, if_false, pure_eq_ok, ok_bind, throw_eq_error, hcb, if_true]
          exact fun h => h.symm
        · have : browserModes.contains (c :: x) = false := by
            cases h : browserModes.contains (c :: x) with
            | false => rfl
            | true => exact absurd (hc.1 h) hcb
          rw [this]
          simp only [Bool.not_false, if_true, pure_eq_ok, ok_bind, hcb, if_false]
          cases e4.toKVForm with
          | error e => intro h; exact .inr ⟨e, rfl, h.symm⟩
          | ok kv => intro h; exact .inl ⟨kv, rfl, h.symm⟩

/-- **C51** An error that came without a message is not sent (EncodingError). -/
theorem c51_no_message (p : ProtocolError) (hp : p.message = none) : encodeError p = .error .encoding := by
  unfold encodeError ProtocolError.whichEncoding ProtocolError.getReturnTo ProtocolError.whichDirect
  simp only [hp]
  rfl

/-- a short rendering of what is sent -/
def sentError0 (q : Dict Str Str) : Option (Option (Nat × Bool × Str)) :=
  match fromPostArgs [] q with
  | .error _ => none
  | .ok m =>
    match encodeError ⟨some m, t!"no", none, some t!"x"⟩ with
    | .error .encoding => some none
    | .ok w => some (some (w.code, w.location.isSome, w.body))
    | .error _ => none

-- to the return_to; in the body; not at all
example : sentError0 [(t!"openid.mode", t!"checkid_setup"), (t!"openid.return_to", t!"http://rp/")] =
      some (some (302, true, [])) ∧
    sentError0 [(t!"openid.mode", t!"associate")] =
      some (some (400, false, t!"error:no\nmode:error\nreference:x\n")) ∧
    sentError0 [(t!"openid.mode", t!"checkid_setup")] = some none ∧ sentError0 [] = some none :=
  ⟨by decide +kernel, by decide +kernel, by decide +kernel, by decide +kernel⟩

/-- **C52** a request that can be made into a URL for some server fails an assertion without the address of one -/
theorem c52_no_server (r : CheckIDRequest) (url x : Str) (h : r.encodeToURL (some url) = .ok x) :
    r.encodeToURL none = .error (.py .assertionError) := by
  unfold CheckIDRequest.encodeToURL at *
  split at h
  · cases h
  · cases h
  · obtain ⟨m, h1, h⟩ := bind_eq_ok.1 h
    obtain ⟨n, h2, h⟩ := bind_eq_ok.1 h
    simp only [h1, h2, ok_bind]
    split at h
    · next hi hc =>
      obtain ⟨m', h3, h⟩ := bind_eq_ok.1 h
      simp only [h3, ok_bind, toURL]
    · cases h

example : (checkid0 none).encodeToURL (some t!"http://op/") ≠ .error (.py .assertionError) ∧
    (∃ x, (checkid0 none).encodeToURL (some t!"http://op/") = .ok x) ∧
    (checkid0 none).encodeToURL none = .error (.py .assertionError) := by
  have h : ∃ x, (checkid0 none).encodeToURL (some t!"http://op/") = .ok x := ⟨_, rfl⟩
  obtain ⟨x, hx⟩ := h
  exact ⟨by rw [hx]; simp, ⟨x, hx⟩, c52_no_server _ _ _ hx⟩

end Props
