import Verif.Lemmas.ConsumerAccept
import Verif.Props.Consumer
/-! # C37: the checks are enough

`c37_success` says that a completion reporting success has made every check; here is the converse, where the endpoint is
the one the session kept. -/

namespace Props
open Py Message Association Cryptutil Store Discover Consumer Spec

/-- where no discovery is made, the endpoint is the session's -/
theorem _root_.Spec.Confirmed.without {W : World} {session : Option Endpoint} {q : Dict Str Str} {evs : List Ev} {e : Endpoint}
    (h : Confirmed W session q evs e) (hevs : ∀ i o, .discover i o ∉ evs) : Confirmed W session q [] e := by
  have hd : ∀ c d, Discovered session evs c d → Discovered session [] c d := by
    rintro c d (hx | ⟨_, _, hx, -⟩)
    · exact .inl hx
    · exact absurd hx (hevs _ _)
  unfold Confirmed at h ⊢
  split
  · next hv1 =>
    rw [if_pos hv1] at h
    obtain ⟨c, i, p1, p2, p3, p4⟩ := h
    exact ⟨c, i, p1, p2, hd _ _ p3, p4⟩
  · next hv1 =>
    rw [if_neg hv1] at h
    rcases h with ⟨c, i, d, p1, p2, p3, p4, p5⟩ | hh
    · exact .inl ⟨c, i, d, p1, p2, p3, hd _ _ p4, p5⟩
    · exact .inr hh

/-- C37, converse: an assertion that passes every check, for the endpoint in the session and with a signature by an
    association the store has, is accepted; the store is asked for the association and told the nonce, and nothing else
    happens.  (The OpenID version must be one of the two with required fields, the message as parsed must itself parse, and
    the signature and the list of signed fields may not be empty.) -/
theorem c37_accepts_stored {W : World} {C : Conf} {E : Consumer.Env} {s : UserSession} {q : Dict Str Str} {current : Str}
    {e : Endpoint} {m m2 : Msg} {signed : List Str} {handle : Str} {a : Assoc} {server : Str} {t : Int} {salt : Str}
    (hq : Dict.WF q)
    (h : Verified W C E s.token q current
      [.store (.getAssociation e.serverUrl (some handle)) (.ok (.assoc (some a))),
       .store (.useNonce server t salt) (.ok (.bool true))] e m signed)
    (hns : arg q t!"ns" ∈ [none, some t!"http://openid.net/signon/1.0", some t!"http://specs.openid.net/auth/2.0"])
    (hset : IsV1 q → arg q t!"user_setup_url" = none) (hm2 : fromPostArgs W.reg m.toPostArgs = .ok m2)
    (hsig : arg q t!"sig" ≠ some []) (hsigned : arg q t!"signed" ≠ some [])
    (ha : a.assocType = t!"HMAC-SHA1" ∨ a.assocType = t!"HMAC-SHA256") :
    ∃ s', Runs (complete W C E s q current)
      [.store (.getAssociation e.serverUrl (some handle)) (.ok (.assoc (some a))),
       .store (.useNonce server t salt) (.ok (.bool true))] (.ok (s', .ok (.success e m signed))) := by
  have hg := got hq h.message
  have hv := versions_of hq h.message hns
  obtain ⟨l, hl, rfl, h2⟩ := h.signed
  obtain ⟨rt, hrt, h3⟩ := h.returnTo
  have hsg := h.signature
  have hC : C.hasStore = true := by
    rcases hsg with ⟨hC, -⟩ | ⟨_, _, -, hx, -⟩
    · exact hC
    · simp at hx
  obtain ⟨nonce, t', salt', n1, n2, n3⟩ := h.nonce
  have n3 := n3 hC
  simp only [List.mem_cons, Ev.store.injEq, reduceCtorEq, false_and, Op.useNonce.injEq, false_or, List.not_mem_nil,
    or_false, and_true] at n3
  obtain ⟨hserver, rfl, rfl⟩ := n3
  have key : ∃ a', (a' = a) ∧ arg q t!"assoc_handle" = some handle ∧ ¬ expired (E.seconds W) a' ∧ SignedWith W.mac a' q m := by
    rcases hsg with ⟨-, hd, b, g1, g2, g3, g4⟩ | ⟨_, _, -, hx, -⟩
    · simp only [List.mem_cons, Ev.store.injEq, reduceCtorEq, false_and, Op.getAssociation.injEq, List.not_mem_nil,
        or_false, Except.ok.injEq, Answer.assoc.injEq, Option.some.injEq, true_and] at g2
      obtain ⟨rfl, rfl⟩ := g2
      exact ⟨_, rfl, g1, g3, g4⟩
    · simp at hx
  obtain ⟨_, rfl, k1, k2, k3⟩ := key
  have hc := checked_of hg.toParsed k3 (by rcases ha with h | h <;> rw [h] <;> decide) hsig hsigned
  have h5 := signature_stored (C := C) (url := e.serverUrl) hg.toParsed k1 hC k2 hc
  have h6 := nonce_of (C := C) (e := e) hg hv n1 n2
  rw [if_pos hC, hserver] at h6
  have hconf := h.discovery.without (by simp)
  exact ⟨_, accepts hq h.message hm2 hns h.mode hset h.fields hl h2 hrt h3 hconf h5 h6⟩

/-- C37, converse: the same where the consumer has no association for the signature, and asks the provider.  (The signed
    fields must all be there, and belong to no extension; the provider says that the signature is valid, and nothing of
    another association.) -/
theorem c37_accepts_asked {W : World} {C : Conf} {E : Consumer.Env} {s : UserSession} {q : Dict Str Str} {current : Str}
    {e : Endpoint} {m m2 : Msg} {signed : List Str} {handle body : Str} {reply : Http} {server : Str} {t : Int} {salt : Str}
    {evs : List Ev} (hq : Dict.WF q)
    (hevs : evs =
      (if C.hasStore then [.store (.getAssociation e.serverUrl (some handle)) (.ok (.assoc none))] else []) ++
      [.post e.serverUrl body (.ok reply)] ++
      (if C.hasStore then [.store (.useNonce server t salt) (.ok (.bool true))] else []))
    (h : Verified W C E s.token q current evs e m signed) (hh : arg q t!"assoc_handle" = some handle)
    (hns : arg q t!"ns" ∈ [none, some t!"http://openid.net/signon/1.0", some t!"http://specs.openid.net/auth/2.0"])
    (hset : IsV1 q → arg q t!"user_setup_url" = none) (hm2 : fromPostArgs W.reg m.toPostArgs = .ok m2)
    (hsigned : ∀ l, arg q t!"signed" = some l → ∀ f ∈ splitOn ',' l, '.' ∉ f ∧ (f = t!"ns" ∨ ∃ v, arg q f = some v))
    (hreply : ∀ text d, Utf8.decode reply.body = .ok text → KVForm.kvToDict text = .ok d →
      (∀ k ∈ Dict.keys d, '.' ∉ k) ∧ d.get? t!"invalidate_handle" = none ∧
      d.get? t!"ns" ∈ [none, some t!"http://openid.net/signon/1.0", some t!"http://specs.openid.net/auth/2.0"]) :
    ∃ s', Runs (complete W C E s q current) evs (.ok (s', .ok (.success e m signed))) := by
  have hg := got hq h.message
  have hv := versions_of hq h.message hns
  obtain ⟨l, hl, rfl, h2⟩ := h.signed
  obtain ⟨rt, hrt, h3⟩ := h.returnTo
  obtain ⟨nonce, t', salt', n1, n2, n3⟩ := h.nonce
  have h6 := nonce_of (C := C) (e := e) hg hv n1 n2
  have hev3 : (if C.hasStore then [Ev.store (.useNonce (nonceIn q e.serverUrl).2 t' salt') (.ok (.bool true))] else []) =
      (if C.hasStore then [Ev.store (.useNonce server t salt) (.ok (.bool true))] else []) := by
    cases hC : C.hasStore with
    | false => rfl
    | true =>
      have n3 := n3 hC
      rw [hevs, hC] at n3
      simp at n3
      obtain ⟨g1, rfl, rfl⟩ := n3
      rw [g1]
  rw [hev3] at h6
  have hsg : ∃ ask, m.setArg .openid t!"mode" t!"check_authentication" = .ok ask ∧ body = ask.toURLEncoded ∧
      RepliedWith (.ok reply) t!"is_valid" t!"true" := by
    rcases h.signature with ⟨hC, _, _, -, hx, -⟩ | ⟨ask, o, g1, g2, g3, -⟩
    · rw [hevs, hC] at hx; simp at hx
    · refine ⟨ask, g1, ?_⟩
      rw [hevs] at g2
      cases hC : C.hasStore <;> rw [hC] at g2 <;> simp at g2 <;> obtain ⟨g2, rfl⟩ := g2 <;> exact ⟨g2.symm, g3⟩
  obtain ⟨ask, k1, rfl, r, text, d, hr, k2, k3, k4, k5⟩ := hsg
  simp only [Except.ok.injEq] at hr
  subst hr
  obtain ⟨hd1, hd2, hd3⟩ := hreply text d k3 k4
  have hw : Dict.WF d := by
    rw [KVForm.kvToDict] at k4
    obtain ⟨l, -, h5⟩ := bind_eq_ok.1 k4
    simp at h5; subst h5
    exact Dict.WF_ofPairs _
  obtain ⟨response, hresp⟩ : ∃ response, fromOpenIDArgs W.reg d = .ok response := by
    cases hx : fromOpenIDArgs W.reg d with
    | ok r => exact ⟨r, rfl⟩
    | error x =>
      exfalso
      rcases fromOpenIDArgs_error hw hx with ⟨-, u, p1, p2⟩ | ⟨-, -, k, p1, p2⟩
      · rw [p1] at hd3
        apply p2
        simp only [List.mem_cons, reduceCtorEq, Option.some.injEq, List.not_mem_nil, or_false, false_or] at hd3
        rcases hd3 with rfl | rfl <;> decide
      · exact hd1 k p1 p2
  have hget := (fromOpenIDArgs_has hw hresp).2
  have hhttp : httpResponseToMessage W reply = .ok response := by
    rw [httpResponseToMessage, k3]
    simp only [lift, ok_bind]
    rw [fromKVForm, k4, ok_bind, hresp]
    simp only [ok_bind]
    rw [if_neg (by rcases k2 with h | h <;> rw [h] <;> decide), if_pos k2]; rfl
  have h5 := signature_asked (W := W) (C := C) (E := E) (url := e.serverUrl) (reply := reply) (e3 := []) (inv := none)
    hg.toParsed hh
    (by
      rw [hl]
      cases l with
      | nil => rfl
      | cons c l => exact signed_present hg hv _ (hsigned _ hl))
    k1 hhttp (by rw [hget _ (by decide) (by decide), k5]) (by rw [hget _ (by decide) (by decide), hd2]) ⟨rfl, rfl⟩
  have hconf := h.discovery.without (by
    intro i o hx
    rw [hevs] at hx
    cases hC : C.hasStore <;> rw [hC] at hx <;> simp at hx)
  rw [hevs]
  exact ⟨_, accepts hq h.message hm2 hns h.mode hset h.fields hl h2 hrt h3 hconf h5 h6⟩

theorem check_play {α : Type} {p : Prog α} {evs : List Ev} {f : Except Err α → Bool} (h : (play p evs).map f = some true) :
    ∃ r, Runs p evs r ∧ f r = true := by
  cases hp : play p evs with
  | none => rw [hp] at h; cases h
  | some r => rw [hp] at h; exact ⟨r, play_runs hp, by simpa using h⟩

/-- the identifier and the signed fields of a completion that succeeds -/
def accepted0 : Except Err (UserSession × Except Err Consumer.Response) → Bool
  | .ok (_, .ok (.success e m s)) => decide (e = { endpoint0 with claimedId := some t!"http://u.example/#f" } ∧
      s = ([t!"op_endpoint", t!"return_to", t!"response_nonce", t!"assoc_handle", t!"claimed_id", t!"identity"].map
        (t!"openid." ++ ·)) ∧ (fromPostArgs cworld0.reg m.toPostArgs).toOption.isSome = true)
  | _ => false

theorem ran0 : ∃ r, Runs (complete cworld0 cconf0 cenv0 ⟨some endpoint0, none⟩ (cquery0 t!"AQIf")
    t!"http://rp.example/back") cevs0 r ∧ accepted0 r = true := check_play (by decide +kernel)

theorem ran1 : ∃ r, Runs (complete cworld0 cconf0 cenv0 ⟨some endpoint0, none⟩ (cquery0 t!"zz")
    t!"http://rp.example/back") (cevs1.drop 1) r ∧ accepted0 r = true := check_play (by decide +kernel)

theorem verified_of {q : Dict Str Str} {evs : List Ev} (hw : Dict.WF q)
    (h : ∃ r, Runs (complete cworld0 cconf0 cenv0 ⟨some endpoint0, none⟩ q t!"http://rp.example/back") evs r ∧
      accepted0 r = true) :
    ∃ m, Verified cworld0 cconf0 cenv0 (some endpoint0) q t!"http://rp.example/back" evs
      { endpoint0 with claimedId := some t!"http://u.example/#f" } m
      ([t!"op_endpoint", t!"return_to", t!"response_nonce", t!"assoc_handle", t!"claimed_id", t!"identity"].map
        (t!"openid." ++ ·)) ∧ ∃ m2, fromPostArgs cworld0.reg m.toPostArgs = .ok m2 := by
  obtain ⟨r, hr, h⟩ := h
  unfold accepted0 at h
  split at h
  · next s' e m s =>
    have h3 := c37_success hw hr
    obtain ⟨rfl, rfl, h2⟩ := of_decide_eq_true h
    refine ⟨m, h3, ?_⟩
    cases hx : fromPostArgs cworld0.reg m.toPostArgs with
    | ok m2 => exact ⟨m2, rfl⟩
    | error _ => rw [hx] at h2; cases h2
  · cases h

-- the assertion `cquery0` passes every check
-- so it is accepted
example : ∃ s' e m signed, e.claimedId = some t!"http://u.example/#f" ∧
    Runs (complete cworld0 cconf0 cenv0 ⟨some endpoint0, none⟩ (cquery0 t!"AQIf") t!"http://rp.example/back")
      cevs0 (.ok (s', .ok (.success e m signed))) := by
  obtain ⟨m, h, m2, h2⟩ := verified_of (by decide) ran0
  obtain ⟨s', h'⟩ := c37_accepts_stored (s := ⟨some endpoint0, none⟩) (q := cquery0 t!"AQIf") (a := cassoc0)
    (handle := t!"h") (server := t!"http://op.example/") (t := 1116177111) (salt := t!"aa")
    (e := { endpoint0 with claimedId := some t!"http://u.example/#f" }) (by decide) h (by decide) (by decide) h2 (by decide)
    (by decide) (by decide)
  exact ⟨s', _, _, _, rfl, h'⟩

-- and where the provider is asked
example : ∃ s' e m signed, e.claimedId = some t!"http://u.example/#f" ∧
    Runs (complete cworld0 cconf0 cenv0 ⟨some endpoint0, none⟩ (cquery0 t!"zz") t!"http://rp.example/back")
      (cevs1.drop 1) (.ok (s', .ok (.success e m signed))) := by
  obtain ⟨m, h, m2, h2⟩ := verified_of (by decide) ran1
  obtain ⟨s', h'⟩ := c37_accepts_asked (s := ⟨some endpoint0, none⟩) (q := cquery0 t!"zz") (C := cconf0)
    (handle := t!"h") (server := t!"http://op.example/") (t := 1116177111) (salt := t!"aa")
    (reply := ⟨200, Utf8.encode t!"is_valid:true\n"⟩)
    (e := { endpoint0 with claimedId := some t!"http://u.example/#f" }) (by decide) rfl h rfl (by decide) (by decide) h2
    (by
      intro l hl
      have : l = t!"op_endpoint,return_to,response_nonce,assoc_handle,claimed_id,identity" := by
        simpa [arg, cquery0, Dict.get?] using hl.symm
      subst this
      have hdec : ∀ f ∈ splitOn ',' t!"op_endpoint,return_to,response_nonce,assoc_handle,claimed_id,identity",
        '.' ∉ f ∧ (f = t!"ns" ∨ (arg (cquery0 t!"zz") f).isSome) := by decide
      exact fun f hf => ⟨(hdec f hf).1, (hdec f hf).2.imp id Option.isSome_iff_exists.1⟩)
    (by
      intro text d ht hd
      have h1 : text = t!"is_valid:true\n" := by
        have : Utf8.decode (Utf8.encode t!"is_valid:true\n") = .ok t!"is_valid:true\n" := by decide
        rw [this] at ht; cases ht; rfl
      subst h1
      have h2 : KVForm.kvToDict t!"is_valid:true\n" = .ok [(t!"is_valid", t!"true")] := by decide
      rw [h2] at hd; cases hd
      decide)
  exact ⟨s', _, _, _, rfl, h'⟩

end Props
