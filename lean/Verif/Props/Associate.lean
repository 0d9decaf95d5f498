import Verif.Lemmas.Associate
/-! # C36: a consumer and a server end up with the same association -/

namespace Props
open Py Message Association Cryptutil Store Discover Consumer Spec DH

/-- **C36** Every association request a consumer sends (whose negotiator allows only pairs of types that go together) is
    read by a server as a request for those types. -/
theorem c36_understood {WS : Server.World} {WC : Consumer.World} (hsame : SameCrypto WS WC) {C : Conf}
    (hC : ∀ p ∈ C.negotiator, SessionFits p.2 p.1) {EC : Consumer.Env} {u : UserSession} {e : Endpoint} {anonymous : Bool}
    {evs : List Ev} {r : Except Err (UserSession × Except Err AuthRequest)}
    (h : Runs (beginWithoutDiscovery WC C EC u e anonymous) evs r) {url body : Str} {o : Except PyErr Http}
    (hm : .post url body o ∈ evs) (ES : Server.Env) (op : Option Str) :
    ∃ req, Server.decode WS ES op (Percent.parseQsl true body) = .ok (some (.associate req)) ∧
      ∃ p ∈ C.negotiator, req.assocType = p.1 ∧ req.session.sessionType = p.2 := by
  obtain ⟨-, p, hp, hask⟩ := (c40_beginWithoutDiscovery h).asked _ _ _ hm
  obtain ⟨req, h1, h2, h3⟩ := decode_request hsame hask (hC p hp) ES op
  exact ⟨req, h1, p, hp, h2, h3⟩

/-- what a consumer makes of the answer to a request it sent -/
theorem reply_read {σ : Type} {step : σ → Event → σ × Outcome} {view : σ → AssocMap} {WS : Server.World}
    {WC : Consumer.World} (hsame : SameCrypto WS WC) (hf : Faithful WS.clock step view) {priv : Nat} {now : Int}
    {e : Endpoint} {a t : Str} {sess : Session} {m : Msg} (hcr : createAssociateRequest WC priv e a t = .ok (sess, m))
    {ES : Server.Env} (hlib : Exchanges WC.lib ES.priv priv)
    (hrandom : ∀ n, (ES.secret n).length = n) {op : Option Str} {req : Server.AssociateRequest} {n : Negotiator} {s s' : σ}
    {resp : Server.Response}
    (hdec : Server.decode WS ES op (Percent.parseQsl true m.toURLEncoded) = .ok (some (.associate req)))
    (hperm : Permits n req.assocType req.session.sessionType)
    (hrun : Server.Prog.run step ES.now s (Server.openidAssociate WS ES n req) = (s', .ok resp)) :
    (∃ w, Server.encode resp = .ok w) ∧
    ∀ status kv, Server.encode resp = .ok ⟨status, none, kv⟩ →
      ∃ as response, Makes WS ES as ∧
        view s' = (fun u k => if u = t!"http://localhost/|normal" ∧ k = as.handle then some as else view s u k) ∧
        httpResponseToMessage WC ⟨status, Utf8.encode kv⟩ = .ok response ∧ as.assocType = a ∧
        extractAssociation WC now response sess = .ok ⟨as.handle, as.secret, now, 1209600, a⟩ := by
  obtain ⟨hst, hask, hkey⟩ := createRequest_ok hcr
  obtain ⟨⟨args, hw, hbody, g1, g2, g3, g4, g5⟩, hk, -⟩ := hask
  rw [hbody, c06_urlencode_round_trip, c34_associate WS ES op args hw] at hdec
  obtain ⟨-, hmsg, hasked, hfit, hmade⟩ := hdec
  obtain ⟨as, oid, kvs, hmk, hat, hview, hreq, hoid, hsec, hcar⟩ := c36_allowed WS ES hf n req s s' resp hperm hrun
  have hoidv : oid = if e.compatibilityMode = true then OPENID1_NS else OPENID2_NS := by
    have := (fromPostArgs_has hw hmsg).1.ns
    rw [show args.get? t!"openid.ns" = arg args t!"ns" from rfl, g4] at this
    rw [Msg.getOpenIDNamespace, NamespaceMap.getNamespaceURI, this] at hoid
    simp only [Option.some.injEq] at hoid
    rw [← hoid]
    split <;> rfl
  have hv1 : MsgV1 req.message ↔ oid = OPENID1_NS := by
    rw [MsgV1, hoid, hoidv]
    split <;> simp [OPENID1_NS, OPENID2_NS]
  have ht : req.session.sessionType = t ∧ req.assocType = a := by
    unfold SessionAsked at hasked
    by_cases hc : e.compatibilityMode = true
    · have hv : IsV1 args := by intro u hu; rw [g4, if_pos hc] at hu; cases hu
      rw [if_pos hv, g2] at hasked
      refine ⟨?_, hasked.2⟩
      rw [hasked.1]
      by_cases ht : t = t!"no-encryption"
      · rw [if_pos ⟨hc, ht⟩] at g3
        rw [g3, ht]; rfl
      · rw [if_neg (fun h => ht h.2)] at g3
        rw [g3]
        simp only [List.mem_cons, List.not_mem_nil, or_false] at hk
        rcases hk with rfl | rfl | rfl <;> rfl
    · have hv : ¬ IsV1 args := by
        intro h
        have := h _ (by rw [g4, if_neg hc])
        revert this; decide
      rw [if_neg hv, g2] at hasked
      rw [if_neg (fun h => hc h.1), hasked.1] at g3
      simp at g3
      exact ⟨g3, by simpa using hasked.2.symm⟩
  obtain ⟨ht, ha⟩ := ht
  obtain ⟨len, hlen, hsecret, hissued, hlife, hhandle⟩ := id hmk
  -- what the secret is sent as, and that the consumer gets it
  have hkv : ∃ s1 s2, (kvs = [(t!"mac_key", some s1)] ∧ sess = .plain ∧ req.session = .plain ∧ s1 = toBase64 as.secret) ∨
      (kvs = [(t!"dh_server_public", some s1), (t!"enc_mac_key", some s2)] ∧ sess ≠ .plain ∧ req.session ≠ .plain ∧
        (∃ x y, s1 = toBase64 x ∧ s2 = toBase64 y) ∧
        ∀ response, response.getArgReq .openid t!"dh_server_public" = .ok s1 →
          response.getArgReq .openid t!"enc_mac_key" = .ok s2 → sess.extractSecret WC response = .ok as.secret) := by
    by_cases hpl : t = t!"no-encryption"
    · subst hpl
      have h1 : sess = .plain := by rcases sess with _ | ⟨_ | _, _⟩ <;> simp [Session.sessionType] at hst ⊢
      have h2 : req.session = .plain := by
        cases hs : req.session with
        | plain => rfl
        | dh b d k => rw [hs] at ht; cases b <;> simp [Server.Session.sessionType] at ht
      rw [h2] at hsec
      exact ⟨_, [], .inl ⟨hsec, h1, h2, rfl⟩⟩
    · have h2 : req.session ≠ .plain := by rintro hc; rw [hc] at ht; exact hpl ht.symm
      have h1 : sess ≠ .plain := by rintro rfl; exact hpl hst.symm
      obtain ⟨b, d, rfl⟩ : ∃ b d, sess = .dh b d := by
        cases sess with
        | plain => exact absurd rfl h1
        | dh b d => exact ⟨b, d, rfl⟩
      rcases hmade with hc | ⟨b', mo, ge, ds, k, hs, hpar, hnew, hcp, -⟩
      · exact absurd hc h2
      · rw [hs] at hsec ht
        have hbb : b' = b := by
          rw [← hst] at ht
          cases b <;> cases b' <;> simp [Server.Session.sessionType, Session.sessionType] at ht ⊢
        subst hbb
        obtain ⟨args', priv', pub, -, hb, hd, hpub, k1, k2, k3⟩ := hkey b' d rfl
        rw [hbody] at hb
        have := same_args hb
        subst this
        have hd' : DiffieHellman.fromDefaults WC.lib priv = .ok d := by
          rw [createAssociateRequest] at hcr
          obtain ⟨s0, c1, hcr⟩ := bind_eq_ok.1 hcr
          obtain ⟨_, -, hcr⟩ := bind_eq_ok.1 hcr
          obtain ⟨_, -, hcr⟩ := bind_eq_ok.1 hcr
          simp at hcr
          obtain ⟨rfl, -⟩ := hcr
          exact session_dh c1
        obtain ⟨rfl, rfl⟩ : mo = defaultModulus ∧ ge = defaultGenerator := by
          rcases hpar with ⟨h, -⟩ | ⟨-, -, -, h1, h2⟩
          · rw [k2] at h; cases h
          · exact ⟨h1, h2⟩
        rw [k1] at hcp
        simp only [Option.some.injEq] at hcp
        subst hcp
        rw [DiffieHellman.fromDefaults, DiffieHellman.new] at hd'
        obtain ⟨P, p1, hd'⟩ := bind_eq_ok.1 hd'
        obtain ⟨G, p2, hd'⟩ := bind_eq_ok.1 hd'
        rw [DiffieHellman.new, p1, p2] at hnew
        simp only [ok_bind] at hnew hd'
        split at hd'
        · split at hnew
          · simp at hd' hnew
            subst hd'; subst hnew
            obtain ⟨spub, enc, q1, q2, q3⟩ := hsec
            obtain ⟨w1, w2, w3⟩ : WC.lib.okPub P G (G ^ ES.priv % P) = true ∧ WC.lib.okPub P G (G ^ priv % P) = true ∧
                ∀ z, WC.lib.sharedBytes P z ≠ [] := by
              exact hlib P G p1 p2
            have hl : ∀ x, (WC.hash b' x).length = as.secret.length := by
              intro x
              rw [hsecret, hrandom]
              rw [hat, ha] at hlen
              rw [hst.symm] at ht
              cases b' with
              | false =>
                have : SessionFits t!"DH-SHA1" a := by rw [hs, ha] at hfit; exact hfit
                have : a = t!"HMAC-SHA1" := by simpa [SessionFits] using this
                subst this
                simp at hlen; subst hlen
                exact hsame.len1 x
              | true =>
                have : SessionFits t!"DH-SHA256" a := by rw [hs, ha] at hfit; exact hfit
                have : a = t!"HMAC-SHA256" := by simpa [SessionFits] using this
                subst this
                simp at hlen; subst hlen
                exact hsame.len256 x
            have hash : (if b' = true then WS.sha256 else WS.sha1) = WC.hash b' := by
              rw [World.hash, hsame.sha1, hsame.sha256]
            obtain ⟨enc', r1, r2⟩ := c05_secret_transport WC.lib (WC.hash b') ⟨P, G, priv⟩ ⟨P, G, ES.priv⟩ rfl rfl pub spub
              hpub q1 w1 w2 w3 as.secret hl
            rw [hsame.lib, hash, r1] at q2
            simp only [Except.ok.injEq] at q2
            subst q2
            refine ⟨spub, enc', .inr ⟨q3, h1, h2, ?_, ?_⟩⟩
            · rw [DiffieHellman.publicKey, longToBase64] at q1
              obtain ⟨x, -, q1⟩ := bind_eq_ok.1 q1
              rw [DiffieHellman.xorSecret] at r1
              obtain ⟨_, -, r1⟩ := bind_eq_ok.1 r1
              obtain ⟨_, -, r1⟩ := bind_eq_ok.1 r1
              obtain ⟨_, -, r1⟩ := bind_eq_ok.1 r1
              obtain ⟨y, -, r1⟩ := bind_eq_ok.1 r1
              simp at q1 r1
              exact ⟨x, y, q1.symm, r1.symm⟩
            · intro response g1 g2
              have hdec1 : ∃ x, base64ToLong spub = .ok x := by
                rw [DiffieHellman.xorSecret] at r2
                obtain ⟨_, r2, -⟩ := bind_eq_ok.1 r2
                rw [DiffieHellman.getSharedSecret] at r2
                obtain ⟨x, r2, -⟩ := bind_eq_ok.1 r2
                exact ⟨x, r2⟩
              have hdec2 : ∃ x, fromBase64 enc' = .ok x := by
                rw [DiffieHellman.xorSecret] at r2
                obtain ⟨_, -, r2⟩ := bind_eq_ok.1 r2
                obtain ⟨_, -, r2⟩ := bind_eq_ok.1 r2
                obtain ⟨x, r2, -⟩ := bind_eq_ok.1 r2
                exact ⟨x, r2⟩
              obtain ⟨x1, hdec1⟩ := hdec1
              obtain ⟨x2, hdec2⟩ := hdec2
              simp only [Session.extractSecret, g1, g2, ok_bind, hdec1, hdec2, r2]
              exact c04_base64 _
          · simp at hnew
        · simp at hd'
  obtain ⟨s1, s2, hkv⟩ := hkv
  rw [ha] at hcar
  have hst2 : (if req.session = .plain ∧ MsgV1 req.message then none else some req.session.sessionType) =
      if sess = .plain ∧ oid = OPENID1_NS then none else some sess.sessionType := by
    have : req.session = .plain ↔ sess = .plain := by
      rcases hkv with ⟨-, h1, h2, -⟩ | ⟨-, h1, h2, -⟩ <;> simp [h1, h2]
    rw [ht, hst]
    simp only [this, hv1]
  rw [hst2] at hcar
  generalize hst3 : (if sess = .plain ∧ oid = OPENID1_NS then none else some sess.sessionType) = st at hcar
  have hstv : ∀ v, st = some v → v ∈ [t!"DH-SHA256", t!"DH-SHA1", t!"no-encryption"] := by
    intro v hv
    rw [← hst3] at hv
    split at hv
    · cases hv
    · simp only [Option.some.injEq] at hv
      rw [← hv, hst]; exact hk
  have hav : a = t!"HMAC-SHA1" ∨ a = t!"HMAC-SHA256" := by
    rw [hat, ha] at hlen
    rcases hlen with ⟨h, -⟩ | ⟨h, -⟩
    · exact .inl h
    · exact .inr h
  generalize hL : ([(t!"expires_in", some t!"1209600"), (t!"assoc_type", some a), (t!"assoc_handle", some as.handle)] ++ kvs ++
    [(t!"session_type", st)] : List (Str × Option Str)) = L at hcar
  have hkeys : ∀ k v, argsOf L k = some v → (k, some v) ∈ L := by
    intro k v
    clear hL hcar
    induction L with
    | nil => simp [argsOf]
    | cons p r ih =>
      obtain ⟨k', v'⟩ := p
      rw [argsOf]
      split
      · next e => intro h; subst e; subst h; simp
      · intro h; exact List.mem_cons_of_mem _ (ih h)
  have hnsp : ∀ v ∈ [t!"DH-SHA256", t!"DH-SHA1", t!"no-encryption", t!"HMAC-SHA1", t!"HMAC-SHA256", t!"1209600"],
      Server.Clean v := by
    intro v hv
    apply Server.clean_of
    revert v
    decide +kernel
  have hclean : ∀ k v, argsOf L k = some v → Server.Clean k ∧ ':' ∉ k ∧ Server.Clean v ∧ '.' ∉ k ∧ k ≠ t!"ns" := by
    intro k v h
    have hm := hkeys k v h
    have hkk : k ∈ [t!"expires_in", t!"assoc_type", t!"assoc_handle", t!"mac_key", t!"dh_server_public", t!"enc_mac_key",
        t!"session_type"] ∧ Server.Clean v := by
      have hh : Server.Clean as.handle := by
        rw [hhandle]
        apply Server.clean_of
        apply Server.handle_noSpace
        rw [hat, ha]
        rcases hav with rfl | rfl <;> decide
      have hac : Server.Clean a := by rcases hav with rfl | rfl <;> exact hnsp _ (by simp)
      subst hL
      simp only [List.cons_append, List.nil_append, List.mem_cons, List.mem_append, Prod.mk.injEq, Option.some.injEq,
        List.not_mem_nil, or_false] at hm
      rcases hm with ⟨rfl, rfl⟩ | ⟨rfl, rfl⟩ | ⟨rfl, rfl⟩ | hm | ⟨rfl, hm⟩
      · exact ⟨by simp, hnsp _ (by simp)⟩
      · exact ⟨by simp, hac⟩
      · exact ⟨by simp, hh⟩
      · rcases hkv with ⟨rfl, -, -, h3⟩ | ⟨rfl, -, -, ⟨x, y, h3, h4⟩, -⟩
        · simp at hm
          obtain ⟨rfl, rfl⟩ := hm
          exact ⟨by simp, by rw [h3]; exact Server.clean_of (Server.toBase64_noSpace _)⟩
        · simp at hm
          rcases hm with ⟨rfl, rfl⟩ | ⟨rfl, rfl⟩
          · exact ⟨by simp, by rw [h3]; exact Server.clean_of (Server.toBase64_noSpace _)⟩
          · exact ⟨by simp, by rw [h4]; exact Server.clean_of (Server.toBase64_noSpace _)⟩
      · exact ⟨by simp, hnsp _ (by have := hstv v hm.symm; simp at this ⊢; grind)⟩
    have hkc : ∀ k ∈ [t!"expires_in", t!"assoc_type", t!"assoc_handle", t!"mac_key", t!"dh_server_public", t!"enc_mac_key",
        t!"session_type"], (∀ c ∈ k, isSpace c = false) ∧ ':' ∉ k ∧ '.' ∉ k ∧ k ≠ t!"ns" := by decide +kernel
    obtain ⟨c1, c2, c3, c4⟩ := hkc k hkk.1
    exact ⟨Server.clean_of c1, c2, hkk.2, c3, c4⟩
  have hoin : oid ∈ [OPENID1_NS, THE_OTHER_OPENID1_NS, OPENID2_NS] := by rw [hoidv]; split <;> simp
  obtain ⟨kv0, d', e1, e2, e3, e4⟩ := Server.kv_transport hcar hoin (fun k v h => by
    obtain ⟨c1, c2, c3, -⟩ := hclean k v h; exact ⟨c1, c2, c3⟩)
  have hrc : ∀ c, resp.request ≠ .checkId c := by rw [hreq]; simp
  refine ⟨⟨_, (c52_direct resp hrc _).2 ⟨kv0, e1, rfl⟩⟩, fun status kv henc => ?_⟩
  obtain ⟨kv1, e5, e6⟩ := (c52_direct resp hrc _).1 henc
  rw [e1] at e5
  simp only [Except.ok.injEq] at e5
  subst e5
  simp only [Server.WebResponse.mk.injEq, true_and] at e6
  obtain ⟨rfl, rfl⟩ := e6
  have hnsn : argsOf L t!"ns" = none := by
    cases hc : argsOf L t!"ns" with
    | none => rfl
    | some v => exact absurd rfl (hclean _ v hc).2.2.2.2
  have hv2 : OPENID1_NAMESPACES.contains oid = false ↔ ¬ e.compatibilityMode = true := by
    rw [hoidv]; split <;> simp_all <;> decide
  have hdns : d'.get? t!"ns" = if e.compatibilityMode = true then none else some OPENID2_NS := by
    rw [e4, hnsn, Option.none_or]
    by_cases hcm : e.compatibilityMode = true
    · rw [if_neg (fun h => hv2.1 h.2 hcm), if_pos hcm]
    · rw [if_pos ⟨rfl, hv2.2 hcm⟩, if_neg hcm, hoidv, if_neg hcm]
  obtain ⟨response, x1, x2⟩ := Server.plain_exactly (reg := WC.reg) e3 (by
    intro k hk
    have : d'.get? k ≠ none := by
      intro hc
      exact absurd hk ((Dict.get?_none_iff d' k).1 hc)
    rw [e4] at this
    cases hc : argsOf L k with
    | some v => exact (hclean k v hc).2.2.2.1
    | none =>
      rw [hc, Option.none_or] at this
      split at this
      · next h => rw [h.1]; decide
      · simp at this) (by rw [hdns]; split <;> simp)
  have hoid2 : (d'.get? t!"ns").getD OPENID1_NS = oid := by rw [hdns, hoidv]; split <;> rfl
  rw [hoid2] at x2
  generalize hD : (fun k => if k = t!"ns" then none else d'.get? k) = D at x2
  have hget : ∀ k, k ≠ t!"ns" → D k = argsOf L k := by
    intro k hn
    rw [← hD]
    simp only [if_neg hn]
    rw [e4, if_neg (fun h => hn h.1)]; simp
  have hhttp : httpResponseToMessage WC ⟨200, Utf8.encode kv⟩ = .ok response := by
    simp [httpResponseToMessage, Utf8.decode_encode, fromKVForm, e2, x1, Consumer.lift]
  have hsecr : sess.extractSecret WC response = .ok as.secret := by
    rcases hkv with ⟨hkk, h1, h2, h3⟩ | ⟨hkk, h1, h2, -, h4⟩
    · subst h1
      have : response.getArgReq .openid t!"mac_key" = .ok s1 := by
        apply getArgReq_exactly x2
        rw [hget _ (by decide), ← hL, hkk]; rfl
      simp only [Session.extractSecret, this, ok_bind]
      rw [h3]; exact c04_base64 _
    · apply h4
      · apply getArgReq_exactly x2
        rw [hget _ (by decide), ← hL, hkk]; rfl
      · apply getArgReq_exactly x2
        rw [hget _ (by decide), ← hL, hkk]; rfl
  have hext := extract_exactly (W := WC) (now := now) x2 (by rw [hoidv]; split <;> simp)
    (a := a) (handle := as.handle) (t := t) (s := sess) (secret := as.secret)
    (by rw [hget _ (by decide), ← hL]; rfl) (by rw [hget _ (by decide), ← hL]; rfl)
    (by rw [hget _ (by decide), ← hL]; rfl)
    (by
      rw [hget _ (by decide), ← hL, hst3]
      rcases hkv with ⟨rfl, -⟩ | ⟨rfl, -⟩ <;> rfl)
    hst (by rw [ht, ha] at hfit; exact hfit) hsecr
  exact ⟨as, response, hmk, hview, hhttp, by rw [hat, ha], hext⟩

/-- **C36** The server's answer to a request of the consumer it grants: it can be sent; and if it is what the consumer gets,
    the consumer stores the association the server stored. -/
theorem c36_agree {σ : Type} {step : σ → Event → σ × Outcome} {view : σ → AssocMap} {WS : Server.World}
    {WC : Consumer.World} (hsame : SameCrypto WS WC) (hf : Faithful WS.clock step view) {C : Conf} {EC : Consumer.Env}
    {u : UserSession} {e : Endpoint} {anonymous : Bool} {pre rest : List Ev} {url body kv : Str} {status : Nat}
    {r : Except Err (UserSession × Except Err AuthRequest)}
    (h : Runs (beginWithoutDiscovery WC C EC u e anonymous)
      (pre ++ .post url body (.ok ⟨status, Utf8.encode kv⟩) :: rest) r)
    {ES : Server.Env} (hlib : Exchanges WC.lib ES.priv EC.priv1 ∧ Exchanges WC.lib ES.priv EC.priv2)
    (hrandom : ∀ n, (ES.secret n).length = n) {op : Option Str} {req : Server.AssociateRequest} {n : Negotiator} {s s' : σ}
    {resp : Server.Response}
    (hdec : Server.decode WS ES op (Percent.parseQsl true body) = .ok (some (.associate req)))
    (hperm : Permits n req.assocType req.session.sessionType)
    (hrun : Server.Prog.run step ES.now s (Server.openidAssociate WS ES n req) = (s', .ok resp)) :
    (∃ w, Server.encode resp = .ok w) ∧
    (Server.encode resp = .ok ⟨status, none, kv⟩ →
      ∃ a b out, view s' t!"http://localhost/|normal" a.handle = some a ∧
        rest = [.store (.storeAssociation e.serverUrl b) out] ∧ Agree a b ∧
        a.issued = WS.clock.seconds ES.now ∧ b.issued = WC.clock.seconds EC.now) := by
  obtain ⟨priv, a, t, sess, m, hpriv, hp, rfl, hcr, rfl, hrep⟩ := begin_reply h
  obtain ⟨h1, h2⟩ := reply_read (now := EC.seconds WC) hsame hf hcr
    (hpriv.elim (fun h => h ▸ hlib.1) (fun h => h ▸ hlib.2)) hrandom hdec hperm hrun
  refine ⟨h1, fun henc => ?_⟩
  obtain ⟨as, response, hmk, hview, hhttp, hat, hext⟩ := h2 _ _ henc
  obtain ⟨len, hlen, hsecret, hissued, hlife, hhandle⟩ := hmk
  obtain ⟨out, hout⟩ := hrep response _ hhttp hext
  refine ⟨as, _, out, ?_, hout, ⟨rfl, rfl, hat, hlife⟩, hissued, rfl⟩
  rw [hview]; simp

/-! ## A concrete pair -/

/-- run a consumer call against a store, a web server and a discovery -/
def drive {σ α : Type} (step : σ → Event → σ × Outcome) (now : Nat) (web : Str → Str → Except PyErr Http)
    (disc : Str → Except PyErr (Str × List Endpoint)) : σ → Consumer.Prog α → List Ev × σ × Except Err α
  | s, .done r => ([], s, r)
  | s, .store op k =>
    let x := step s (now, op)
    let y := drive step now web disc x.1 (k x.2)
    (.store op x.2 :: y.1, y.2)
  | s, .post u b k =>
    let y := drive step now web disc s (k (web u b))
    (.post u b (web u b) :: y.1, y.2)
  | s, .discover i k =>
    let y := drive step now web disc s (k (disc i))
    (.discover i (disc i) :: y.1, y.2)

theorem drive_runs {σ α : Type} (step : σ → Event → σ × Outcome) (now : Nat) (web : Str → Str → Except PyErr Http)
    (disc : Str → Except PyErr (Str × List Endpoint)) (s : σ) (p : Consumer.Prog α) :
    Consumer.Runs p (drive step now web disc s p).1 (drive step now web disc s p).2.2 := by
  induction p generalizing s with
  | done r => exact ⟨rfl, rfl⟩
  | store op k ih => exact ⟨_, _, rfl, ih _ _⟩
  | post u b k ih => exact ⟨_, _, rfl, ih _ _⟩
  | discover i k ih => exact ⟨_, _, rfl, ih _ _⟩

/-- the worlds of the pair: "hashes" of the right lengths -/
def pairServer0 : Server.World :=
  { sworld0 with sha1 := fun x => List.replicate 20 (x.headD 9), sha256 := fun x => List.replicate 32 (x.headD 7) }
def pairConsumer0 : Consumer.World := { pairServer0 with digits := fun _ => none }

example : SameCrypto pairServer0 pairConsumer0 ∧ Exchanges pairConsumer0.lib senv0.priv cenv0.priv1 ∧
    (∀ n, (senv0.secret n).length = n) ∧ ∀ p ∈ cconf0.negotiator, SessionFits p.2 p.1 :=
  ⟨⟨rfl, rfl, rfl, fun x => List.length_replicate, fun x => List.length_replicate⟩,
   fun _ _ _ _ => ⟨rfl, rfl, fun _ => List.cons_ne_nil _ _⟩, fun n => List.length_replicate, by
    intro p hp
    simp only [cconf0, List.mem_cons, List.not_mem_nil, or_false] at hp
    rcases hp with rfl | rfl <;> simp [SessionFits]⟩

/-- the server of the pair, on a fresh memory store -/
def pairServe0 (body : Str) : Option (Server.AssociateRequest × MemStore.Kept × Server.Response) :=
  match Server.decode pairServer0 senv0 none (Percent.parseQsl true body) with
  | .ok (some (.associate req)) =>
    match Server.Prog.run (MemStore.keptStep clock0) senv0.now MemStore.keptInit
        (Server.openidAssociate pairServer0 senv0 defaultAssociationOrder req) with
    | (s', .ok resp) => some (req, s', resp)
    | _ => none
  | _ => none

/-- what it sends -/
def pairWeb0 (_url body : Str) : Except PyErr Http :=
  match pairServe0 body with
  | some (_, _, resp) =>
    match Server.encode resp with
    | .ok ⟨status, none, kv⟩ => .ok ⟨status, Utf8.encode kv⟩
    | _ => .error .fetchingError
  | none => .error .fetchingError

/-- the part of an association both sides have -/
def common0 (a : Assoc) : Assoc := { a with issued := 0 }

/-- the association each side has after the consumer begins: the server's own, by handle, and what the consumer stores -/
def pair0 (C : Conf) (e : Endpoint) : List (Option Assoc) :=
  (drive (MemStore.keptStep clock0) cenv0.now pairWeb0 (fun _ => .error .discoveryFailure) MemStore.keptInit
    (beginWithoutDiscovery pairConsumer0 C cenv0 ⟨none, none⟩ e false)).1.map fun
    | .store (.storeAssociation _ b) _ => some (common0 b)
    | .post _ body _ => (pairServe0 body).bind fun x => ((MemStore.keptView x.2.1 t!"http://localhost/|normal") private0.handle).map common0
    | _ => none

-- Diffie-Hellman with either hash, OpenID 2 and OpenID 1; no encryption
example :
    pair0 cconf0 endpoint0 =
      [none, some ⟨private0.handle, List.replicate 20 65, 0, 1209600, t!"HMAC-SHA1"⟩,
        some ⟨private0.handle, List.replicate 20 65, 0, 1209600, t!"HMAC-SHA1"⟩] ∧
    pair0 cconf0 { endpoint0 with typeUris := [OPENID_1_1_TYPE] } = pair0 cconf0 endpoint0 ∧
    pair0 plainConf0 { endpoint0 with typeUris := [OPENID_1_1_TYPE] } = pair0 plainConf0 endpoint0 ∧
    (pair0 plainConf0 endpoint0).length = 3 := by
  decide +kernel

end Props
